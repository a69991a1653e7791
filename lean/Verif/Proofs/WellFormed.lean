import Verif.Proofs.RoundTripTypes

/-! What decoding yields: integers in range, maps sorted, unrecognised fields free of recognised names. -/

namespace Tuf
open Spec

section
variable {env : Env} {α : Type}

theorem decAnyMap_inv (laws : EnvLaws env) {j : Json} {d : Fields} (h : decAnyMap env j = .ok d) :
    Entries.Sorted d ∧ (∀ e ∈ d, Json.toAny env.anyNum e.2 = some e.2) ∧ ∀ m, j = .obj m → ∀ e ∈ m, (Json.toAny env.anyNum e.2).isSome := by
  unfold decAnyMap at h
  split at h
  · cases h
    exact ⟨Entries.sorted_nil, by simp, by simp⟩
  · next m =>
    split at h
    · next d' hd =>
      cases h
      have hsome : (Json.toAny env.anyNum (.obj m)).isSome := by rw [hd]; rfl
      have hsome' := toAny_obj_isSome.1 hsome
      obtain ⟨l, hl⟩ := Option.isSome_iff_exists.1 (toAnyFields_isSome.2 hsome')
      have hd' := hd
      rw [toAny_obj, hl] at hd'
      simp only [Option.map_some, Option.some.injEq, Json.obj.injEq] at hd'
      have hsorted : Entries.Sorted d := by rw [← hd']; exact Entries.sorted_nil.foldl_set l
      refine ⟨hsorted, ?_, ?_⟩
      · intro e he
        have hidem := toAny_idem (f := env.anyNum) (fun l l' => laws.anyIdem l l') _ _ hd
        have hs2 : (Json.toAny env.anyNum (.obj d)).isSome := by rw [hidem]; rfl
        obtain ⟨l2, hl2⟩ := Option.isSome_iff_exists.1 (toAnyFields_isSome.2 (toAny_obj_isSome.1 hs2))
        have := toAny_sorted hl2 hsorted
        rw [hidem] at this
        simp only [Option.some.injEq, Json.obj.injEq] at this
        subst this
        have hg := toAnyFields_get? hl2 e.1
        rw [Entries.get?_of_mem hsorted.nodup he] at hg
        exact hg.symm
      · rintro m' hm e he
        cases hm
        exact hsome' e he
    · cases h
  · cases h

/-- What an `UnmarshalJSON` method computes. -/
theorem unmarshalStruct_inv (laws : EnvLaws env) {names : List Str} {setField : Str → Json → α → Res α} {zero : α} {post : α → Res α} {setUnrec : Fields → α → α}
    {P : α → Prop} (hzero : P zero) (hset : ∀ f ∈ names, ∀ j, (Json.toAny env.anyNum j).isSome → ∀ a a', P a → setField f j a = .ok a' → P a') {j : Json} {a : α}
    (h : unmarshalStruct env names setField zero post setUnrec j = .ok a) :
    ∃ a1 a2 u, P a1 ∧ post a1 = .ok a2 ∧ FieldsWF env names u ∧ a = setUnrec u a2 := by
  unfold unmarshalStruct at h
  obtain ⟨a1, h1, h⟩ := Res.bind_eq_ok.1 h
  obtain ⟨a2, h2, h⟩ := Res.bind_eq_ok.1 h
  obtain ⟨d, h3, h⟩ := Res.bind_eq_ok.1 h
  cases h
  obtain ⟨h4, h5, h6⟩ := decAnyMap_inv laws h3
  have hget : ∀ e ∈ names.foldl Entries.del d, e.1 ∉ names ∧ e ∈ d := by
    intro e he
    have hg := Entries.get?_of_mem (h4.foldl_del names).nodup he
    rw [Entries.get?_foldl_del] at hg
    split at hg
    · cases hg
    · next hn => exact ⟨hn, Entries.mem_of_get? hg⟩
  refine ⟨a1, a2, _, ?_, h2, ⟨h4.foldl_del names, fun e he => (hget e he).1, fun e he => h5 e (hget e he).2⟩, rfl⟩
  unfold decStruct at h1
  split at h1
  · cases h1; exact hzero
  · next m =>
    exact decFields_inv' (fun k f j a a' hm hf ha hs => hset f (findField_mem hf) j (h6 _ rfl _ hm) a a' ha hs) hzero h1
  · cases h1

theorem unmarshalLists_inv (laws : EnvLaws env) {names lists : List Str} {setField : Str → Json → α → Res α} {zero : α} {setUnrec : Fields → α → α}
    {P : α → Prop} (hzero : P zero) (hset : ∀ f ∈ names, ∀ j a a', P a → setField f j a = .ok a' → P a') {j : Json} {a : α}
    (h : unmarshalLists env names lists setField zero setUnrec j = .ok a) :
    ∃ a1 u, P a1 ∧ FieldsWF env names u ∧ a = setUnrec u a1 := by
  unfold unmarshalLists at h
  obtain ⟨a1, h1, h⟩ := Res.bind_eq_ok.1 h
  obtain ⟨d, h3, h⟩ := Res.bind_eq_ok.1 h
  cases h
  obtain ⟨h4, h5, h6⟩ := decAnyMap_inv laws h3
  have hget : ∀ e ∈ names.foldl Entries.del d, e.1 ∉ names ∧ e ∈ d := by
    intro e he
    have hg := Entries.get?_of_mem (h4.foldl_del names).nodup he
    rw [Entries.get?_foldl_del] at hg
    split at hg
    · cases hg
    · next hn => exact ⟨hn, Entries.mem_of_get? hg⟩
  refine ⟨a1, _, ?_, ⟨h4.foldl_del names, fun e he => (hget e he).1, fun e he => h5 e (hget e he).2⟩, rfl⟩
  unfold decStruct at h1
  split at h1
  · cases h1; exact hzero
  · exact decFields_inv' (fun k f j a a' hm hf ha hs => hset f (findField_mem hf) j a a' ha hs) hzero h1
  · cases h1

theorem decMap_wf {β : Type} {dec : Json → Res β} {P : β → Prop} (hdec : ∀ j x, dec j = .ok x → P x) {j : Json} {old m : GoMap β} (ho : MapWF P old)
    (h : decMap dec j old = .ok m) : MapWF P m := by
  unfold decMap at h
  split at h
  · cases h; exact ⟨Entries.sorted_nil, fun e he => by cases he⟩
  · next es =>
    obtain ⟨es', h1, rfl⟩ := Res.map_eq_ok.1 h
    clear h
    show Entries.Sorted es' ∧ ∀ e ∈ es', P e.2
    have ho' : Entries.Sorted old.entries ∧ ∀ e ∈ old.entries, P e.2 := ho
    generalize old.entries = acc at h1 ho'
    clear ho
    induction es generalizing acc with
    | nil => cases h1; exact ho'
    | cons e es ih =>
      obtain ⟨x, h2, h1⟩ := Res.bind_eq_ok.1 h1
      refine ih _ h1 ⟨ho'.1.set _ _, ?_⟩
      intro e' he'
      rcases Entries.mem_set he' with rfl | he'
      · exact hdec _ _ h2
      · exact ho'.2 _ he'
  · cases h

theorem decPtr_wf {β : Type} {dec : Json → Res β} {P : β → Prop} (hdec : ∀ j x, dec j = .ok x → P x) {j : Json} {p : Option β} (h : decPtr dec j = .ok p) :
    ∀ x, p = some x → P x := by
  intro x hx
  subst hx
  unfold decPtr at h
  split at h
  · cases h
  · obtain ⟨y, h1, h2⟩ := Res.map_eq_ok.1 h
    cases h2
    exact hdec _ _ h1

theorem decSlice_wf {β : Type} {dec : Json → Res β} {P : β → Prop} (hdec : ∀ j x, dec j = .ok x → P x) {j : Json} {s : Slice β} (h : decSlice dec j = .ok s) :
    ∀ x ∈ s.elems, P x := by
  unfold decSlice at h
  split at h
  · cases h; intro x hx; cases hx
  · next l =>
    obtain ⟨l', h1, rfl⟩ := Res.map_eq_ok.1 h
    clear h
    show ∀ x ∈ l', P x
    induction l generalizing l' with
    | nil => cases h1; intro x hx; cases hx
    | cons j l ih =>
      obtain ⟨x, h2, h1⟩ := Res.bind_eq_ok.1 h1
      obtain ⟨l2, h3, h1⟩ := Res.bind_eq_ok.1 h1
      cases h1
      rw [List.forall_mem_cons]
      exact ⟨hdec _ _ h2, ih l2 h3⟩
  · cases h

theorem mapWF_none {β : Type} {P : β → Prop} : MapWF P none := ⟨Entries.sorted_nil, fun e he => by cases he⟩

theorem KeyVal.wf (laws : EnvLaws env) {j : Json} {a : KeyVal} (h : KeyVal.unmarshal env j = .ok a) : FieldsWF env KeyVal.names a.unrec := by
  obtain ⟨a1, a2, u, -, -, hu, rfl⟩ := unmarshalStruct_inv laws (P := fun _ => True) trivial (fun _ _ _ _ _ _ _ _ => trivial) h
  exact hu

theorem fieldsWF_nil (env : Env) (names : List Str) : FieldsWF env names [] := ⟨Entries.sorted_nil, by simp, by simp⟩

theorem Key.wf (laws : EnvLaws env) {j : Json} {a : Key} (h : Key.unmarshal env j = .ok a) : Key.WF env a := by
  obtain ⟨a1, a2, u, h1, h2, hu, rfl⟩ := unmarshalStruct_inv laws (P := fun a => FieldsWF env KeyVal.names a.value.unrec ∧ a.id = []) ⟨fieldsWF_nil _ _, rfl⟩ (by
    intro f _ j _ a a' ha hs
    unfold Key.setField at hs
    split at hs
    · obtain ⟨v, h1, h2⟩ := Res.bind_eq_ok.1 hs
      cases h2; exact ha
    · split at hs
      · obtain ⟨v, h1, h2⟩ := Res.bind_eq_ok.1 hs
        cases h2; exact ha
      · obtain ⟨v, h1, h2⟩ := Res.bind_eq_ok.1 hs
        cases h2; exact ⟨KeyVal.wf laws h1, ha.2⟩) h
  cases h2
  exact ⟨hu, h1.1, h1.2⟩

theorem Role.wf (laws : EnvLaws env) {j : Json} {a : Role} (h : Role.unmarshal env j = .ok a) : Role.WF env a := by
  obtain ⟨a1, u, h1, hu, rfl⟩ := unmarshalLists_inv laws (P := fun a => inInt64 a.threshold = true) (by decide) (by
    intro f _ j a a' ha hs
    unfold Role.setField at hs
    split at hs
    · obtain ⟨v, h1, h2⟩ := Res.bind_eq_ok.1 hs
      cases h2; exact ha
    · obtain ⟨v, h1, h2⟩ := Res.bind_eq_ok.1 hs
      cases h2; exact decInt_range ha h1) h
  exact ⟨hu, h1⟩

theorem SuccinctRoles.wf (laws : EnvLaws env) {j : Json} {a : SuccinctRoles} (h : SuccinctRoles.unmarshal env j = .ok a) : SuccinctRoles.WF env a := by
  obtain ⟨a1, u, h1, hu, rfl⟩ := unmarshalLists_inv laws (P := fun a => inInt64 a.threshold = true ∧ inInt64 a.bitLength = true) (by decide) (by
    intro f _ j a a' ha hs
    unfold SuccinctRoles.setField at hs
    split at hs
    · obtain ⟨v, h1, h2⟩ := Res.bind_eq_ok.1 hs
      cases h2; exact ha
    split at hs
    · obtain ⟨v, h1, h2⟩ := Res.bind_eq_ok.1 hs
      cases h2; exact ⟨decInt_range ha.1 h1, ha.2⟩
    split at hs
    · obtain ⟨v, h1, h2⟩ := Res.bind_eq_ok.1 hs
      cases h2; exact ⟨ha.1, decInt_range ha.2 h1⟩
    · obtain ⟨v, h1, h2⟩ := Res.bind_eq_ok.1 hs
      cases h2; exact ha) h
  exact ⟨hu, h1.1, h1.2⟩

theorem Signature.wf (laws : EnvLaws env) {j : Json} {a : Signature} (h : Signature.unmarshal env j = .ok a) : Signature.WF env a := by
  obtain ⟨a1, a2, u, -, h2, hu, rfl⟩ := unmarshalStruct_inv laws (P := fun _ => True) trivial (fun _ _ _ _ _ _ _ _ => trivial) h
  exact ⟨hu⟩

theorem decHashes_sorted {j : Json} {old h : Hashes} (ho : Entries.Sorted old.entries) (hd : decMap decHex j old = .ok h) : Entries.Sorted h.entries :=
  (decMap_wf (P := fun _ => True) (fun _ _ _ => trivial) ⟨ho, fun _ _ => trivial⟩ hd).1

theorem MetaFiles.wf (laws : EnvLaws env) {j : Json} {a : MetaFiles} (h : MetaFiles.unmarshal env j = .ok a) : MetaFiles.WF env a := by
  obtain ⟨a1, a2, u, h1, h2, hu, rfl⟩ := unmarshalStruct_inv laws
    (P := fun a => inInt64 a.length = true ∧ inInt64 a.version = true ∧ Entries.Sorted a.hashes.entries) ⟨by decide, by decide, Entries.sorted_nil⟩ (by
    intro f _ j _ a a' ha hs
    unfold MetaFiles.setField at hs
    split at hs
    · obtain ⟨v, h1, h2⟩ := Res.bind_eq_ok.1 hs
      cases h2; exact ⟨decInt_range ha.1 h1, ha.2⟩
    split at hs
    · obtain ⟨v, h1, h2⟩ := Res.bind_eq_ok.1 hs
      cases h2; exact ⟨ha.1, ha.2.1, decHashes_sorted ha.2.2 h1⟩
    · obtain ⟨v, h1, h2⟩ := Res.bind_eq_ok.1 hs
      cases h2; exact ⟨ha.1, decInt_range ha.2.1 h1, ha.2.2⟩) h
  cases h2
  exact ⟨hu, h1.1, h1.2.1, h1.2.2⟩

theorem TargetFiles.wf (laws : EnvLaws env) {j : Json} {a : TargetFiles} (h : TargetFiles.unmarshal env j = .ok a) : TargetFiles.WF env a := by
  obtain ⟨a1, a2, u, h1, h2, hu, rfl⟩ := unmarshalStruct_inv laws
    (P := fun a => inInt64 a.length = true ∧ Entries.Sorted a.hashes.entries ∧ ∀ c, a.custom = some c → c ≠ .null ∧ (Json.toAny env.anyNum c).isSome)
    ⟨by decide, Entries.sorted_nil, by simp⟩ (by
    intro f _ j hj a a' ha hs
    unfold TargetFiles.setField at hs
    split at hs
    · obtain ⟨v, h1, h2⟩ := Res.bind_eq_ok.1 hs
      cases h2; exact ⟨decInt_range ha.1 h1, ha.2⟩
    split at hs
    · obtain ⟨v, h1, h2⟩ := Res.bind_eq_ok.1 hs
      cases h2; exact ⟨ha.1, decHashes_sorted ha.2.1 h1, ha.2.2⟩
    · obtain ⟨v, h1, h2⟩ := Res.bind_eq_ok.1 hs
      cases h2
      refine ⟨ha.1, ha.2.1, ?_⟩
      rintro c hc
      dsimp only at hc
      subst hc
      unfold decPtr at h1
      split at h1
      · cases h1
      · next hne =>
        obtain ⟨y, h1, h2⟩ := Res.map_eq_ok.1 h1
        cases h1
        cases h2
        exact ⟨fun he => hne he, hj⟩) h
  cases h2
  exact ⟨hu, h1.1, h1.2.1, h1.2.2⟩

theorem DelegatedRole.wf (laws : EnvLaws env) {j : Json} {a : DelegatedRole} (h : DelegatedRole.unmarshal env j = .ok a) : DelegatedRole.WF env a := by
  obtain ⟨a1, u, h1, hu, rfl⟩ := unmarshalLists_inv laws (P := fun a => inInt64 a.threshold = true) (by decide) (by
    intro f _ j a a' ha hs
    unfold DelegatedRole.setField at hs
    split at hs
    · obtain ⟨v, h1, h2⟩ := Res.bind_eq_ok.1 hs
      cases h2; exact ha
    split at hs
    · obtain ⟨v, h1, h2⟩ := Res.bind_eq_ok.1 hs
      cases h2; exact ha
    split at hs
    · obtain ⟨v, h1, h2⟩ := Res.bind_eq_ok.1 hs
      cases h2; exact decInt_range ha h1
    split at hs
    · obtain ⟨v, h1, h2⟩ := Res.bind_eq_ok.1 hs
      cases h2; exact ha
    split at hs
    · obtain ⟨v, h1, h2⟩ := Res.bind_eq_ok.1 hs
      cases h2; exact ha
    · obtain ⟨v, h1, h2⟩ := Res.bind_eq_ok.1 hs
      cases h2; exact ha) h
  exact ⟨hu, h1⟩

theorem Delegations.wf (laws : EnvLaws env) {j : Json} {a : Delegations} (h : Delegations.unmarshal env j = .ok a) : Delegations.WF env a := by
  obtain ⟨a1, a2, u, h1, h2, hu, rfl⟩ := unmarshalStruct_inv laws
    (P := fun a => MapWF (fun p => ∀ x, p = some x → Key.WF env x) a.keys ∧ (∀ r ∈ a.roles.elems, DelegatedRole.WF env r) ∧
      ∀ s, a.succinctRoles = some s → SuccinctRoles.WF env s) ⟨mapWF_none, fun r hr => (by cases hr), by simp⟩ (by
    intro f _ j _ a a' ha hs
    unfold Delegations.setField at hs
    split at hs
    · obtain ⟨v, h1, h2⟩ := Res.bind_eq_ok.1 hs
      cases h2; exact ⟨decMap_wf (fun _ _ h => decPtr_wf (fun _ _ => Key.wf laws) h) ha.1 h1, ha.2⟩
    split at hs
    · obtain ⟨v, h1, h2⟩ := Res.bind_eq_ok.1 hs
      cases h2; exact ⟨ha.1, decSlice_wf (fun _ _ => DelegatedRole.wf laws) h1, ha.2.2⟩
    · obtain ⟨v, h1, h2⟩ := Res.bind_eq_ok.1 hs
      cases h2; exact ⟨ha.1, ha.2.1, decPtr_wf (fun _ _ => SuccinctRoles.wf laws) h1⟩) h
  cases h2
  exact ⟨hu, h1.1, h1.2.1, h1.2.2⟩

theorem decTime_wf {j : Json} {old t : Time} (ho : TimeWF env old) (h : decTime env j old = .ok t) : TimeWF env t := by
  unfold decTime at h
  split at h
  · cases h; exact ho
  · next s =>
    cases hp : env.parseTime s with
    | none => rw [hp] at h; cases h
    | some t' => rw [hp] at h; cases h; exact .inl ⟨s, hp⟩
  · cases h

theorem RootType.wf (laws : EnvLaws env) {j : Json} {a : RootType} (h : RootType.unmarshal env j = .ok a) : RootType.WF env a := by
  obtain ⟨a1, a2, u, h1, h2, hu, rfl⟩ := unmarshalStruct_inv laws
    (P := fun a => inInt64 a.version = true ∧ TimeWF env a.expires ∧ MapWF (fun p => ∀ x, p = some x → Key.WF env x) a.keys ∧
      MapWF (fun p => ∀ x, p = some x → Role.WF env x) a.roles) ⟨by decide, .inr rfl, mapWF_none, mapWF_none⟩ (by
    intro f _ j _ a a' ha hs
    unfold RootType.setField at hs
    split at hs
    · obtain ⟨v, h1, h2⟩ := Res.bind_eq_ok.1 hs
      cases h2; exact ha
    split at hs
    · obtain ⟨v, h1, h2⟩ := Res.bind_eq_ok.1 hs
      cases h2; exact ha
    split at hs
    · obtain ⟨v, h1, h2⟩ := Res.bind_eq_ok.1 hs
      cases h2; exact ha
    split at hs
    · obtain ⟨v, h1, h2⟩ := Res.bind_eq_ok.1 hs
      cases h2; exact ⟨decInt_range ha.1 h1, ha.2⟩
    split at hs
    · obtain ⟨v, h1, h2⟩ := Res.bind_eq_ok.1 hs
      cases h2; exact ⟨ha.1, decTime_wf ha.2.1 h1, ha.2.2⟩
    split at hs
    · obtain ⟨v, h1, h2⟩ := Res.bind_eq_ok.1 hs
      cases h2; exact ⟨ha.1, ha.2.1, decMap_wf (fun _ _ h => decPtr_wf (fun _ _ => Key.wf laws) h) ha.2.2.1 h1, ha.2.2.2⟩
    · obtain ⟨v, h1, h2⟩ := Res.bind_eq_ok.1 hs
      cases h2; exact ⟨ha.1, ha.2.1, ha.2.2.1, decMap_wf (fun _ _ h => decPtr_wf (fun _ _ => Role.wf laws) h) ha.2.2.2 h1⟩) h
  cases h2
  exact ⟨hu, h1.1, h1.2.1, h1.2.2.1, h1.2.2.2⟩

theorem SnapshotType.wf (laws : EnvLaws env) {j : Json} {a : SnapshotType} (h : SnapshotType.unmarshal env j = .ok a) : SnapshotType.WF env a := by
  obtain ⟨a1, a2, u, h1, h2, hu, rfl⟩ := unmarshalStruct_inv laws
    (P := fun a => inInt64 a.version = true ∧ TimeWF env a.expires ∧ MapWF (fun p => ∀ x, p = some x → MetaFiles.WF env x) a.metas)
    ⟨by decide, .inr rfl, mapWF_none⟩ (by
    intro f _ j _ a a' ha hs
    unfold SnapshotType.setField at hs
    split at hs
    · obtain ⟨v, h1, h2⟩ := Res.bind_eq_ok.1 hs
      cases h2; exact ha
    split at hs
    · obtain ⟨v, h1, h2⟩ := Res.bind_eq_ok.1 hs
      cases h2; exact ha
    split at hs
    · obtain ⟨v, h1, h2⟩ := Res.bind_eq_ok.1 hs
      cases h2; exact ⟨decInt_range ha.1 h1, ha.2⟩
    split at hs
    · obtain ⟨v, h1, h2⟩ := Res.bind_eq_ok.1 hs
      cases h2; exact ⟨ha.1, decTime_wf ha.2.1 h1, ha.2.2⟩
    · obtain ⟨v, h1, h2⟩ := Res.bind_eq_ok.1 hs
      cases h2; exact ⟨ha.1, ha.2.1, decMap_wf (fun _ _ h => decPtr_wf (fun _ _ => MetaFiles.wf laws) h) ha.2.2 h1⟩) h
  cases h2
  exact ⟨hu, h1.1, h1.2.1, h1.2.2⟩

theorem TimestampType.wf (laws : EnvLaws env) {j : Json} {a : TimestampType} (h : TimestampType.unmarshal env j = .ok a) : TimestampType.WF env a := by
  obtain ⟨a1, a2, u, h1, h2, hu, rfl⟩ := unmarshalStruct_inv laws
    (P := fun a => inInt64 a.version = true ∧ TimeWF env a.expires ∧ MapWF (fun p => ∀ x, p = some x → MetaFiles.WF env x) a.metas)
    ⟨by decide, .inr rfl, mapWF_none⟩ (by
    intro f _ j _ a a' ha hs
    unfold TimestampType.setField at hs
    split at hs
    · obtain ⟨v, h1, h2⟩ := Res.bind_eq_ok.1 hs
      cases h2; exact ha
    split at hs
    · obtain ⟨v, h1, h2⟩ := Res.bind_eq_ok.1 hs
      cases h2; exact ha
    split at hs
    · obtain ⟨v, h1, h2⟩ := Res.bind_eq_ok.1 hs
      cases h2; exact ⟨decInt_range ha.1 h1, ha.2⟩
    split at hs
    · obtain ⟨v, h1, h2⟩ := Res.bind_eq_ok.1 hs
      cases h2; exact ⟨ha.1, decTime_wf ha.2.1 h1, ha.2.2⟩
    · obtain ⟨v, h1, h2⟩ := Res.bind_eq_ok.1 hs
      cases h2; exact ⟨ha.1, ha.2.1, decMap_wf (fun _ _ h => decPtr_wf (fun _ _ => MetaFiles.wf laws) h) ha.2.2 h1⟩) h
  cases h2
  exact ⟨hu, h1.1, h1.2.1, h1.2.2⟩

theorem setPaths_wf {P : TargetFiles → Prop} (hP : ∀ t p, P t → P { t with path := p }) {es es' : Entries (Option TargetFiles)} (h : setPaths es = .ok es')
    (hs : Entries.Sorted es) (hw : ∀ e ∈ es, ∀ t, e.2 = some t → P t) :
    es'.keys = es.keys ∧ ∀ e ∈ es', ∃ t, e.2 = some t ∧ t.path = e.1 ∧ P t := by
  induction es generalizing es' with
  | nil => cases h; exact ⟨rfl, by simp⟩
  | cons e es ih =>
    obtain ⟨k, p⟩ := e
    cases p with
    | none => cases h
    | some t =>
      obtain ⟨r, h1, h2⟩ := Res.bind_eq_ok.1 h
      cases h2
      rw [List.forall_mem_cons] at hw
      obtain ⟨h3, h4⟩ := ih h1 hs.tail hw.2
      refine ⟨by unfold Entries.keys at *; rw [List.map_cons, List.map_cons, h3], ?_⟩
      rw [List.forall_mem_cons]
      exact ⟨⟨_, rfl, rfl, hP _ _ (hw.1 t rfl)⟩, h4⟩

theorem sorted_of_keys {β γ : Type} {a : Entries β} {b : Entries γ} (h : a.keys = b.keys) (hs : Entries.Sorted b) : Entries.Sorted a := by
  unfold Entries.Sorted at *
  have hb : (b.map Prod.fst).Pairwise StrLt := List.pairwise_map.2 hs
  rw [show b.map Prod.fst = a.map Prod.fst from h.symm] at hb
  exact List.pairwise_map.1 hb

theorem TargetsType.wf (laws : EnvLaws env) {j : Json} {a : TargetsType} (h : TargetsType.unmarshal env j = .ok a) : TargetsType.WF env a := by
  obtain ⟨a1, a2, u, h1, h2, hu, rfl⟩ := unmarshalStruct_inv laws
    (P := fun a => inInt64 a.version = true ∧ TimeWF env a.expires ∧ MapWF (fun p => ∀ x, p = some x → TargetFiles.WF env x) a.targets ∧
      ∀ d, a.delegations = some d → Delegations.WF env d)
    ⟨by decide, .inr rfl, mapWF_none, by simp⟩ (by
    intro f _ j _ a a' ha hs
    unfold TargetsType.setField at hs
    split at hs
    · obtain ⟨v, h1, h2⟩ := Res.bind_eq_ok.1 hs
      cases h2; exact ha
    split at hs
    · obtain ⟨v, h1, h2⟩ := Res.bind_eq_ok.1 hs
      cases h2; exact ha
    split at hs
    · obtain ⟨v, h1, h2⟩ := Res.bind_eq_ok.1 hs
      cases h2; exact ⟨decInt_range ha.1 h1, ha.2⟩
    split at hs
    · obtain ⟨v, h1, h2⟩ := Res.bind_eq_ok.1 hs
      cases h2; exact ⟨ha.1, decTime_wf ha.2.1 h1, ha.2.2⟩
    split at hs
    · obtain ⟨v, h1, h2⟩ := Res.bind_eq_ok.1 hs
      cases h2; exact ⟨ha.1, ha.2.1, decMap_wf (fun _ _ h => decPtr_wf (fun _ _ => TargetFiles.wf laws) h) ha.2.2.1 h1, ha.2.2.2⟩
    · obtain ⟨v, h1, h2⟩ := Res.bind_eq_ok.1 hs
      cases h2; exact ⟨ha.1, ha.2.1, ha.2.2.1, decPtr_wf (fun _ _ => Delegations.wf laws) h1⟩) h
  unfold TargetsType.setTargetPaths at h2
  split at h2
  · next hn =>
    cases h2
    refine ⟨hu, h1.1, h1.2.1, ?_, ?_, h1.2.2.2⟩
    · show Entries.Sorted (GoMap.entries a1.targets); rw [hn]; exact Entries.sorted_nil
    · show ∀ e ∈ GoMap.entries a1.targets, _; rw [hn]; intro e he; cases he
  · next es hn =>
    obtain ⟨es', h3, h4⟩ := Res.bind_eq_ok.1 h2
    cases h4
    have hm := h1.2.2.1
    rw [hn] at hm
    obtain ⟨h5, h6⟩ := setPaths_wf (P := TargetFiles.WF env) (fun t p ht => ⟨ht.fields, ht.length, ht.hashes, ht.custom⟩) h3 hm.1 hm.2
    exact ⟨hu, h1.1, h1.2.1, sorted_of_keys h5 hm.1, h6, h1.2.2.2⟩

theorem Metadata.wf {T : Type} [RoleType T] {P : T → Prop} (hzero : P RoleType.zero) (hun : ∀ j a, RoleType.unmarshal env j = .ok a → P a) (laws : EnvLaws env)
    {j : Json} {m : Metadata T} (h : Metadata.unmarshal env j = .ok m) : Metadata.WF P env m := by
  obtain ⟨a1, a2, u, h1, h2, hu, rfl⟩ := unmarshalStruct_inv laws
    (P := fun m => P m.signed ∧ ∀ s ∈ m.signatures.elems, Signature.WF env s) ⟨hzero, fun s hs => by cases hs⟩ (by
    intro f _ j _ a a' ha hs
    unfold Metadata.setField at hs
    split at hs
    · obtain ⟨v, h1, h2⟩ := Res.bind_eq_ok.1 hs
      cases h2; exact ⟨hun _ _ h1, ha.2⟩
    · obtain ⟨v, h1, h2⟩ := Res.bind_eq_ok.1 hs
      cases h2; exact ⟨ha.1, decSlice_wf (fun _ _ => Signature.wf laws) h1⟩) h
  cases h2
  exact ⟨h1.1, h1.2, hu⟩

end
end Tuf
