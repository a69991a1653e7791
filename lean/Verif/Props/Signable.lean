import Verif.Spec.Signable
import Verif.Props.Publish
import Verif.Props.Payload
import Verif.Props.KeyIds

/-! # C109: what can be signed -/

namespace Tuf
open Spec

theorem canonFields_isSome {m : List (Str × Json)} : (Json.canonFields m).isSome ↔ ∀ e ∈ m, (Json.canon e.2).isSome := by
  induction m with
  | nil => simp [Json.canonFields]
  | cons e m ih =>
    obtain ⟨k, j⟩ := e
    rw [List.forall_mem_cons, ← ih]
    simp only [Json.canonFields]
    cases Json.canon j <;> cases Json.canonFields m <;> simp

theorem canonList_isSome {l : List Json} : (Json.canonList l).isSome ↔ ∀ j ∈ l, (Json.canon j).isSome := by
  induction l with
  | nil => simp [Json.canonList]
  | cons j l ih =>
    rw [List.forall_mem_cons, ← ih]
    simp only [Json.canonList]
    cases Json.canon j <;> cases Json.canonList l <;> simp

theorem lastMember_mem {m : List (Str × Json)} {k : Str} {j : Json} (h : LastMember m k j) : (k, j) ∈ m := by
  induction m with
  | nil => obtain ⟨a, b, h, _⟩ := h; simp at h
  | cons e m ih =>
    rcases LastMember_cons.1 h with h | ⟨rfl, _⟩
    · exact .tail _ (ih h)
    · exact .head _

theorem toAnyList_canon {l l' : List Json} (h : Json.toAnyList some l = some l') (ih : ∀ j ∈ l, ∀ j', Json.toAny some j = some j' → (j'.canon.isSome ↔ Whole j)) :
    (∀ j ∈ l', (Json.canon j).isSome) ↔ ∀ j ∈ l, Whole j := by
  induction l generalizing l' with
  | nil => simp only [Json.toAnyList] at h; cases h; simp
  | cons j l hl =>
    obtain ⟨a, b, h1, h2, rfl⟩ := toAnyList_cons.1 h
    rw [List.forall_mem_cons, List.forall_mem_cons, hl h2 (fun j hj => ih j (.tail _ hj)), ih j (.head _) a h1]

theorem canon_whole (j : Json) : ∀ j', Json.toAny some j = some j' → (j'.canon.isSome ↔ Whole j) := by
  match j with
  | .null => intro j' h; simp only [Json.toAny] at h; cases h; simp [Json.canon, Whole.null]
  | .bool b => intro j' h; simp only [Json.toAny] at h; cases h; cases b <;> simp [Json.canon, Whole.bool]
  | .num n =>
    intro j' h
    simp only [Json.toAny, Option.map_some, Option.some.injEq] at h
    subst h
    show (Json.canon (.num n)).isSome ↔ _
    simp only [Json.canon]
    constructor
    · intro h
      split at h
      · next hn =>
        simp only [inInt64, Bool.and_eq_true, decide_eq_true_eq] at hn
        exact .num (by omega) (by omega)
      · cases h
    · rintro (⟨_⟩ | ⟨_⟩ | ⟨h1, h2⟩)
      rw [if_pos (by simp only [inInt64, Bool.and_eq_true, decide_eq_true_eq]; omega)]
      rfl
  | .frac l =>
    intro j' h
    simp only [Json.toAny, Option.map_some, Option.some.injEq] at h
    subst h
    show (Json.canon (.frac l)).isSome ↔ _
    simp only [Json.canon]
    constructor
    · intro h
      split at h
      · next hl => rw [hl]; exact .negZero
      · cases h
    · rintro ⟨⟩
      rfl
  | .esc r s => intro j' h; simp only [Json.toAny] at h; cases h; simp [Json.canon, Whole.esc]
  | .str s => intro j' h; simp only [Json.toAny] at h; cases h; simp [Json.canon, Whole.str]
  | .arr l =>
    intro j' h
    rw [toAny_arr, Option.map_eq_some_iff] at h
    obtain ⟨l', h1, rfl⟩ := h
    simp only [Json.canon, Option.isSome_map]
    rw [canonList_isSome, toAnyList_canon h1 fun j hj => canon_whole j]
    exact ⟨.arr, fun h => by cases h; assumption⟩
  | .obj m =>
    intro j' h
    rw [toAny_obj, Option.map_eq_some_iff] at h
    obtain ⟨es, h1, rfl⟩ := h
    simp only [Json.canon, Option.isSome_map]
    rw [canonFields_isSome]
    have hs : Entries.Sorted (es.foldl (fun acc e => Entries.set acc e.1 e.2) []) := Entries.sorted_nil.foldl_set es
    constructor
    · intro h
      refine .obj fun k v hl => ?_
      have hmem := lastMember_mem hl
      obtain ⟨v', hv'⟩ := Option.isSome_iff_exists.1 (N_isSome v)
      have := Entries.mem_of_get? ((dict_get? h1 _ _).2 ⟨v, hl, hv'⟩)
      exact (canon_whole v v' hv').1 (h _ this)
    · intro h e he
      obtain ⟨v, hl, hv'⟩ := (dict_get? h1 _ _).1 (Entries.get?_of_mem hs.nodup he)
      have hmem := lastMember_mem hl
      cases h with
      | obj h => exact (canon_whole v _ hv').2 (h _ _ hl)
termination_by sizeOf j
decreasing_by
  · have := List.sizeOf_lt_of_mem hj
    simp; omega
  · have := List.sizeOf_lt_of_mem hmem
    simp at this ⊢; omega
  · have := List.sizeOf_lt_of_mem hmem
    simp at this ⊢; omega

/-- A value has a canonical form if and only if its numbers are 64-bit integers. -/
theorem canonical_whole {j : Json} : (∃ p, canonical j = .ok p) ↔ Whole j := by
  obtain ⟨j', h⟩ := Option.isSome_iff_exists.1 (N_isSome j)
  rw [← canon_whole j j' h]
  unfold canonical
  have h' : Json.toAny some j = some j' := h
  rw [h', Option.bind_some]
  cases j'.canon <;> simp

/-! ## Objects -/

theorem lastMember_iff {m : Entries Json} (hs : Entries.Sorted m) {k : Str} {v : Json} : LastMember m k v ↔ (k, v) ∈ m :=
  ⟨lastMember_mem, fun h => lastMember_of_get? hs.nodup (Entries.get?_of_mem hs.nodup h)⟩

theorem whole_sorted {m : Entries Json} (hs : Entries.Sorted m) : Whole (.obj m) ↔ ∀ e ∈ m, Whole e.2 := by
  constructor
  · intro h e he
    cases h with
    | obj h => exact h e.1 e.2 ((lastMember_iff hs).2 he)
  · intro h
    exact .obj fun k v hl => h _ ((lastMember_iff hs).1 hl)

variable {env : Env} {α : Type}

theorem whole_dict {names : List Str} {u : Fields} {fs : List (Str × Json)} (hu : FieldsWF env names u) (hn : (fs.map Prod.fst).Nodup) (hf : ∀ e ∈ fs, e.1 ∈ names) :
    Whole (.obj (mkDict u fs)) ↔ WholeFields u ∧ ∀ e ∈ fs, Whole e.2 := by
  have hs := mkDict_sorted hu.sorted fs
  rw [whole_sorted hs]
  have hget := mkDict_get? u fs hn
  constructor
  · intro h
    refine ⟨fun e he => h e (Entries.mem_of_get? ?_), fun e he => h e (Entries.mem_of_get? ?_)⟩
    · rw [hget]
      have : Entries.get? fs e.1 = none := by
        rw [Entries.get?_eq_none_iff]
        intro hm
        obtain ⟨x, hx, hx2⟩ := List.mem_map.1 hm
        exact hu.unknown e he (hx2 ▸ hf x hx)
      rw [this]
      exact Entries.get?_of_mem hu.sorted.nodup he
    · rw [hget, Entries.get?_of_mem hn he]
  · rintro ⟨h1, h2⟩ e he
    rcases mkDict_mem he with he | he
    · exact h1 e he
    · exact h2 e he

theorem whole_map {enc : α → Json} {m : GoMap α} (hs : Entries.Sorted m.entries) : Whole (encMap enc m) ↔ ∀ e ∈ m.entries, Whole (enc e.2) := by
  cases m with
  | none => exact ⟨fun _ e he => (by cases he), fun _ => .null⟩
  | some es =>
    have hs' : Entries.Sorted (es.map (fun e => (e.1, enc e.2))) := (Entries.sorted_map es fun e => enc e.2).2 hs
    show Whole (.obj (es.map (fun e => (e.1, enc e.2)))) ↔ ∀ e ∈ es, Whole (enc e.2)
    rw [whole_sorted hs', List.forall_mem_map]

theorem whole_ptrs {enc : α → Json} {P : α → Prop} {Q : α → Prop} {m : GoMap (Option α)} (hg : GoodMap Q m) (h : ∀ a, Q a → (Whole (enc a) ↔ P a)) :
    Whole (encMap (encPtr enc) m) ↔ WholeMap P m := by
  rw [whole_map hg.sorted]
  constructor
  · intro hw e he a ha
    obtain ⟨a', ha', hq⟩ := hg.values e he
    rw [ha] at ha'
    cases ha'
    have := hw e he
    rw [ha] at this
    exact (h a hq).1 this
  · intro hw e he
    obtain ⟨a, ha, hq⟩ := hg.values e he
    rw [ha]
    exact (h a hq).2 (hw e he a ha)

theorem whole_hashes {m : Hashes} (hs : Entries.Sorted m.entries) : Whole (encMap encHex m) := (whole_map hs).2 fun _ _ => .str

theorem whole_strings {s : Slice Str} : Whole (encSlice .str s) := by
  cases s with
  | none => exact .null
  | some l => exact .arr fun j hj => by obtain ⟨x, _, rfl⟩ := List.mem_map.1 hj; exact .str

theorem whole_int {n : Int} (h : inInt64 n = true) : Whole (.num n) := by
  simp only [inInt64, Bool.and_eq_true, decide_eq_true_eq] at h
  exact .num (by omega) (by omega)

theorem wholeKey {a : Key} (h : GoodKey env a) : Whole a.marshal ↔ WholeKey a := by
  unfold Key.marshal
  rw [whole_dict h.fields.wf (by simp) (by simp)]
  simp only [List.mem_cons, List.not_mem_nil, or_false, forall_eq_or_imp, forall_eq]
  unfold KeyVal.marshal
  rw [whole_dict h.value.wf (by simp) (by simp)]
  exact ⟨fun h => ⟨h.1, h.2.2.2.1⟩, fun h => ⟨h.1, .str, .str, h.2, by simp [Whole.str]⟩⟩

theorem wholeRole {a : Role} (h : GoodRole env a) : Whole a.marshal ↔ WholeRole a := by
  unfold Role.marshal
  rw [whole_dict h.fields.wf (by simp) (by simp)]
  exact ⟨fun h => h.1, fun hw => ⟨hw, by simp only [List.mem_cons, List.not_mem_nil, or_false, forall_eq_or_imp, forall_eq]; exact ⟨whole_strings, whole_int h.threshold⟩⟩⟩

theorem wholeMeta {a : MetaFiles} (h : GoodMeta env a) : Whole a.marshal ↔ WholeMeta a := by
  unfold MetaFiles.marshal
  rw [whole_dict h.fields.wf (by split <;> split <;> simp) (by split <;> split <;> simp)]
  refine ⟨fun h => h.1, fun hw => ⟨hw, ?_⟩⟩
  intro e he
  rw [List.mem_append, List.mem_append] at he
  rcases he with (he | he) | he
  · split at he
    · rw [List.mem_singleton] at he; subst he; exact whole_int h.length
    · cases he
  · split at he
    · rw [List.mem_singleton] at he; subst he; exact whole_hashes h.hashes
    · cases he
  · rw [List.mem_singleton] at he; subst he; exact whole_int h.version

theorem wholeTarget {a : TargetFiles} (h : GoodTarget env a) : Whole a.marshal ↔ WholeTarget a := by
  unfold TargetFiles.marshal WholeTarget
  cases hc : a.custom with
  | none =>
    dsimp only
    rw [whole_dict h.fields.wf (by simp) (by simp)]
    exact ⟨fun h => ⟨h.1, by simp⟩, fun hw => ⟨hw.1, by simp [whole_int h.length, whole_hashes h.hashes]⟩⟩
  | some c =>
    dsimp only
    rw [whole_dict h.fields.wf (by simp) (by simp)]
    exact ⟨fun h => ⟨h.1, by rintro _ ⟨⟩; exact h.2 (b!"custom", c) (by simp)⟩, fun hw => ⟨hw.1, by simp [whole_int h.length, whole_hashes h.hashes, hw.2 c rfl]⟩⟩

theorem wholeDelegated {a : DelegatedRole} (h : GoodDelegated env a) {j : Json} (hj : a.marshal = .ok j) : Whole j ↔ WholeFields a.unrec := by
  have strs : ∀ p : List Str, Whole (.arr (p.map .str)) := fun p => .arr fun j hj => by obtain ⟨x, _, rfl⟩ := List.mem_map.1 hj; exact .str
  unfold DelegatedRole.marshal at hj
  split at hj <;> cases hj
  · rw [whole_dict h.fields.wf (by simp) (by simp)]
    exact ⟨fun h => h.1, fun hw => ⟨hw, by simp [whole_strings, whole_int h.threshold, strs, Whole.str, Whole.bool]⟩⟩
  · rw [whole_dict h.fields.wf (by simp) (by simp)]
    exact ⟨fun h => h.1, fun hw => ⟨hw, by simp [whole_strings, whole_int h.threshold, strs, Whole.str, Whole.bool]⟩⟩
  · rw [whole_dict h.fields.wf (by simp) (by simp)]
    exact ⟨fun h => h.1, fun hw => ⟨hw, by simp [whole_strings, whole_int h.threshold, Whole.str, Whole.bool]⟩⟩

theorem wholeRoles {l : List DelegatedRole} (h : ∀ r ∈ l, GoodDelegated env r) {js : List Json} (hj : marshalRoles l = .ok js) : (∀ j ∈ js, Whole j) ↔ ∀ r ∈ l, WholeFields r.unrec := by
  induction l generalizing js with
  | nil => cases hj; simp
  | cons r l ih =>
    unfold marshalRoles at hj
    obtain ⟨j, h1, hj⟩ := Res.bind_eq_ok.1 hj
    obtain ⟨js', h2, hj⟩ := Res.bind_eq_ok.1 hj
    cases hj
    rw [List.forall_mem_cons, List.forall_mem_cons, ih (fun r hr => h r (.tail _ hr)) h2, wholeDelegated (h r (.head _)) h1]

theorem wholeSuccinct {a : SuccinctRoles} (h : GoodSuccinct env a) : Whole a.marshal ↔ WholeFields a.unrec := by
  unfold SuccinctRoles.marshal
  rw [whole_dict h.fields.wf (by simp) (by simp)]
  exact ⟨fun h => h.1, fun hw => ⟨hw, by simp [whole_strings, whole_int h.threshold, whole_int h.bitLength, Whole.str]⟩⟩

theorem wholeDelegations {a : Delegations} (h : GoodDelegations env a) {j : Json} (hj : a.marshal = .ok j) : Whole j ↔ WholeDelegations a := by
  have hk := whole_ptrs (P := WholeKey) h.keys fun _ => wholeKey
  unfold Delegations.marshal at hj
  unfold WholeDelegations
  cases hr : a.roles with
  | some rs =>
    rw [hr] at hj
    obtain ⟨js, h1, hj⟩ := Res.bind_eq_ok.1 hj
    cases hj
    rw [whole_dict h.fields.wf (by simp) (by simp)]
    have hrs := wholeRoles (env := env) (by have := h.roles; rw [hr] at this; exact this) h1
    have harr : Whole (.arr js) ↔ ∀ j ∈ js, Whole j := ⟨fun h => by cases h; assumption, .arr⟩
    have hnone : a.succinctRoles = none := h.oneKind.resolve_left (by rw [hr]; simp)
    simp only [List.mem_cons, List.not_mem_nil, or_false, forall_eq_or_imp, forall_eq, hk, harr, hrs, hnone]
    simp [Slice.elems]
  | none =>
    rw [hr] at hj
    cases hs : a.succinctRoles with
    | some s =>
      rw [hs] at hj
      cases hj
      rw [whole_dict h.fields.wf (by simp) (by simp)]
      simp only [List.mem_cons, List.not_mem_nil, or_false, forall_eq_or_imp, forall_eq, hk, wholeSuccinct (h.succinct s hs)]
      simp [Slice.elems]
    | none =>
      rw [hs] at hj
      cases hj
      rw [whole_dict h.fields.wf (by simp) (by simp)]
      simp only [List.mem_cons, List.not_mem_nil, or_false, forall_eq, hk]
      simp [Slice.elems]

/-! ## C109 -/

theorem payload_whole {T : Type} [RoleType T] {a : T} {j : Json} (h : RoleType.marshal a = .ok j) : (∃ p, payload a = .ok p) ↔ Whole j := by
  unfold payload
  rw [h, ← canonical_whole]
  rfl

theorem sign_iff {T : Type} [RoleType T] {m : Metadata T} {s : Signer} (hs : Works env s) : (∃ r, sign env m s = .ok r) ↔ ∃ p, payload m.signed = .ok p := by
  constructor
  · rintro ⟨⟨sig, m'⟩, h⟩
    obtain ⟨_, _, _, _, p, hp, _⟩ := C08_sign_appends h
    exact ⟨p, hp⟩
  · rintro ⟨p, hp⟩
    obtain ⟨pk, key, h1, h2⟩ := hs.key
    obtain ⟨sig, h3⟩ := hs.signs p
    obtain ⟨_, d2, d3, d4⟩ := C104_declared h2
    have hid := C103_text (env := env) d2 d3 d4
    have : ∃ x, sign env m s = .ok x := by
      unfold sign
      simp [hp, h1, h2, h3, hid]
    exact this

/-- Without payload a document is not verified, for whatever delegation. -/
theorem no_payload {T : Type} [RoleType T] (hT : ∀ m : Metadata T, (RoleType.any m).signatures = m.signatures.elems ∧ (RoleType.any m).payload = payload m.signed)
    {m : Metadata T} (h : ¬ ∃ p, payload m.signed = .ok p) (D : AnyMeta) (role : Str) : verifyDelegate env D role (RoleType.any m) ≠ .ok () := by
  intro hv
  obtain ⟨keys, ids, t, _, hne, hdec, _⟩ := C02_exact_rule.1 hv
  obtain ⟨id, hid⟩ := List.exists_mem_of_ne_nil _ hne
  obtain ⟨pk, hf, sig, p, ⟨key, sigs, _, _, hc, _⟩, _⟩ := hdec id hid
  have : (RoleType.any m).payload = .ok p := by
    revert hc
    generalize RoleType.any m = d
    intro hc
    cases hc with
    | root h1 h2 | snapshot h1 h2 | timestamp h1 h2 | targets h1 h2 =>
      refine Res.bind_eq_ok.2 ⟨_, h1, h2⟩
  exact h ⟨p, by rw [← (hT m).2]; exact this⟩

theorem root_payload {a : RootType} (h : GoodRoot env a) : (∃ p, payload a = .ok p) ↔ WholeRoot a := by
  rw [payload_whole (a := a) rfl, whole_dict h.fields.wf (by simp) (by simp)]
  unfold WholeRoot
  rw [← whole_ptrs h.keys fun _ => wholeKey, ← whole_ptrs h.roles fun _ => wholeRole]
  simp [whole_int h.version, Whole.str, Whole.bool]

theorem snapshot_payload {a : SnapshotType} (h : GoodSnapshot env a) : (∃ p, payload a = .ok p) ↔ WholeSnapshot a := by
  rw [payload_whole (a := a) rfl, whole_dict h.fields.wf (by simp) (by simp)]
  unfold WholeSnapshot
  rw [← whole_ptrs h.metas fun _ => wholeMeta]
  simp [whole_int h.version, Whole.str]

theorem timestamp_payload {a : TimestampType} (h : GoodTimestamp env a) : (∃ p, payload a = .ok p) ↔ WholeTimestamp a := by
  rw [payload_whole (a := a) rfl, whole_dict h.fields.wf (by simp) (by simp)]
  unfold WholeTimestamp
  rw [← whole_ptrs h.metas fun _ => wholeMeta]
  simp [whole_int h.version, Whole.str]

theorem delegations_marshal {d : Delegations} (h : GoodDelegations env d) : ∃ j, d.marshal = .ok j := by
  have hr : ∀ l : List DelegatedRole, (∀ r ∈ l, GoodDelegated env r) → ∃ js, marshalRoles l = .ok js := by
    intro l
    induction l with
    | nil => exact fun _ => ⟨_, rfl⟩
    | cons r l ih =>
      intro hl
      obtain ⟨js, hjs⟩ := ih fun r hr => hl r (.tail _ hr)
      have : ∃ j, r.marshal = .ok j := by
        unfold DelegatedRole.marshal
        rcases (hl r (.head _)).oneKind with h | h
        · rw [h]; cases r.pathHashPrefixes <;> exact ⟨_, rfl⟩
        · rw [h]; cases r.paths <;> exact ⟨_, rfl⟩
      obtain ⟨j, hj⟩ := this
      refine ⟨j :: js, ?_⟩
      unfold marshalRoles
      rw [hj, Res.bind_ok, hjs, Res.bind_ok]
  unfold Delegations.marshal
  cases hrs : d.roles with
  | some rs =>
    obtain ⟨js, hjs⟩ := hr rs (by have := h.roles; rw [hrs] at this; exact this)
    dsimp only
    rw [hjs]
    exact ⟨_, rfl⟩
  | none => cases d.succinctRoles <;> exact ⟨_, rfl⟩

theorem targets_payload {a : TargetsType} (h : GoodTargets env a) : (∃ p, payload a = .ok p) ↔ WholeTargets a := by
  unfold WholeTargets
  rw [← whole_ptrs h.targets fun _ => wholeTarget]
  cases hd : a.delegations with
  | none =>
    have hm : RoleType.marshal a = .ok (.obj (mkDict a.unrec [(b!"_type", .str a.type), (b!"spec_version", .str a.specVersion), (b!"version", .num a.version),
        (b!"expires", .str a.expires.text), (b!"targets", encMap (encPtr TargetFiles.marshal) a.targets)])) := by
      show a.marshal = _
      unfold TargetsType.marshal
      rw [hd]
    rw [payload_whole hm, whole_dict h.fields.wf (by simp) (by simp)]
    simp [whole_int h.version, Whole.str]
  | some d =>
    obtain ⟨j, hj⟩ := delegations_marshal (h.delegations d hd)
    have hm : RoleType.marshal a = .ok (.obj (mkDict a.unrec ([(b!"_type", .str a.type), (b!"spec_version", .str a.specVersion), (b!"version", .num a.version),
        (b!"expires", .str a.expires.text), (b!"targets", encMap (encPtr TargetFiles.marshal) a.targets)] ++ [(b!"delegations", j)]))) := by
      show a.marshal = _
      unfold TargetsType.marshal
      rw [hd]
      dsimp only
      rw [hj]
      rfl
    rw [payload_whole hm, whole_dict h.fields.wf (by simp) (by simp)]
    simp [whole_int h.version, Whole.str, wholeDelegations (h.delegations d hd) hj]

/-- C109 for root metadata: a working signer can sign it if and only if all numbers in unrecognised fields are 64-bit integers. -/
theorem C109_root {m : Metadata RootType} (h : GoodRoot env m.signed) {s : Signer} (hs : Works env s) : (∃ r, sign env m s = .ok r) ↔ WholeRoot m.signed :=
  (sign_iff hs).trans (root_payload h)

/-- C109 for snapshot metadata. -/
theorem C109_snapshot {m : Metadata SnapshotType} (h : GoodSnapshot env m.signed) {s : Signer} (hs : Works env s) : (∃ r, sign env m s = .ok r) ↔ WholeSnapshot m.signed :=
  (sign_iff hs).trans (snapshot_payload h)

/-- C109 for timestamp metadata. -/
theorem C109_timestamp {m : Metadata TimestampType} (h : GoodTimestamp env m.signed) {s : Signer} (hs : Works env s) : (∃ r, sign env m s = .ok r) ↔ WholeTimestamp m.signed :=
  (sign_iff hs).trans (timestamp_payload h)

/-- C109 for targets metadata; `custom` counts as well. -/
theorem C109_targets {m : Metadata TargetsType} (h : GoodTargets env m.signed) {s : Signer} (hs : Works env s) : (∃ r, sign env m s = .ok r) ↔ WholeTargets m.signed :=
  (sign_iff hs).trans (targets_payload h)

/-- C109: what cannot be signed is not verified either, whatever signatures it has and whoever delegates to it. -/
theorem C109_unverifiable (D : AnyMeta) (role : Str) :
    (∀ m : Metadata RootType, GoodRoot env m.signed → ¬ WholeRoot m.signed → verifyDelegate env D role (.root m) ≠ .ok ()) ∧
    (∀ m : Metadata SnapshotType, GoodSnapshot env m.signed → ¬ WholeSnapshot m.signed → verifyDelegate env D role (.snapshot m) ≠ .ok ()) ∧
    (∀ m : Metadata TimestampType, GoodTimestamp env m.signed → ¬ WholeTimestamp m.signed → verifyDelegate env D role (.timestamp m) ≠ .ok ()) ∧
    (∀ m : Metadata TargetsType, GoodTargets env m.signed → ¬ WholeTargets m.signed → verifyDelegate env D role (.targets m) ≠ .ok ()) :=
  ⟨fun m hg hw => no_payload C08_all_types.1 (m := m) (fun h => hw ((root_payload hg).1 h)) D role,
    fun m hg hw => no_payload C08_all_types.2.1 (m := m) (fun h => hw ((snapshot_payload hg).1 h)) D role,
    fun m hg hw => no_payload C08_all_types.2.2.1 (m := m) (fun h => hw ((timestamp_payload hg).1 h)) D role,
    fun m hg hw => no_payload C08_all_types.2.2.2 (m := m) (fun h => hw ((targets_payload hg).1 h)) D role⟩

end Tuf
