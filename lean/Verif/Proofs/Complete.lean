import Verif.Proofs.Payload
import Verif.Spec.Complete

/-! Complete documents are written as they were read. -/

namespace Tuf
open Spec

section
variable {env : Env} {α β : Type}

theorem N_idem {j j' : Json} (h : N j = some j') : N j' = some j' := toAny_idem (f := some) (fun _ _ h => by cases h; rfl) j j' h

/-- Objects with distinct names are equal up to order if they have the same members. -/
theorem N_obj_ext {d1 d2 : List (Str × Json)} (h1 : (d1.map Prod.fst).Nodup) (h2 : (d2.map Prod.fst).Nodup)
    (h : ∀ k, (Entries.get? d1 k).bind N = (Entries.get? d2 k).bind N) : N (.obj d1) = N (.obj d2) := by
  obtain ⟨e1, he1⟩ := Option.isSome_iff_exists.1 (NFields_isSome d1)
  obtain ⟨e2, he2⟩ := Option.isSome_iff_exists.1 (NFields_isSome d2)
  rw [N, N, toAny_obj, toAny_obj, he1, he2, Option.map_some, Option.map_some]
  have k1 := toAnyFields_keys he1
  have k2 := toAnyFields_keys he2
  congr 2
  refine Entries.Sorted.ext (Entries.sorted_nil.foldl_set e1) (Entries.sorted_nil.foldl_set e2) ?_
  intro k
  rw [Entries.foldl_set_get?_nodup e1 (by rw [k1]; exact h1), Entries.foldl_set_get?_nodup e2 (by rw [k2]; exact h2), toAnyFields_get? he1, toAnyFields_get? he2, h k]

theorem decFields_trace {names : List Str} {setField : Str → Json → α → Res α} {agree : Str → α → α → Prop}
    (trans : ∀ f x y z, agree f x y → agree f y z → agree f x z) (refl : ∀ f x, agree f x x)
    (hset : ∀ f ∈ names, ∀ v x y, setField f v x = .ok y → ∀ g ∈ names, g ≠ f → agree g y x)
    (d : List (Str × Json)) (hd : (d.map Prod.fst).Nodup) (hmem : ∀ e ∈ d, e.1 ∈ names ∨ findField names e.1 = none) (x a : α)
    (h : decFields names setField d x = .ok a) :
    ∀ k ∈ names, (∀ v, (k, v) ∈ d → ∃ x' y, agree k x' x ∧ setField k v x' = .ok y ∧ agree k a y) ∧ (k ∉ d.map Prod.fst → agree k a x) := by
  induction d generalizing x with
  | nil =>
    cases h
    exact fun k _ => ⟨fun _ hv => absurd hv List.not_mem_nil, fun _ => refl k _⟩
  | cons e d ih =>
    obtain ⟨k0, j⟩ := e
    rw [List.map_cons, List.nodup_cons] at hd
    have hmem' : ∀ e ∈ d, e.1 ∈ names ∨ findField names e.1 = none := fun e he => hmem e (.tail _ he)
    rw [decFields] at h
    rcases hmem (k0, j) (.head _) with hk | hk
    · have : findField names k0 = some k0 := by unfold findField; rw [if_pos hk]
      rw [this] at h
      obtain ⟨y, h1, h⟩ := Res.bind_eq_ok.1 h
      intro k hkn
      obtain ⟨h2, h3⟩ := ih hd.2 hmem' y h k hkn
      constructor
      · intro v hv0
        rcases List.mem_cons.1 hv0 with hv | hv
        · cases hv
          exact ⟨x, y, refl _ _, h1, h3 hd.1⟩
        · have hne : k ≠ k0 := by rintro rfl; exact hd.1 (List.mem_map.2 ⟨_, hv, rfl⟩)
          obtain ⟨x', y', h4, h5, h6⟩ := h2 v hv
          exact ⟨x', y', trans _ _ _ _ h4 (hset k0 hk _ _ _ h1 k hkn hne), h5, h6⟩
      · intro hn
        rw [List.map_cons, List.mem_cons, not_or] at hn
        exact trans _ _ _ _ (h3 hn.2) (hset k0 hk _ _ _ h1 k hkn hn.1)
    · rw [hk] at h
      intro k hkn
      have hkn' : k ≠ k0 := by
        rintro rfl
        unfold findField at hk
        rw [if_pos hkn] at hk
        cases hk
      obtain ⟨h2, h3⟩ := ih hd.2 hmem' x h k hkn
      constructor
      · intro v hv
        rcases List.mem_cons.1 hv with hv | hv
        · cases hv; exact absurd rfl hkn'
        · exact h2 v hv
      · intro hn
        rw [List.map_cons, List.mem_cons, not_or] at hn
        exact h3 hn.2

theorem members_spelled {mandatory optional : List (Str × (Json → Prop))} {d : List (Str × Json)} (hm : Members env mandatory optional d) {names : List Str} (hsi : ∀ n ∈ names, SimpleName n)
    (hn : ∀ k, k ∈ names ↔ k ∈ (mandatory ++ optional).map Prod.fst) : ∀ e ∈ d, e.1 ∈ names ∨ findField names e.1 = none := by
  intro e he
  by_cases hk : e.1 ∈ names
  · exact .inl hk
  · refine .inr ?_
    have := (hm.others e he (fun h => hk ((hn _).2 h))).2
    unfold findField
    rw [if_neg hk, List.find?_eq_none]
    intro n hn' he
    have hs := hsi n hn'
    obtain ⟨f, hf, rfl⟩ := List.mem_map.1 ((hn n).1 hn')
    exact this f hf ((foldKey_spelled hs).1 (beq_iff_eq.1 he).symm)

/-- What an `UnmarshalJSON` method makes of a complete object. -/
theorem struct_faithful {names : List Str} {setField : Str → Json → α → Res α} {zero : α} {post : α → Res α} {setUnrec : Fields → α → α} {agree : Str → α → α → Prop}
    (trans : ∀ f x y z, agree f x y → agree f y z → agree f x z) (refl : ∀ f x, agree f x x)
    (hset : ∀ f ∈ names, ∀ v x y, setField f v x = .ok y → ∀ g ∈ names, g ≠ f → agree g y x)
    {mandatory optional : List (Str × (Json → Prop))} {d : List (Str × Json)} (hm : Members env mandatory optional d) (hsi : ∀ n ∈ names, SimpleName n)
    (hn : ∀ k, k ∈ names ↔ k ∈ (mandatory ++ optional).map Prod.fst) {a : α}
    (h : unmarshalStruct env names setField zero post setUnrec (.obj d) = .ok a) :
    ∃ a1 a2 u, post a1 = .ok a2 ∧ a = setUnrec u a2 ∧
      (∀ k ∈ names, (∀ v, (k, v) ∈ d → ∃ x y, agree k x zero ∧ setField k v x = .ok y ∧ agree k a1 y) ∧ (k ∉ d.map Prod.fst → agree k a1 zero)) ∧
      ∀ fs : List (Str × Json), (fs.map Prod.fst).Nodup → (∀ e ∈ fs, e.1 ∈ names) → (∀ k ∈ names, (Entries.get? fs k).bind N = (Entries.get? d k).bind N) →
        N (.obj (mkDict u fs)) = N (.obj d) := by
  unfold unmarshalStruct at h
  obtain ⟨a1, h1, h⟩ := Res.bind_eq_ok.1 h
  obtain ⟨a2, h2, h⟩ := Res.bind_eq_ok.1 h
  obtain ⟨d', h3, h⟩ := Res.bind_eq_ok.1 h
  cases h
  refine ⟨a1, a2, _, h2, rfl, decFields_trace trans refl hset d hm.distinct (members_spelled hm hsi hn) zero a1 h1, ?_⟩
  intro fs hfn hfs hget
  unfold decAnyMap at h3
  dsimp only at h3
  split at h3
  case h_2 => cases h3
  next d'' hd'' =>
  cases h3
  rw [toAny_obj] at hd''
  obtain ⟨es, hes, hd''⟩ := Option.map_eq_some_iff.1 hd''
  cases hd''
  have hs := (Entries.sorted_nil (α := Json)).foldl_set es
  refine N_obj_ext (mkDict_sorted (hs.foldl_del names) fs).nodup hm.distinct ?_
  intro k
  rw [mkDict_get? _ _ hfn, Entries.get?_foldl_del, Entries.foldl_set_get?_nodup es (by rw [toAnyFields_keys hes]; exact hm.distinct), toAnyFields_get? hes]
  by_cases hk : k ∈ names
  · rw [if_pos hk, ← hget k hk]
    cases Entries.get? fs k <;> rfl
  · have hnone : Entries.get? fs k = none := by
      cases hg : Entries.get? fs k with
      | none => rfl
      | some v => exact absurd (hfs _ (Entries.mem_of_get? hg)) hk
    rw [if_neg hk, hnone]
    dsimp only
    cases hg : Entries.get? d k with
    | none => rfl
    | some v =>
      have hex := (hm.others _ (Entries.mem_of_get? hg) (fun h => hk ((hn _).2 h))).1
      have hex : Json.toAny env.anyNum v = N v := hex
      rw [Option.bind_some, Option.bind_some, hex]
      obtain ⟨v', hv'⟩ := Option.isSome_iff_exists.1 (N_isSome v)
      rw [hv']
      exact N_idem hv'

/-! ## Slices, maps, pointers -/

theorem list_faithful {dec : Json → Res β} {enc : β → Json} {l : List Json} {s : List β} (hl : ∀ x ∈ l, ∀ b, dec x = .ok b → N (enc b) = N x)
    (h : decList dec l = .ok s) : Json.toAnyList some (s.map enc) = Json.toAnyList some l := by
  induction l generalizing s with
  | nil => cases h; rfl
  | cons j l ih =>
    obtain ⟨b, h1, h⟩ := Res.bind_eq_ok.1 h
    obtain ⟨s', h2, h⟩ := Res.bind_eq_ok.1 h
    cases h
    rw [List.forall_mem_cons] at hl
    rw [List.map_cons, Json.toAnyList, Json.toAnyList, ih hl.2 h2]
    have : Json.toAny some (enc b) = Json.toAny some j := hl.1 b h1
    rw [this]

theorem slice_faithful {dec : Json → Res β} {enc : β → Json} {l : List Json} {s : Slice β} (hl : ∀ x ∈ l, ∀ b, dec x = .ok b → N (enc b) = N x)
    (h : decSlice dec (.arr l) = .ok s) : N (encSlice enc s) = N (.arr l) := by
  obtain ⟨s', h1, rfl⟩ := Res.map_eq_ok.1 h
  show N (.arr _) = _
  rw [N, N, toAny_arr, toAny_arr, list_faithful hl h1]

theorem decEntries_get? {dec : Json → Res β} {d : List (Str × Json)} (hn : (d.map Prod.fst).Nodup) {acc es : Entries β} (h : decEntries dec d acc = .ok es) (k : Str) :
    (∀ v, Entries.get? d k = some v → ∃ b, dec v = .ok b ∧ es.get? k = some b) ∧ (Entries.get? d k = none → es.get? k = acc.get? k) := by
  induction d generalizing acc with
  | nil => cases h; exact ⟨fun v hv => (by cases hv), fun _ => rfl⟩
  | cons e d ih =>
    obtain ⟨k0, j⟩ := e
    rw [List.map_cons, List.nodup_cons] at hn
    obtain ⟨b, h1, h⟩ := Res.bind_eq_ok.1 h
    obtain ⟨h2, h3⟩ := ih hn.2 h
    rw [Entries.get?_cons]
    by_cases hk : k0 = k
    · subst hk
      rw [if_pos rfl]
      have hnone : Entries.get? d k0 = none := Entries.get?_eq_none_iff.2 hn.1
      refine ⟨fun v hv => ?_, fun hv => by cases hv⟩
      cases hv
      exact ⟨b, h1, by rw [h3 hnone, Entries.get?_set_self]⟩
    · rw [if_neg hk]
      refine ⟨h2, fun hv => ?_⟩
      rw [h3 hv, Entries.get?_set_ne _ _ hk]

theorem decEntries_sorted {dec : Json → Res β} {d : List (Str × Json)} {acc es : Entries β} (hs : Entries.Sorted acc) (h : decEntries dec d acc = .ok es) : Entries.Sorted es := by
  induction d generalizing acc with
  | nil => cases h; exact hs
  | cons e d ih =>
    obtain ⟨b, _, h⟩ := Res.bind_eq_ok.1 h
    exact ih (hs.set _ _) h

theorem map_faithful {dec : Json → Res β} {enc : β → Json} {d : List (Str × Json)} (hn : (d.map Prod.fst).Nodup) {m : GoMap β}
    (hl : ∀ e ∈ d, ∀ b, dec e.2 = .ok b → N (enc b) = N e.2) (h : decMap dec (.obj d) none = .ok m) : N (encMap enc m) = N (.obj d) := by
  obtain ⟨es, h1, rfl⟩ := Res.map_eq_ok.1 h
  have h1 : decEntries dec d [] = .ok es := h1
  have hs := decEntries_sorted Entries.sorted_nil h1
  show N (.obj _) = _
  refine N_obj_ext ((Entries.sorted_map es (fun e => enc e.2)).2 hs).nodup hn ?_
  intro k
  rw [Entries.get?_map]
  obtain ⟨h2, h3⟩ := decEntries_get? hn h1 k
  cases hg : Entries.get? d k with
  | none => rw [h3 hg]; rfl
  | some v =>
    obtain ⟨b, h4, h5⟩ := h2 v hg
    rw [h5]
    exact hl _ (Entries.mem_of_get? hg) b h4

theorem ptr_faithful {dec : Json → Res β} {enc : β → Json} {j : Json} (hj : j ≠ .null) (hl : ∀ b, dec j = .ok b → N (enc b) = N j) {p : Option β}
    (h : decPtr dec j = .ok p) : N (encPtr enc p) = N j := by
  unfold decPtr at h
  split at h
  · exact absurd rfl hj
  · obtain ⟨b, h1, rfl⟩ := Res.map_eq_ok.1 h
    exact hl b h1

theorem strs_faithful {j : Json} (hj : IsList IsStr j) {s : Slice Str} (h : decSlice (fun j => decStr j []) j = .ok s) : N (encSlice .str s) = N j := by
  obtain ⟨l, rfl, hl⟩ := hj
  refine slice_faithful (fun x hx b hb => ?_) h
  obtain ⟨t, rfl | ⟨_, rfl⟩⟩ := hl x hx <;> cases hb
  · rfl
  · simp [N, Json.toAny]

theorem hex_faithful {j : Json} (hj : IsHex j) {b : Bytes} (h : decHex j = .ok b) : N (encHex b) = N j := by
  obtain ⟨b', rfl⟩ := hj
  simp only [decHex, hexDecode_hexEncode] at h
  cases h
  rfl

theorem hashes_faithful {j : Json} (hj : IsDict IsHex j) {m : Hashes} (h : decMap decHex j none = .ok m) : N (encMap encHex m) = N j := by
  obtain ⟨d, rfl, hn, hd⟩ := hj
  exact map_faithful hn (fun e he b hb => hex_faithful (hd e he) hb) h

theorem time_faithful {j : Json} (hj : IsTime env j) {old t : Time} (h : decTime env j old = .ok t) : j = .str t.text := by
  obtain ⟨s, t', rfl, h1, h2⟩ := hj
  simp only [decTime, h1, Res.ofOption] at h
  cases h
  rw [h2]

theorem ptrmap_faithful {dec : Json → Res β} {enc : β → Json} {P : Json → Prop} (hne : ∀ j, P j → j ≠ .null) (hl : ∀ j, P j → ∀ b, dec j = .ok b → N (enc b) = N j)
    {j : Json} (hj : IsDict P j) {m : GoMap (Option β)} (h : decMap (decPtr dec) j none = .ok m) : N (encMap (encPtr enc) m) = N j := by
  obtain ⟨d, rfl, hn, hd⟩ := hj
  exact map_faithful hn (fun e he b hb => ptr_faithful (hne _ (hd e he)) (hl _ (hd e he)) hb) h

theorem _root_.Tuf.Spec.IsObj.ne_null {mandatory optional : List (Str × (Json → Prop))} {j : Json} (h : IsObj env mandatory optional j) : j ≠ .null := by
  obtain ⟨d, rfl, _⟩ := h
  simp

theorem str_faithful {j : Json} (hj : IsStr j) {old s : Str} (h : decStr j old = .ok s) : N (.str s) = N j := by
  obtain ⟨t, rfl | ⟨_, rfl⟩⟩ := hj <;> cases h
  · rfl
  · simp [N, Json.toAny]

theorem bool_faithful {j : Json} (hj : IsBool j) {old b : Bool} (h : decBool j old = .ok b) : N (.bool b) = N j := by
  obtain ⟨t, rfl⟩ := hj
  cases h
  rfl

theorem int_faithful {j : Json} (hj : IsInt j) {old n : Int} (h : decInt j old = .ok n) : j = .num n := by
  obtain ⟨t, rfl⟩ := hj
  simp only [decInt] at h
  split at h
  · cases h; rfl
  · cases h

/-- The member of that name. -/
theorem _root_.Tuf.Spec.Members.get? {mandatory optional : List (Str × (Json → Prop))} {d : List (Str × Json)} (hm : Members env mandatory optional d) {k : Str} {P : Json → Prop}
    (h : (k, P) ∈ mandatory) : ∃ v, (k, v) ∈ d ∧ Entries.get? d k = some v ∧ P v := by
  obtain ⟨v, h1, h2⟩ := hm.present _ h
  exact ⟨v, h1, Entries.get?_of_mem hm.distinct h1, h2⟩

/-- An optional member. -/
theorem _root_.Tuf.Spec.Members.opt {mandatory optional : List (Str × (Json → Prop))} {d : List (Str × Json)} (hm : Members env mandatory optional d) {k : Str} {P : Json → Prop}
    (h : (k, P) ∈ optional) : (k ∉ d.map Prod.fst ∧ Entries.get? d k = none) ∨ ∃ v, (k, v) ∈ d ∧ Entries.get? d k = some v ∧ P v := by
  cases hg : Entries.get? d k with
  | none => exact .inl ⟨Entries.get?_eq_none_iff.1 hg, rfl⟩
  | some v => exact .inr ⟨v, Entries.mem_of_get? hg, rfl, hm.shaped _ h v (Entries.mem_of_get? hg)⟩

end

section
variable {env : Env}

/-- The objects `keyval`. -/
abbrev KeyValDoc (env : Env) : Json → Prop := IsObj env [(b!"public", IsStr)] []

theorem KeyVal.preserve : ∀ f ∈ KeyVal.names, ∀ v x y, KeyVal.setField f v x = .ok y → ∀ g ∈ KeyVal.names, g ≠ f → KeyVal.agree g y x := by
  intro f hf v x y h g hg hne
  simp only [KeyVal.names, List.mem_cons, List.not_mem_nil, or_false] at hf hg
  exact absurd (hg.trans hf.symm) hne

theorem Key.preserve : ∀ f ∈ Key.names, ∀ v x y, (Key.setField env) f v x = .ok y → ∀ g ∈ Key.names, g ≠ f → Key.agree g y x := by
  intro f hf v x y h g hg hne
  simp only [Key.names, List.mem_cons, List.not_mem_nil, or_false] at hf hg
  unfold Key.setField at h
  repeat' split at h
  all_goals
    obtain ⟨w, _, h⟩ := Res.bind_eq_ok.1 h
    cases h
    unfold Key.agree
    grind

theorem Role.preserve : ∀ f ∈ Role.names, ∀ v x y, Role.setField f v x = .ok y → ∀ g ∈ Role.names, g ≠ f → Role.agree g y x := by
  intro f hf v x y h g hg hne
  simp only [Role.names, List.mem_cons, List.not_mem_nil, or_false] at hf hg
  unfold Role.setField at h
  repeat' split at h
  all_goals
    obtain ⟨w, _, h⟩ := Res.bind_eq_ok.1 h
    cases h
    unfold Role.agree
    grind

theorem MetaFiles.preserve : ∀ f ∈ MetaFiles.names, ∀ v x y, MetaFiles.setField f v x = .ok y → ∀ g ∈ MetaFiles.names, g ≠ f → MetaFiles.agree g y x := by
  intro f hf v x y h g hg hne
  simp only [MetaFiles.names, List.mem_cons, List.not_mem_nil, or_false] at hf hg
  unfold MetaFiles.setField at h
  repeat' split at h
  all_goals
    obtain ⟨w, _, h⟩ := Res.bind_eq_ok.1 h
    cases h
    unfold MetaFiles.agree
    grind

theorem TargetFiles.preserve : ∀ f ∈ TargetFiles.names, ∀ v x y, TargetFiles.setField f v x = .ok y → ∀ g ∈ TargetFiles.names, g ≠ f → TargetFiles.agree g y x := by
  intro f hf v x y h g hg hne
  simp only [TargetFiles.names, List.mem_cons, List.not_mem_nil, or_false] at hf hg
  unfold TargetFiles.setField at h
  repeat' split at h
  all_goals
    obtain ⟨w, _, h⟩ := Res.bind_eq_ok.1 h
    cases h
    unfold TargetFiles.agree
    grind

theorem DelegatedRole.preserve : ∀ f ∈ DelegatedRole.names, ∀ v x y, DelegatedRole.setField f v x = .ok y → ∀ g ∈ DelegatedRole.names, g ≠ f → DelegatedRole.agree g y x := by
  intro f hf v x y h g hg hne
  simp only [DelegatedRole.names, List.mem_cons, List.not_mem_nil, or_false] at hf hg
  unfold DelegatedRole.setField at h
  repeat' split at h
  all_goals
    obtain ⟨w, _, h⟩ := Res.bind_eq_ok.1 h
    cases h
    unfold DelegatedRole.agree
    grind

theorem SuccinctRoles.preserve : ∀ f ∈ SuccinctRoles.names, ∀ v x y, SuccinctRoles.setField f v x = .ok y → ∀ g ∈ SuccinctRoles.names, g ≠ f → SuccinctRoles.agree g y x := by
  intro f hf v x y h g hg hne
  simp only [SuccinctRoles.names, List.mem_cons, List.not_mem_nil, or_false] at hf hg
  unfold SuccinctRoles.setField at h
  repeat' split at h
  all_goals
    obtain ⟨w, _, h⟩ := Res.bind_eq_ok.1 h
    cases h
    unfold SuccinctRoles.agree
    grind

theorem Delegations.preserve : ∀ f ∈ Delegations.names, ∀ v x y, (Delegations.setField env) f v x = .ok y → ∀ g ∈ Delegations.names, g ≠ f → Delegations.agree g y x := by
  intro f hf v x y h g hg hne
  simp only [Delegations.names, List.mem_cons, List.not_mem_nil, or_false] at hf hg
  unfold Delegations.setField at h
  repeat' split at h
  all_goals
    obtain ⟨w, _, h⟩ := Res.bind_eq_ok.1 h
    cases h
    unfold Delegations.agree
    grind

theorem RootType.preserve : ∀ f ∈ RootType.names, ∀ v x y, (RootType.setField env) f v x = .ok y → ∀ g ∈ RootType.names, g ≠ f → RootType.agree g y x := by
  intro f hf v x y h g hg hne
  simp only [RootType.names, List.mem_cons, List.not_mem_nil, or_false] at hf hg
  unfold RootType.setField at h
  repeat' split at h
  all_goals
    obtain ⟨w, _, h⟩ := Res.bind_eq_ok.1 h
    cases h
    unfold RootType.agree
    grind

theorem SnapshotType.preserve : ∀ f ∈ SnapshotType.names, ∀ v x y, (SnapshotType.setField env) f v x = .ok y → ∀ g ∈ SnapshotType.names, g ≠ f → SnapshotType.agree g y x := by
  intro f hf v x y h g hg hne
  simp only [SnapshotType.names, List.mem_cons, List.not_mem_nil, or_false] at hf hg
  unfold SnapshotType.setField at h
  repeat' split at h
  all_goals
    obtain ⟨w, _, h⟩ := Res.bind_eq_ok.1 h
    cases h
    unfold SnapshotType.agree
    grind

theorem TimestampType.preserve : ∀ f ∈ TimestampType.names, ∀ v x y, (TimestampType.setField env) f v x = .ok y → ∀ g ∈ TimestampType.names, g ≠ f → TimestampType.agree g y x := by
  intro f hf v x y h g hg hne
  simp only [TimestampType.names, List.mem_cons, List.not_mem_nil, or_false] at hf hg
  unfold TimestampType.setField at h
  repeat' split at h
  all_goals
    obtain ⟨w, _, h⟩ := Res.bind_eq_ok.1 h
    cases h
    unfold TimestampType.agree
    grind

theorem TargetsType.preserve : ∀ f ∈ TargetsType.names, ∀ v x y, (TargetsType.setField env) f v x = .ok y → ∀ g ∈ TargetsType.names, g ≠ f → TargetsType.agree g y x := by
  intro f hf v x y h g hg hne
  simp only [TargetsType.names, List.mem_cons, List.not_mem_nil, or_false] at hf hg
  unfold TargetsType.setField at h
  repeat' split at h
  all_goals
    obtain ⟨w, _, h⟩ := Res.bind_eq_ok.1 h
    cases h
    unfold TargetsType.agree
    grind

theorem KeyVal.faithful {j : Json} (hj : KeyValDoc env j) {a : KeyVal} (h : KeyVal.unmarshal env j = .ok a) : N a.marshal = N j := by
  obtain ⟨d, rfl, hm⟩ := hj
  have hs : unmarshalStruct env KeyVal.names KeyVal.setField {} .ok (fun u a => { a with unrec := u }) (.obj d) = .ok a := h
  obtain ⟨a1, a2, u, h1, rfl, htr, hfin⟩ := struct_faithful (agree := KeyVal.agree) (by unfold KeyVal.agree; grind) (by unfold KeyVal.agree; grind) KeyVal.preserve hm (by decide)
    (by intro k; simp [KeyVal.names]) hs
  cases h1
  obtain ⟨v_publicKey, hv, g_publicKey, p_publicKey⟩ := hm.get? (k := b!"public") (.head _)
  have e_publicKey : N (.str a1.publicKey) = N v_publicKey := by
    obtain ⟨x, y, hx, h0, h3⟩ := (htr b!"public" (by simp [KeyVal.names])).1 _ hv
    simp only [KeyVal.setField] at h0
    obtain ⟨w, h2, h4⟩ := Res.bind_eq_ok.1 h0
    cases h4
    have hw : a1.publicKey = w := by unfold KeyVal.agree at h3; grind
    rw [hw]
    exact str_faithful p_publicKey h2
  refine hfin _ (by simp) (by simp [KeyVal.names]) ?_
  intro k hk
  simp only [KeyVal.names, List.mem_cons, List.not_mem_nil, or_false] at hk
  rcases hk with rfl
  · rw [g_publicKey]; exact e_publicKey

theorem Key.faithful {j : Json} (hj : KeyDoc env j) {a : Key} (h : Key.unmarshal env j = .ok a) : N a.marshal = N j := by
  obtain ⟨d, rfl, hm⟩ := hj
  have hs : unmarshalStruct env Key.names (Key.setField env) {} .ok (fun u a => { a with unrec := u }) (.obj d) = .ok a := h
  obtain ⟨a1, a2, u, h1, rfl, htr, hfin⟩ := struct_faithful (agree := Key.agree) (by unfold Key.agree; grind) (by unfold Key.agree; grind) Key.preserve hm (by decide)
    (by intro k; simp [Key.names]) hs
  cases h1
  obtain ⟨v_type, hv, g_type, p_type⟩ := hm.get? (k := b!"keytype") (.head _)
  have e_type : N (.str a1.type) = N v_type := by
    obtain ⟨x, y, hx, h0, h3⟩ := (htr b!"keytype" (by simp [Key.names])).1 _ hv
    simp only [Key.setField] at h0
    obtain ⟨w, h2, h4⟩ := Res.bind_eq_ok.1 h0
    cases h4
    have hw : a1.type = w := by unfold Key.agree at h3; grind
    rw [hw]
    exact str_faithful p_type h2
  obtain ⟨v_scheme, hv, g_scheme, p_scheme⟩ := hm.get? (k := b!"scheme") (.tail _ (.head _))
  have e_scheme : N (.str a1.scheme) = N v_scheme := by
    obtain ⟨x, y, hx, h0, h3⟩ := (htr b!"scheme" (by simp [Key.names])).1 _ hv
    simp only [Key.setField] at h0
    obtain ⟨w, h2, h4⟩ := Res.bind_eq_ok.1 h0
    cases h4
    have hw : a1.scheme = w := by unfold Key.agree at h3; grind
    rw [hw]
    exact str_faithful p_scheme h2
  obtain ⟨v_value, hv, g_value, p_value⟩ := hm.get? (k := b!"keyval") (.tail _ (.tail _ (.head _)))
  have e_value : N a1.value.marshal = N v_value := by
    obtain ⟨x, y, hx, h0, h3⟩ := (htr b!"keyval" (by simp [Key.names])).1 _ hv
    simp only [Key.setField] at h0
    obtain ⟨w, h2, h4⟩ := Res.bind_eq_ok.1 h0
    cases h4
    have hw : a1.value = w := by unfold Key.agree at h3; grind
    rw [hw]
    exact KeyVal.faithful p_value h2
  refine hfin _ (by simp) (by simp [Key.names]) ?_
  intro k hk
  simp only [Key.names, List.mem_cons, List.not_mem_nil, or_false] at hk
  rcases hk with rfl | rfl | rfl
  · rw [g_type]; exact e_type
  · rw [g_scheme]; exact e_scheme
  · rw [g_value]; exact e_value

theorem Role.faithful {j : Json} (hj : RoleDoc env j) {a : Role} (h : Role.unmarshal env j = .ok a) : N a.marshal = N j := by
  obtain ⟨d, rfl, hm⟩ := hj
  have hs : unmarshalStruct env Role.names Role.setField {} .ok (fun u a => { a with unrec := u }) (.obj d) = .ok a :=
    (unmarshalLists_once fun f _ => OneMember.of_nodup hm.distinct (members_spelled hm (by decide) (by intro k; simp [Role.names]))).symm.trans h
  obtain ⟨a1, a2, u, h1, rfl, htr, hfin⟩ := struct_faithful (agree := Role.agree) (by unfold Role.agree; grind) (by unfold Role.agree; grind) Role.preserve hm (by decide)
    (by intro k; simp [Role.names]) hs
  cases h1
  obtain ⟨v_keyIDs, hv, g_keyIDs, p_keyIDs⟩ := hm.get? (k := b!"keyids") (.head _)
  have e_keyIDs : N (encSlice .str a1.keyIDs) = N v_keyIDs := by
    obtain ⟨x, y, hx, h0, h3⟩ := (htr b!"keyids" (by simp [Role.names])).1 _ hv
    simp only [Role.setField] at h0
    obtain ⟨w, h2, h4⟩ := Res.bind_eq_ok.1 h0
    cases h4
    have hw : a1.keyIDs = w := by unfold Role.agree at h3; grind
    rw [hw]
    exact strs_faithful p_keyIDs h2
  obtain ⟨v_threshold, hv, g_threshold, p_threshold⟩ := hm.get? (k := b!"threshold") (.tail _ (.head _))
  have e_threshold : N (.num a1.threshold) = N v_threshold := by
    obtain ⟨x, y, hx, h0, h3⟩ := (htr b!"threshold" (by simp [Role.names])).1 _ hv
    simp only [Role.setField] at h0
    obtain ⟨w, h2, h4⟩ := Res.bind_eq_ok.1 h0
    cases h4
    have hw : a1.threshold = w := by unfold Role.agree at h3; grind
    rw [hw]
    exact by rw [int_faithful p_threshold h2]
  refine hfin _ (by simp) (by simp [Role.names]) ?_
  intro k hk
  simp only [Role.names, List.mem_cons, List.not_mem_nil, or_false] at hk
  rcases hk with rfl | rfl
  · rw [g_keyIDs]; exact e_keyIDs
  · rw [g_threshold]; exact e_threshold

theorem SuccinctRoles.faithful {j : Json} (hj : SuccinctDoc env j) {a : SuccinctRoles} (h : SuccinctRoles.unmarshal env j = .ok a) : N a.marshal = N j := by
  obtain ⟨d, rfl, hm⟩ := hj
  have hs : unmarshalStruct env SuccinctRoles.names SuccinctRoles.setField {} .ok (fun u a => { a with unrec := u }) (.obj d) = .ok a :=
    (unmarshalLists_once fun f _ => OneMember.of_nodup hm.distinct (members_spelled hm (by decide) (by intro k; simp [SuccinctRoles.names]))).symm.trans h
  obtain ⟨a1, a2, u, h1, rfl, htr, hfin⟩ := struct_faithful (agree := SuccinctRoles.agree) (by unfold SuccinctRoles.agree; grind) (by unfold SuccinctRoles.agree; grind) SuccinctRoles.preserve hm (by decide)
    (by intro k; simp [SuccinctRoles.names]) hs
  cases h1
  obtain ⟨v_keyIDs, hv, g_keyIDs, p_keyIDs⟩ := hm.get? (k := b!"keyids") (.head _)
  have e_keyIDs : N (encSlice .str a1.keyIDs) = N v_keyIDs := by
    obtain ⟨x, y, hx, h0, h3⟩ := (htr b!"keyids" (by simp [SuccinctRoles.names])).1 _ hv
    simp only [SuccinctRoles.setField] at h0
    obtain ⟨w, h2, h4⟩ := Res.bind_eq_ok.1 h0
    cases h4
    have hw : a1.keyIDs = w := by unfold SuccinctRoles.agree at h3; grind
    rw [hw]
    exact strs_faithful p_keyIDs h2
  obtain ⟨v_threshold, hv, g_threshold, p_threshold⟩ := hm.get? (k := b!"threshold") (.tail _ (.head _))
  have e_threshold : N (.num a1.threshold) = N v_threshold := by
    obtain ⟨x, y, hx, h0, h3⟩ := (htr b!"threshold" (by simp [SuccinctRoles.names])).1 _ hv
    simp only [SuccinctRoles.setField] at h0
    obtain ⟨w, h2, h4⟩ := Res.bind_eq_ok.1 h0
    cases h4
    have hw : a1.threshold = w := by unfold SuccinctRoles.agree at h3; grind
    rw [hw]
    exact by rw [int_faithful p_threshold h2]
  obtain ⟨v_bitLength, hv, g_bitLength, p_bitLength⟩ := hm.get? (k := b!"bit_length") (.tail _ (.tail _ (.head _)))
  have e_bitLength : N (.num a1.bitLength) = N v_bitLength := by
    obtain ⟨x, y, hx, h0, h3⟩ := (htr b!"bit_length" (by simp [SuccinctRoles.names])).1 _ hv
    simp only [SuccinctRoles.setField] at h0
    obtain ⟨w, h2, h4⟩ := Res.bind_eq_ok.1 h0
    cases h4
    have hw : a1.bitLength = w := by unfold SuccinctRoles.agree at h3; grind
    rw [hw]
    exact by rw [int_faithful p_bitLength h2]
  obtain ⟨v_namePrefix, hv, g_namePrefix, p_namePrefix⟩ := hm.get? (k := b!"name_prefix") (.tail _ (.tail _ (.tail _ (.head _))))
  have e_namePrefix : N (.str a1.namePrefix) = N v_namePrefix := by
    obtain ⟨x, y, hx, h0, h3⟩ := (htr b!"name_prefix" (by simp [SuccinctRoles.names])).1 _ hv
    simp only [SuccinctRoles.setField] at h0
    obtain ⟨w, h2, h4⟩ := Res.bind_eq_ok.1 h0
    cases h4
    have hw : a1.namePrefix = w := by unfold SuccinctRoles.agree at h3; grind
    rw [hw]
    exact str_faithful p_namePrefix h2
  refine hfin _ (by simp) (by simp [SuccinctRoles.names]) ?_
  intro k hk
  simp only [SuccinctRoles.names, List.mem_cons, List.not_mem_nil, or_false] at hk
  rcases hk with rfl | rfl | rfl | rfl
  · rw [g_keyIDs]; exact e_keyIDs
  · rw [g_threshold]; exact e_threshold
  · rw [g_bitLength]; exact e_bitLength
  · rw [g_namePrefix]; exact e_namePrefix

theorem MetaFiles.faithful {j : Json} (hj : MetaDoc env j) {a : MetaFiles} (h : MetaFiles.unmarshal env j = .ok a) : N a.marshal = N j := by
  obtain ⟨d, rfl, hm⟩ := hj
  have hs : unmarshalStruct env MetaFiles.names MetaFiles.setField {} .ok (fun u a => { a with unrec := u }) (.obj d) = .ok a := h
  obtain ⟨a1, a2, u, h1, rfl, htr, hfin⟩ := struct_faithful (agree := MetaFiles.agree) (by unfold MetaFiles.agree; grind) (by unfold MetaFiles.agree; grind) MetaFiles.preserve hm (by decide)
    (by intro k; simp [MetaFiles.names]; grind) hs
  cases h1
  obtain ⟨v_version, hv, g_version, p_version⟩ := hm.get? (k := b!"version") (.head _)
  have e_version : N (.num a1.version) = N v_version := by
    obtain ⟨x, y, hx, h0, h3⟩ := (htr b!"version" (by simp [MetaFiles.names])).1 _ hv
    simp only [MetaFiles.setField] at h0
    obtain ⟨w, h2, h4⟩ := Res.bind_eq_ok.1 h0
    cases h4
    have hw : a1.version = w := by unfold MetaFiles.agree at h3; grind
    rw [hw]
    exact by rw [int_faithful p_version h2]
  have e_length : (Entries.get? d b!"length" = none ∧ a1.length = 0) ∨ (a1.length ≠ 0 ∧ Entries.get? d b!"length" = some (Json.num a1.length)) := by
    rcases hm.opt (k := b!"length") (.head _) with ⟨hn, hg⟩ | ⟨v, hv, hg, hp, hne⟩
    · have := (htr b!"length" (by simp [MetaFiles.names])).2 hn
      have h0 : ({} : MetaFiles).length = 0 := rfl
      exact .inl ⟨hg, by unfold MetaFiles.agree at this; grind⟩
    · obtain ⟨x, y, hx, h0, h3⟩ := (htr b!"length" (by simp [MetaFiles.names])).1 _ hv
      simp only [MetaFiles.setField] at h0
      obtain ⟨w, h2, h4⟩ := Res.bind_eq_ok.1 h0
      cases h4
      have hw : a1.length = w := by unfold MetaFiles.agree at h3; grind
      have := int_faithful hp h2
      subst this
      rw [hw]
      exact .inr ⟨fun h => hne (by rw [h]), hg⟩
  have e_hashes : (Entries.get? d b!"hashes" = none ∧ a1.hashes.entries = []) ∨ (a1.hashes.entries ≠ [] ∧ ∃ v, Entries.get? d b!"hashes" = some v ∧ N (encMap encHex a1.hashes) = N v) := by
    rcases hm.opt (k := b!"hashes") (.tail _ (.head _)) with ⟨hn, hg⟩ | ⟨v, hv, hg, hp, hne⟩
    · have := (htr b!"hashes" (by simp [MetaFiles.names])).2 hn
      have h0 : ({} : MetaFiles).hashes = none := rfl
      have : a1.hashes = none := by unfold MetaFiles.agree at this; grind
      exact .inl ⟨hg, by rw [this]; rfl⟩
    · obtain ⟨x, y, hx, h0, h3⟩ := (htr b!"hashes" (by simp [MetaFiles.names])).1 _ hv
      simp only [MetaFiles.setField] at h0
      obtain ⟨w, h2, h4⟩ := Res.bind_eq_ok.1 h0
      cases h4
      have hw : a1.hashes = w := by unfold MetaFiles.agree at h3; grind
      have ho : x.hashes = none := by unfold MetaFiles.agree at hx; have : ({} : MetaFiles).hashes = none := rfl; grind
      rw [ho] at h2
      rw [hw]
      refine .inr ⟨?_, v, hg, hashes_faithful hp h2⟩
      obtain ⟨hd, rfl, hnd, _⟩ := hp
      obtain ⟨es, h5, rfl⟩ := Res.map_eq_ok.1 h2
      intro h6
      have h6 : es = [] := h6
      subst h6
      cases hd with
      | nil => exact hne rfl
      | cons e hd =>
        obtain ⟨b, _, h7⟩ := (decEntries_get? hnd h5 e.1).1 e.2 (by rw [Entries.get?_cons, if_pos rfl])
        cases h7
  refine hfin _ (by split <;> split <;> simp) (by split <;> split <;> simp [MetaFiles.names]) ?_
  intro k hk
  simp only [MetaFiles.names, List.mem_cons, List.not_mem_nil, or_false] at hk
  rcases e_length with ⟨hl, hl0⟩ | ⟨hl0, hl⟩ <;> rcases e_hashes with ⟨hh, hh0⟩ | ⟨hh0, hv, hh, hh1⟩ <;> rcases hk with rfl | rfl | rfl <;>
    simp [Entries.get?_cons, Entries.get?, *]

theorem TargetFiles.faithful {j : Json} (hj : TargetDoc env j) {a : TargetFiles} (h : TargetFiles.unmarshal env j = .ok a) : N a.marshal = N j := by
  obtain ⟨d, rfl, hm⟩ := hj
  have hs : unmarshalStruct env TargetFiles.names TargetFiles.setField {} .ok (fun u a => { a with unrec := u }) (.obj d) = .ok a := h
  obtain ⟨a1, a2, u, h1, rfl, htr, hfin⟩ := struct_faithful (agree := TargetFiles.agree) (by unfold TargetFiles.agree; grind) (by unfold TargetFiles.agree; grind) TargetFiles.preserve hm (by decide)
    (by intro k; simp [TargetFiles.names]) hs
  cases h1
  obtain ⟨v_length, hv, g_length, p_length⟩ := hm.get? (k := b!"length") (.head _)
  have e_length : N (.num a1.length) = N v_length := by
    obtain ⟨x, y, hx, h0, h3⟩ := (htr b!"length" (by simp [TargetFiles.names])).1 _ hv
    simp only [TargetFiles.setField] at h0
    obtain ⟨w, h2, h4⟩ := Res.bind_eq_ok.1 h0
    cases h4
    have hw : a1.length = w := by unfold TargetFiles.agree at h3; grind
    rw [hw]
    exact by rw [int_faithful p_length h2]
  obtain ⟨v_hashes, hv, g_hashes, p_hashes⟩ := hm.get? (k := b!"hashes") (.tail _ (.head _))
  have e_hashes : N (encMap encHex a1.hashes) = N v_hashes := by
    obtain ⟨x, y, hx, h0, h3⟩ := (htr b!"hashes" (by simp [TargetFiles.names])).1 _ hv
    simp only [TargetFiles.setField] at h0
    obtain ⟨w, h2, h4⟩ := Res.bind_eq_ok.1 h0
    cases h4
    have hw : a1.hashes = w := by unfold TargetFiles.agree at h3; grind
    have ho : x.hashes = none := by unfold TargetFiles.agree at hx; have : ({} : TargetFiles).hashes = none := rfl; grind
    rw [ho] at h2
    rw [hw]
    exact hashes_faithful p_hashes h2
  have e_custom : Entries.get? d b!"custom" = a1.custom := by
    rcases hm.opt (k := b!"custom") (.head _) with ⟨hn, hg⟩ | ⟨v, hv, hg, hne⟩
    · have := (htr b!"custom" (by simp [TargetFiles.names])).2 hn
      have h0 : ({} : TargetFiles).custom = none := rfl
      rw [hg]
      unfold TargetFiles.agree at this
      grind
    · obtain ⟨x, y, hx, h0, h3⟩ := (htr b!"custom" (by simp [TargetFiles.names])).1 _ hv
      simp only [TargetFiles.setField] at h0
      obtain ⟨w, h2, h4⟩ := Res.bind_eq_ok.1 h0
      cases h4
      have hw : a1.custom = w := by unfold TargetFiles.agree at h3; grind
      rw [hg, hw]
      unfold decPtr at h2
      split at h2
      · exact absurd rfl hne
      · cases h2; rfl
  refine hfin _ (by dsimp only; split <;> simp) (by dsimp only; split <;> simp [TargetFiles.names]) ?_
  intro k hk
  simp only [TargetFiles.names, List.mem_cons, List.not_mem_nil, or_false] at hk
  dsimp only
  cases hc : a1.custom <;> rw [hc] at e_custom <;> rcases hk with rfl | rfl | rfl <;>
    simp [Entries.get?_cons, Entries.get?, *]
theorem DelegatedRole.faithful {j : Json} (hj : DelegatedDoc env j) {a : DelegatedRole} (h : DelegatedRole.unmarshal env j = .ok a) : ∃ j', a.marshal = .ok j' ∧ N j' = N j := by
  obtain ⟨hj, hone⟩ := hj
  obtain ⟨d, rfl, hm⟩ := hj
  have hs : unmarshalStruct env DelegatedRole.names DelegatedRole.setField {} .ok (fun u a => { a with unrec := u }) (.obj d) = .ok a :=
    (unmarshalLists_once fun f _ => OneMember.of_nodup hm.distinct (members_spelled hm (by decide) (by intro k; simp [DelegatedRole.names]; grind))).symm.trans h
  obtain ⟨a1, a2, u, h1, rfl, htr, hfin⟩ := struct_faithful (agree := DelegatedRole.agree) (by unfold DelegatedRole.agree; grind) (by unfold DelegatedRole.agree; grind) DelegatedRole.preserve hm (by decide)
    (by intro k; simp [DelegatedRole.names]; grind) hs
  cases h1
  obtain ⟨v_name, hv, g_name, p_name⟩ := hm.get? (k := b!"name") (.head _)
  have e_name : N (.str a1.name) = N v_name := by
    obtain ⟨x, y, hx, h0, h3⟩ := (htr b!"name" (by simp [DelegatedRole.names])).1 _ hv
    simp only [DelegatedRole.setField] at h0
    obtain ⟨w, h2, h4⟩ := Res.bind_eq_ok.1 h0
    cases h4
    have hw : a1.name = w := by unfold DelegatedRole.agree at h3; grind
    rw [hw]
    exact str_faithful p_name h2
  obtain ⟨v_keyIDs, hv, g_keyIDs, p_keyIDs⟩ := hm.get? (k := b!"keyids") (.tail _ (.head _))
  have e_keyIDs : N (encSlice .str a1.keyIDs) = N v_keyIDs := by
    obtain ⟨x, y, hx, h0, h3⟩ := (htr b!"keyids" (by simp [DelegatedRole.names])).1 _ hv
    simp only [DelegatedRole.setField] at h0
    obtain ⟨w, h2, h4⟩ := Res.bind_eq_ok.1 h0
    cases h4
    have hw : a1.keyIDs = w := by unfold DelegatedRole.agree at h3; grind
    rw [hw]
    exact strs_faithful p_keyIDs h2
  obtain ⟨v_threshold, hv, g_threshold, p_threshold⟩ := hm.get? (k := b!"threshold") (.tail _ (.tail _ (.head _)))
  have e_threshold : N (.num a1.threshold) = N v_threshold := by
    obtain ⟨x, y, hx, h0, h3⟩ := (htr b!"threshold" (by simp [DelegatedRole.names])).1 _ hv
    simp only [DelegatedRole.setField] at h0
    obtain ⟨w, h2, h4⟩ := Res.bind_eq_ok.1 h0
    cases h4
    have hw : a1.threshold = w := by unfold DelegatedRole.agree at h3; grind
    rw [hw]
    exact by rw [int_faithful p_threshold h2]
  obtain ⟨v_terminating, hv, g_terminating, p_terminating⟩ := hm.get? (k := b!"terminating") (.tail _ (.tail _ (.tail _ (.head _))))
  have e_terminating : N (.bool a1.terminating) = N v_terminating := by
    obtain ⟨x, y, hx, h0, h3⟩ := (htr b!"terminating" (by simp [DelegatedRole.names])).1 _ hv
    simp only [DelegatedRole.setField] at h0
    obtain ⟨w, h2, h4⟩ := Res.bind_eq_ok.1 h0
    cases h4
    have hw : a1.terminating = w := by unfold DelegatedRole.agree at h3; grind
    rw [hw]
    exact bool_faithful p_terminating h2
  have e_paths : (Entries.get? d b!"paths" = none ∧ a1.paths = none) ∨ (∃ l v, Entries.get? d b!"paths" = some v ∧ a1.paths = some l ∧ N (.arr (l.map .str)) = N v) := by
    rcases hm.opt (k := b!"paths") (.head _) with ⟨hn, hg⟩ | ⟨v, hv, hg, hp⟩
    · have := (htr b!"paths" (by simp [DelegatedRole.names])).2 hn
      have h0 : ({} : DelegatedRole).paths = none := rfl
      exact .inl ⟨hg, by unfold DelegatedRole.agree at this; grind⟩
    · obtain ⟨x, y, hx, h0, h3⟩ := (htr b!"paths" (by simp [DelegatedRole.names])).1 _ hv
      simp only [DelegatedRole.setField] at h0
      obtain ⟨w, h2, h4⟩ := Res.bind_eq_ok.1 h0
      cases h4
      have hw : a1.paths = w := by unfold DelegatedRole.agree at h3; grind
      have h5 := strs_faithful hp h2
      obtain ⟨l', rfl, _⟩ := hp
      obtain ⟨l, _, rfl⟩ := Res.map_eq_ok.1 h2
      exact .inr ⟨l, _, hg, hw, h5⟩
  have e_pathHashPrefixes : (Entries.get? d b!"path_hash_prefixes" = none ∧ a1.pathHashPrefixes = none) ∨ (∃ l v, Entries.get? d b!"path_hash_prefixes" = some v ∧ a1.pathHashPrefixes = some l ∧ N (.arr (l.map .str)) = N v) := by
    rcases hm.opt (k := b!"path_hash_prefixes") (.tail _ (.head _)) with ⟨hn, hg⟩ | ⟨v, hv, hg, hp⟩
    · have := (htr b!"path_hash_prefixes" (by simp [DelegatedRole.names])).2 hn
      have h0 : ({} : DelegatedRole).pathHashPrefixes = none := rfl
      exact .inl ⟨hg, by unfold DelegatedRole.agree at this; grind⟩
    · obtain ⟨x, y, hx, h0, h3⟩ := (htr b!"path_hash_prefixes" (by simp [DelegatedRole.names])).1 _ hv
      simp only [DelegatedRole.setField] at h0
      obtain ⟨w, h2, h4⟩ := Res.bind_eq_ok.1 h0
      cases h4
      have hw : a1.pathHashPrefixes = w := by unfold DelegatedRole.agree at h3; grind
      have h5 := strs_faithful hp h2
      obtain ⟨l', rfl, _⟩ := hp
      obtain ⟨l, _, rfl⟩ := Res.map_eq_ok.1 h2
      exact .inr ⟨l, _, hg, hw, h5⟩
  have hone : a1.paths = none ∨ a1.pathHashPrefixes = none := by
    rcases hone with ⟨d', hd', ho⟩ | ⟨d', hd', ho⟩ <;> cases hd'
    · rcases e_paths with ⟨_, h⟩ | ⟨l, v, hg, _⟩
      · exact .inl h
      · exact absurd rfl (ho _ (Entries.mem_of_get? hg))
    · rcases e_pathHashPrefixes with ⟨_, h⟩ | ⟨l, v, hg, _⟩
      · exact .inr h
      · exact absurd rfl (ho _ (Entries.mem_of_get? hg))
  unfold DelegatedRole.marshal
  rcases e_paths with ⟨hp, hp0⟩ | ⟨lp, vp, hp, hp0, hp1⟩ <;> rcases e_pathHashPrefixes with ⟨hq, hq0⟩ | ⟨lq, vq, hq, hq0, hq1⟩
  case inr.inr => rw [hp0, hq0] at hone; simp at hone
  all_goals
    simp only [hp0, hq0]
    refine ⟨_, rfl, hfin _ (by simp) (by simp [DelegatedRole.names]) ?_⟩
    intro k hk
    simp only [DelegatedRole.names, List.mem_cons, List.not_mem_nil, or_false] at hk
    rcases hk with rfl | rfl | rfl | rfl | rfl | rfl <;> simp [Entries.get?_cons, Entries.get?, *]

theorem marshalRoles_faithful {l : List Json} (hl : ∀ x ∈ l, DelegatedDoc env x) {rs : List DelegatedRole} (h : decList (DelegatedRole.unmarshal env) l = .ok rs) :
    ∃ js, marshalRoles rs = .ok js ∧ Json.toAnyList some js = Json.toAnyList some l := by
  induction l generalizing rs with
  | nil => cases h; exact ⟨[], rfl, rfl⟩
  | cons j l ih =>
    obtain ⟨b, h1, h⟩ := Res.bind_eq_ok.1 h
    obtain ⟨s', h2, h⟩ := Res.bind_eq_ok.1 h
    cases h
    rw [List.forall_mem_cons] at hl
    obtain ⟨js, h3, h4⟩ := ih hl.2 h2
    obtain ⟨j', h5, h6⟩ := DelegatedRole.faithful hl.1 h1
    have h6 : Json.toAny some j' = Json.toAny some j := h6
    refine ⟨j' :: js, ?_, ?_⟩
    · rw [marshalRoles, h5, Res.bind_ok, h3, Res.bind_ok]
    · rw [Json.toAnyList, Json.toAnyList, h4, h6]

theorem Delegations.faithful {j : Json} (hj : DelegationsDoc env j) {a : Delegations} (h : Delegations.unmarshal env j = .ok a) : ∃ j', a.marshal = .ok j' ∧ N j' = N j := by
  obtain ⟨hj, hone⟩ := hj
  obtain ⟨d, rfl, hm⟩ := hj
  have hs : unmarshalStruct env Delegations.names (Delegations.setField env) {} .ok (fun u a => { a with unrec := u }) (.obj d) = .ok a := h
  obtain ⟨a1, a2, u, h1, rfl, htr, hfin⟩ := struct_faithful (agree := Delegations.agree) (by unfold Delegations.agree; grind) (by unfold Delegations.agree; grind) Delegations.preserve hm (by decide)
    (by intro k; simp [Delegations.names]) hs
  cases h1
  obtain ⟨v_keys, hv, g_keys, p_keys⟩ := hm.get? (k := b!"keys") (.head _)
  have e_keys : N (encMap (encPtr Key.marshal) a1.keys) = N v_keys := by
    obtain ⟨x, y, hx, h0, h3⟩ := (htr b!"keys" (by simp [Delegations.names])).1 _ hv
    simp only [Delegations.setField] at h0
    obtain ⟨w, h2, h4⟩ := Res.bind_eq_ok.1 h0
    cases h4
    have hw : a1.keys = w := by unfold Delegations.agree at h3; grind
    have ho : x.keys = none := by unfold Delegations.agree at hx; have : ({} : Delegations).keys = none := rfl; grind
    rw [ho] at h2
    rw [hw]
    exact ptrmap_faithful (fun _ h => h.ne_null) (fun _ hj _ h => Key.faithful hj h) p_keys h2
  have e_roles : (Entries.get? d b!"roles" = none ∧ a1.roles = none) ∨ (∃ l v, Entries.get? d b!"roles" = some v ∧ a1.roles = some l ∧ ∃ js, marshalRoles l = .ok js ∧ N (.arr js) = N v) := by
    rcases hm.opt (k := b!"roles") (.head _) with ⟨hn, hg⟩ | ⟨v, hv, hg, hp⟩
    · have := (htr b!"roles" (by simp [Delegations.names])).2 hn
      have h0 : ({} : Delegations).roles = none := rfl
      exact .inl ⟨hg, by unfold Delegations.agree at this; grind⟩
    · obtain ⟨x, y, hx, h0, h3⟩ := (htr b!"roles" (by simp [Delegations.names])).1 _ hv
      simp only [Delegations.setField] at h0
      obtain ⟨w, h2, h4⟩ := Res.bind_eq_ok.1 h0
      cases h4
      have hw : a1.roles = w := by unfold Delegations.agree at h3; grind
      obtain ⟨l', rfl, hp⟩ := hp
      obtain ⟨l, h5, rfl⟩ := Res.map_eq_ok.1 h2
      obtain ⟨js, h6, h7⟩ := marshalRoles_faithful hp h5
      exact .inr ⟨l, _, hg, hw, js, h6, by rw [N, N, toAny_arr, toAny_arr, h7]⟩
  have e_succinctRoles : (Entries.get? d b!"succinct_roles" = none ∧ a1.succinctRoles = none) ∨ (∃ l v, Entries.get? d b!"succinct_roles" = some v ∧ a1.succinctRoles = some l ∧ N l.marshal = N v) := by
    rcases hm.opt (k := b!"succinct_roles") (.tail _ (.head _)) with ⟨hn, hg⟩ | ⟨v, hv, hg, hp⟩
    · have := (htr b!"succinct_roles" (by simp [Delegations.names])).2 hn
      have h0 : ({} : Delegations).succinctRoles = none := rfl
      exact .inl ⟨hg, by unfold Delegations.agree at this; grind⟩
    · obtain ⟨x, y, hx, h0, h3⟩ := (htr b!"succinct_roles" (by simp [Delegations.names])).1 _ hv
      simp only [Delegations.setField] at h0
      obtain ⟨w, h2, h4⟩ := Res.bind_eq_ok.1 h0
      cases h4
      have hw : a1.succinctRoles = w := by unfold Delegations.agree at h3; grind
      have hnn := Spec.IsObj.ne_null hp
      unfold decPtr at h2
      split at h2
      · exact absurd rfl hnn
      · obtain ⟨l, h5, rfl⟩ := Res.map_eq_ok.1 h2
        exact .inr ⟨l, _, hg, hw, SuccinctRoles.faithful hp h5⟩
  have hone : a1.roles = none ∨ a1.succinctRoles = none := by
    rcases hone with ⟨d', hd', ho⟩ | ⟨d', hd', ho⟩ <;> cases hd'
    · rcases e_roles with ⟨_, h⟩ | ⟨l, v, hg, _⟩
      · exact .inl h
      · exact absurd rfl (ho _ (Entries.mem_of_get? hg))
    · rcases e_succinctRoles with ⟨_, h⟩ | ⟨l, v, hg, _⟩
      · exact .inr h
      · exact absurd rfl (ho _ (Entries.mem_of_get? hg))
  unfold Delegations.marshal
  rcases e_roles with ⟨hp, hp0⟩ | ⟨lp, vp, hp, hp0, js, hjs, hp1⟩ <;> rcases e_succinctRoles with ⟨hq, hq0⟩ | ⟨lq, vq, hq, hq0, hq1⟩
  case inr.inr => rw [hp0, hq0] at hone; simp at hone
  all_goals
    simp only [hp0, hq0]
    try simp only [hjs, Res.bind_ok]
    refine ⟨_, rfl, hfin _ (by simp) (by simp [Delegations.names]) ?_⟩
    intro k hk
    simp only [Delegations.names, List.mem_cons, List.not_mem_nil, or_false] at hk
    rcases hk with rfl | rfl | rfl <;> simp [Entries.get?, *]

theorem RootType.faithful {j : Json} (hj : RootDoc env j) {a : RootType} (h : RootType.unmarshal env j = .ok a) : ∃ j', a.marshal = .ok j' ∧ N j' = N j := by
  obtain ⟨d, rfl, hm⟩ := hj
  have hs : unmarshalStruct env RootType.names (RootType.setField env) {} .ok (fun u a => { a with unrec := u }) (.obj d) = .ok a := h
  obtain ⟨a1, a2, u, h1, rfl, htr, hfin⟩ := struct_faithful (agree := RootType.agree) (by unfold RootType.agree; grind) (by unfold RootType.agree; grind) RootType.preserve hm (by decide)
    (by intro k; simp [RootType.names]) hs
  cases h1
  obtain ⟨v_type, hv, g_type, p_type⟩ := hm.get? (k := b!"_type") (.head _)
  have e_type : N (.str a1.type) = N v_type := by
    obtain ⟨x, y, hx, h0, h3⟩ := (htr b!"_type" (by simp [RootType.names])).1 _ hv
    simp only [RootType.setField] at h0
    obtain ⟨w, h2, h4⟩ := Res.bind_eq_ok.1 h0
    cases h4
    have hw : a1.type = w := by unfold RootType.agree at h3; grind
    rw [hw]
    exact str_faithful p_type h2
  obtain ⟨v_specVersion, hv, g_specVersion, p_specVersion⟩ := hm.get? (k := b!"spec_version") (.tail _ (.head _))
  have e_specVersion : N (.str a1.specVersion) = N v_specVersion := by
    obtain ⟨x, y, hx, h0, h3⟩ := (htr b!"spec_version" (by simp [RootType.names])).1 _ hv
    simp only [RootType.setField] at h0
    obtain ⟨w, h2, h4⟩ := Res.bind_eq_ok.1 h0
    cases h4
    have hw : a1.specVersion = w := by unfold RootType.agree at h3; grind
    rw [hw]
    exact str_faithful p_specVersion h2
  obtain ⟨v_consistentSnapshot, hv, g_consistentSnapshot, p_consistentSnapshot⟩ := hm.get? (k := b!"consistent_snapshot") (.tail _ (.tail _ (.head _)))
  have e_consistentSnapshot : N (.bool a1.consistentSnapshot) = N v_consistentSnapshot := by
    obtain ⟨x, y, hx, h0, h3⟩ := (htr b!"consistent_snapshot" (by simp [RootType.names])).1 _ hv
    simp only [RootType.setField] at h0
    obtain ⟨w, h2, h4⟩ := Res.bind_eq_ok.1 h0
    cases h4
    have hw : a1.consistentSnapshot = w := by unfold RootType.agree at h3; grind
    rw [hw]
    exact bool_faithful p_consistentSnapshot h2
  obtain ⟨v_version, hv, g_version, p_version⟩ := hm.get? (k := b!"version") (.tail _ (.tail _ (.tail _ (.head _))))
  have e_version : N (.num a1.version) = N v_version := by
    obtain ⟨x, y, hx, h0, h3⟩ := (htr b!"version" (by simp [RootType.names])).1 _ hv
    simp only [RootType.setField] at h0
    obtain ⟨w, h2, h4⟩ := Res.bind_eq_ok.1 h0
    cases h4
    have hw : a1.version = w := by unfold RootType.agree at h3; grind
    rw [hw]
    exact by rw [int_faithful p_version h2]
  obtain ⟨v_expires, hv, g_expires, p_expires⟩ := hm.get? (k := b!"expires") (.tail _ (.tail _ (.tail _ (.tail _ (.head _)))))
  have e_expires : N (.str a1.expires.text) = N v_expires := by
    obtain ⟨x, y, hx, h0, h3⟩ := (htr b!"expires" (by simp [RootType.names])).1 _ hv
    simp only [RootType.setField] at h0
    obtain ⟨w, h2, h4⟩ := Res.bind_eq_ok.1 h0
    cases h4
    have hw : a1.expires = w := by unfold RootType.agree at h3; grind
    rw [hw]
    exact by rw [time_faithful p_expires h2]
  obtain ⟨v_keys, hv, g_keys, p_keys⟩ := hm.get? (k := b!"keys") (.tail _ (.tail _ (.tail _ (.tail _ (.tail _ (.head _))))))
  have e_keys : N (encMap (encPtr Key.marshal) a1.keys) = N v_keys := by
    obtain ⟨x, y, hx, h0, h3⟩ := (htr b!"keys" (by simp [RootType.names])).1 _ hv
    simp only [RootType.setField] at h0
    obtain ⟨w, h2, h4⟩ := Res.bind_eq_ok.1 h0
    cases h4
    have hw : a1.keys = w := by unfold RootType.agree at h3; grind
    have ho : x.keys = none := by unfold RootType.agree at hx; have : ({} : RootType).keys = none := rfl; grind
    rw [ho] at h2
    rw [hw]
    exact ptrmap_faithful (fun _ h => h.ne_null) (fun _ hj _ h => Key.faithful hj h) p_keys h2
  obtain ⟨v_roles, hv, g_roles, p_roles⟩ := hm.get? (k := b!"roles") (.tail _ (.tail _ (.tail _ (.tail _ (.tail _ (.tail _ (.head _)))))))
  have e_roles : N (encMap (encPtr Role.marshal) a1.roles) = N v_roles := by
    obtain ⟨x, y, hx, h0, h3⟩ := (htr b!"roles" (by simp [RootType.names])).1 _ hv
    simp only [RootType.setField] at h0
    obtain ⟨w, h2, h4⟩ := Res.bind_eq_ok.1 h0
    cases h4
    have hw : a1.roles = w := by unfold RootType.agree at h3; grind
    have ho : x.roles = none := by unfold RootType.agree at hx; have : ({} : RootType).roles = none := rfl; grind
    rw [ho] at h2
    rw [hw]
    exact ptrmap_faithful (fun _ h => h.ne_null) (fun _ hj _ h => Role.faithful hj h) p_roles h2
  refine ⟨_, rfl, hfin _ (by simp) (by simp [RootType.names]) ?_⟩
  intro k hk
  simp only [RootType.names, List.mem_cons, List.not_mem_nil, or_false] at hk
  rcases hk with rfl | rfl | rfl | rfl | rfl | rfl | rfl
  · rw [g_type]; exact e_type
  · rw [g_specVersion]; exact e_specVersion
  · rw [g_consistentSnapshot]; exact e_consistentSnapshot
  · rw [g_version]; exact e_version
  · rw [g_expires]; exact e_expires
  · rw [g_keys]; exact e_keys
  · rw [g_roles]; exact e_roles

theorem SnapshotType.faithful {j : Json} (hj : MetasDoc env j) {a : SnapshotType} (h : SnapshotType.unmarshal env j = .ok a) : ∃ j', a.marshal = .ok j' ∧ N j' = N j := by
  obtain ⟨d, rfl, hm⟩ := hj
  have hs : unmarshalStruct env SnapshotType.names (SnapshotType.setField env) {} .ok (fun u a => { a with unrec := u }) (.obj d) = .ok a := h
  obtain ⟨a1, a2, u, h1, rfl, htr, hfin⟩ := struct_faithful (agree := SnapshotType.agree) (by unfold SnapshotType.agree; grind) (by unfold SnapshotType.agree; grind) SnapshotType.preserve hm (by decide)
    (by intro k; simp [SnapshotType.names]) hs
  cases h1
  obtain ⟨v_type, hv, g_type, p_type⟩ := hm.get? (k := b!"_type") (.head _)
  have e_type : N (.str a1.type) = N v_type := by
    obtain ⟨x, y, hx, h0, h3⟩ := (htr b!"_type" (by simp [SnapshotType.names])).1 _ hv
    simp only [SnapshotType.setField] at h0
    obtain ⟨w, h2, h4⟩ := Res.bind_eq_ok.1 h0
    cases h4
    have hw : a1.type = w := by unfold SnapshotType.agree at h3; grind
    rw [hw]
    exact str_faithful p_type h2
  obtain ⟨v_specVersion, hv, g_specVersion, p_specVersion⟩ := hm.get? (k := b!"spec_version") (.tail _ (.head _))
  have e_specVersion : N (.str a1.specVersion) = N v_specVersion := by
    obtain ⟨x, y, hx, h0, h3⟩ := (htr b!"spec_version" (by simp [SnapshotType.names])).1 _ hv
    simp only [SnapshotType.setField] at h0
    obtain ⟨w, h2, h4⟩ := Res.bind_eq_ok.1 h0
    cases h4
    have hw : a1.specVersion = w := by unfold SnapshotType.agree at h3; grind
    rw [hw]
    exact str_faithful p_specVersion h2
  obtain ⟨v_version, hv, g_version, p_version⟩ := hm.get? (k := b!"version") (.tail _ (.tail _ (.head _)))
  have e_version : N (.num a1.version) = N v_version := by
    obtain ⟨x, y, hx, h0, h3⟩ := (htr b!"version" (by simp [SnapshotType.names])).1 _ hv
    simp only [SnapshotType.setField] at h0
    obtain ⟨w, h2, h4⟩ := Res.bind_eq_ok.1 h0
    cases h4
    have hw : a1.version = w := by unfold SnapshotType.agree at h3; grind
    rw [hw]
    exact by rw [int_faithful p_version h2]
  obtain ⟨v_expires, hv, g_expires, p_expires⟩ := hm.get? (k := b!"expires") (.tail _ (.tail _ (.tail _ (.head _))))
  have e_expires : N (.str a1.expires.text) = N v_expires := by
    obtain ⟨x, y, hx, h0, h3⟩ := (htr b!"expires" (by simp [SnapshotType.names])).1 _ hv
    simp only [SnapshotType.setField] at h0
    obtain ⟨w, h2, h4⟩ := Res.bind_eq_ok.1 h0
    cases h4
    have hw : a1.expires = w := by unfold SnapshotType.agree at h3; grind
    rw [hw]
    exact by rw [time_faithful p_expires h2]
  obtain ⟨v_metas, hv, g_metas, p_metas⟩ := hm.get? (k := b!"meta") (.tail _ (.tail _ (.tail _ (.tail _ (.head _)))))
  have e_metas : N (encMap (encPtr MetaFiles.marshal) a1.metas) = N v_metas := by
    obtain ⟨x, y, hx, h0, h3⟩ := (htr b!"meta" (by simp [SnapshotType.names])).1 _ hv
    simp only [SnapshotType.setField] at h0
    obtain ⟨w, h2, h4⟩ := Res.bind_eq_ok.1 h0
    cases h4
    have hw : a1.metas = w := by unfold SnapshotType.agree at h3; grind
    have ho : x.metas = none := by unfold SnapshotType.agree at hx; have : ({} : SnapshotType).metas = none := rfl; grind
    rw [ho] at h2
    rw [hw]
    exact ptrmap_faithful (fun _ h => h.ne_null) (fun _ hj _ h => MetaFiles.faithful hj h) p_metas h2
  refine ⟨_, rfl, hfin _ (by simp) (by simp [SnapshotType.names]) ?_⟩
  intro k hk
  simp only [SnapshotType.names, List.mem_cons, List.not_mem_nil, or_false] at hk
  rcases hk with rfl | rfl | rfl | rfl | rfl
  · rw [g_type]; exact e_type
  · rw [g_specVersion]; exact e_specVersion
  · rw [g_version]; exact e_version
  · rw [g_expires]; exact e_expires
  · rw [g_metas]; exact e_metas

theorem TimestampType.faithful {j : Json} (hj : MetasDoc env j) {a : TimestampType} (h : TimestampType.unmarshal env j = .ok a) : ∃ j', a.marshal = .ok j' ∧ N j' = N j := by
  obtain ⟨d, rfl, hm⟩ := hj
  have hs : unmarshalStruct env TimestampType.names (TimestampType.setField env) {} .ok (fun u a => { a with unrec := u }) (.obj d) = .ok a := h
  obtain ⟨a1, a2, u, h1, rfl, htr, hfin⟩ := struct_faithful (agree := TimestampType.agree) (by unfold TimestampType.agree; grind) (by unfold TimestampType.agree; grind) TimestampType.preserve hm (by decide)
    (by intro k; simp [TimestampType.names]) hs
  cases h1
  obtain ⟨v_type, hv, g_type, p_type⟩ := hm.get? (k := b!"_type") (.head _)
  have e_type : N (.str a1.type) = N v_type := by
    obtain ⟨x, y, hx, h0, h3⟩ := (htr b!"_type" (by simp [TimestampType.names])).1 _ hv
    simp only [TimestampType.setField] at h0
    obtain ⟨w, h2, h4⟩ := Res.bind_eq_ok.1 h0
    cases h4
    have hw : a1.type = w := by unfold TimestampType.agree at h3; grind
    rw [hw]
    exact str_faithful p_type h2
  obtain ⟨v_specVersion, hv, g_specVersion, p_specVersion⟩ := hm.get? (k := b!"spec_version") (.tail _ (.head _))
  have e_specVersion : N (.str a1.specVersion) = N v_specVersion := by
    obtain ⟨x, y, hx, h0, h3⟩ := (htr b!"spec_version" (by simp [TimestampType.names])).1 _ hv
    simp only [TimestampType.setField] at h0
    obtain ⟨w, h2, h4⟩ := Res.bind_eq_ok.1 h0
    cases h4
    have hw : a1.specVersion = w := by unfold TimestampType.agree at h3; grind
    rw [hw]
    exact str_faithful p_specVersion h2
  obtain ⟨v_version, hv, g_version, p_version⟩ := hm.get? (k := b!"version") (.tail _ (.tail _ (.head _)))
  have e_version : N (.num a1.version) = N v_version := by
    obtain ⟨x, y, hx, h0, h3⟩ := (htr b!"version" (by simp [TimestampType.names])).1 _ hv
    simp only [TimestampType.setField] at h0
    obtain ⟨w, h2, h4⟩ := Res.bind_eq_ok.1 h0
    cases h4
    have hw : a1.version = w := by unfold TimestampType.agree at h3; grind
    rw [hw]
    exact by rw [int_faithful p_version h2]
  obtain ⟨v_expires, hv, g_expires, p_expires⟩ := hm.get? (k := b!"expires") (.tail _ (.tail _ (.tail _ (.head _))))
  have e_expires : N (.str a1.expires.text) = N v_expires := by
    obtain ⟨x, y, hx, h0, h3⟩ := (htr b!"expires" (by simp [TimestampType.names])).1 _ hv
    simp only [TimestampType.setField] at h0
    obtain ⟨w, h2, h4⟩ := Res.bind_eq_ok.1 h0
    cases h4
    have hw : a1.expires = w := by unfold TimestampType.agree at h3; grind
    rw [hw]
    exact by rw [time_faithful p_expires h2]
  obtain ⟨v_metas, hv, g_metas, p_metas⟩ := hm.get? (k := b!"meta") (.tail _ (.tail _ (.tail _ (.tail _ (.head _)))))
  have e_metas : N (encMap (encPtr MetaFiles.marshal) a1.metas) = N v_metas := by
    obtain ⟨x, y, hx, h0, h3⟩ := (htr b!"meta" (by simp [TimestampType.names])).1 _ hv
    simp only [TimestampType.setField] at h0
    obtain ⟨w, h2, h4⟩ := Res.bind_eq_ok.1 h0
    cases h4
    have hw : a1.metas = w := by unfold TimestampType.agree at h3; grind
    have ho : x.metas = none := by unfold TimestampType.agree at hx; have : ({} : TimestampType).metas = none := rfl; grind
    rw [ho] at h2
    rw [hw]
    exact ptrmap_faithful (fun _ h => h.ne_null) (fun _ hj _ h => MetaFiles.faithful hj h) p_metas h2
  refine ⟨_, rfl, hfin _ (by simp) (by simp [TimestampType.names]) ?_⟩
  intro k hk
  simp only [TimestampType.names, List.mem_cons, List.not_mem_nil, or_false] at hk
  rcases hk with rfl | rfl | rfl | rfl | rfl
  · rw [g_type]; exact e_type
  · rw [g_specVersion]; exact e_specVersion
  · rw [g_version]; exact e_version
  · rw [g_expires]; exact e_expires
  · rw [g_metas]; exact e_metas

theorem setPaths_marshal {es es' : Entries (Option TargetFiles)} (h : setPaths es = .ok es') :
    es'.map (fun e => (e.1, encPtr TargetFiles.marshal e.2)) = es.map (fun e => (e.1, encPtr TargetFiles.marshal e.2)) := by
  induction es generalizing es' with
  | nil => cases h; rfl
  | cons e es ih =>
    obtain ⟨k, p⟩ := e
    cases p with
    | none => cases h
    | some t =>
      obtain ⟨r, h1, h⟩ := Res.bind_eq_ok.1 h
      cases h
      rw [List.map_cons, List.map_cons, ih h1]
      rfl

theorem setTargetPaths_marshal {a a' : TargetsType} (h : a.setTargetPaths = .ok a') :
    encMap (encPtr TargetFiles.marshal) a'.targets = encMap (encPtr TargetFiles.marshal) a.targets ∧ a'.type = a.type ∧ a'.specVersion = a.specVersion ∧
      a'.version = a.version ∧ a'.expires = a.expires ∧ a'.delegations = a.delegations := by
  unfold TargetsType.setTargetPaths at h
  split at h
  · cases h; exact ⟨rfl, rfl, rfl, rfl, rfl, rfl⟩
  next es hes =>
    obtain ⟨es', h1, h⟩ := Res.bind_eq_ok.1 h
    cases h
    rw [hes]
    exact ⟨congrArg Json.obj (setPaths_marshal h1), rfl, rfl, rfl, rfl, rfl⟩

theorem TargetsType.faithful {j : Json} (hj : TargetsDoc env j) {a : TargetsType} (h : TargetsType.unmarshal env j = .ok a) : ∃ j', a.marshal = .ok j' ∧ N j' = N j := by
  obtain ⟨d, rfl, hm⟩ := hj
  have hs : unmarshalStruct env TargetsType.names (TargetsType.setField env) {} TargetsType.setTargetPaths (fun u a => { a with unrec := u }) (.obj d) = .ok a := h
  obtain ⟨a1, a2, u, h1, rfl, htr, hfin⟩ := struct_faithful (agree := TargetsType.agree) (by unfold TargetsType.agree; grind) (by unfold TargetsType.agree; grind) TargetsType.preserve hm (by decide)
    (by intro k; simp [TargetsType.names]) hs
  obtain ⟨v_type, hv, g_type, p_type⟩ := hm.get? (k := b!"_type") (.head _)
  have e_type : N (.str a1.type) = N v_type := by
    obtain ⟨x, y, hx, h0, h3⟩ := (htr b!"_type" (by simp [TargetsType.names])).1 _ hv
    simp only [TargetsType.setField] at h0
    obtain ⟨w, h2, h4⟩ := Res.bind_eq_ok.1 h0
    cases h4
    have hw : a1.type = w := by unfold TargetsType.agree at h3; grind
    rw [hw]
    exact str_faithful p_type h2
  obtain ⟨v_specVersion, hv, g_specVersion, p_specVersion⟩ := hm.get? (k := b!"spec_version") (.tail _ (.head _))
  have e_specVersion : N (.str a1.specVersion) = N v_specVersion := by
    obtain ⟨x, y, hx, h0, h3⟩ := (htr b!"spec_version" (by simp [TargetsType.names])).1 _ hv
    simp only [TargetsType.setField] at h0
    obtain ⟨w, h2, h4⟩ := Res.bind_eq_ok.1 h0
    cases h4
    have hw : a1.specVersion = w := by unfold TargetsType.agree at h3; grind
    rw [hw]
    exact str_faithful p_specVersion h2
  obtain ⟨v_version, hv, g_version, p_version⟩ := hm.get? (k := b!"version") (.tail _ (.tail _ (.head _)))
  have e_version : N (.num a1.version) = N v_version := by
    obtain ⟨x, y, hx, h0, h3⟩ := (htr b!"version" (by simp [TargetsType.names])).1 _ hv
    simp only [TargetsType.setField] at h0
    obtain ⟨w, h2, h4⟩ := Res.bind_eq_ok.1 h0
    cases h4
    have hw : a1.version = w := by unfold TargetsType.agree at h3; grind
    rw [hw]
    exact by rw [int_faithful p_version h2]
  obtain ⟨v_expires, hv, g_expires, p_expires⟩ := hm.get? (k := b!"expires") (.tail _ (.tail _ (.tail _ (.head _))))
  have e_expires : N (.str a1.expires.text) = N v_expires := by
    obtain ⟨x, y, hx, h0, h3⟩ := (htr b!"expires" (by simp [TargetsType.names])).1 _ hv
    simp only [TargetsType.setField] at h0
    obtain ⟨w, h2, h4⟩ := Res.bind_eq_ok.1 h0
    cases h4
    have hw : a1.expires = w := by unfold TargetsType.agree at h3; grind
    rw [hw]
    exact by rw [time_faithful p_expires h2]
  obtain ⟨v_targets, hv, g_targets, p_targets⟩ := hm.get? (k := b!"targets") (.tail _ (.tail _ (.tail _ (.tail _ (.head _)))))
  have e_targets : N (encMap (encPtr TargetFiles.marshal) a1.targets) = N v_targets := by
    obtain ⟨x, y, hx, h0, h3⟩ := (htr b!"targets" (by simp [TargetsType.names])).1 _ hv
    simp only [TargetsType.setField] at h0
    obtain ⟨w, h2, h4⟩ := Res.bind_eq_ok.1 h0
    cases h4
    have hw : a1.targets = w := by unfold TargetsType.agree at h3; grind
    have ho : x.targets = none := by unfold TargetsType.agree at hx; have : ({} : TargetsType).targets = none := rfl; grind
    rw [ho] at h2
    rw [hw]
    exact ptrmap_faithful (fun _ h => h.ne_null) (fun _ hj _ h => TargetFiles.faithful hj h) p_targets h2
  have e_delegations : (Entries.get? d b!"delegations" = none ∧ a1.delegations = none) ∨ (∃ l v, Entries.get? d b!"delegations" = some v ∧ a1.delegations = some l ∧ ∃ j', l.marshal = .ok j' ∧ N j' = N v) := by
    rcases hm.opt (k := b!"delegations") (.head _) with ⟨hn, hg⟩ | ⟨v, hv, hg, hp⟩
    · have := (htr b!"delegations" (by simp [TargetsType.names])).2 hn
      have h0 : ({} : TargetsType).delegations = none := rfl
      exact .inl ⟨hg, by unfold TargetsType.agree at this; grind⟩
    · obtain ⟨x, y, hx, h0, h3⟩ := (htr b!"delegations" (by simp [TargetsType.names])).1 _ hv
      simp only [TargetsType.setField] at h0
      obtain ⟨w, h2, h4⟩ := Res.bind_eq_ok.1 h0
      cases h4
      have hw : a1.delegations = w := by unfold TargetsType.agree at h3; grind
      have hnn := Spec.IsObj.ne_null hp.1
      unfold decPtr at h2
      split at h2
      · exact absurd rfl hnn
      · obtain ⟨l, h5, rfl⟩ := Res.map_eq_ok.1 h2
        obtain ⟨j', h6, h7⟩ := Delegations.faithful hp h5
        exact .inr ⟨l, _, hg, hw, j', h6, h7⟩
  obtain ⟨q1, q2, q3, q4, q5, q6⟩ := setTargetPaths_marshal h1
  unfold TargetsType.marshal
  dsimp only
  rw [q1, q2, q3, q4, q5, q6]
  rcases e_delegations with ⟨hp, hp0⟩ | ⟨lp, vp, hp, hp0, j', hjs, hp1⟩
  all_goals
    simp only [hp0]
    try simp only [hjs, Res.bind_ok]
    refine ⟨_, rfl, hfin _ (by simp) (by simp [TargetsType.names]) ?_⟩
    intro k hk
    simp only [TargetsType.names, List.mem_cons, List.not_mem_nil, or_false] at hk
    rcases hk with rfl | rfl | rfl | rfl | rfl | rfl <;> simp [Entries.get?_cons, Entries.get?, *]

/-! ## Documents -/

theorem signed_of {T : Type} [RoleType T] {data : Bytes} {m : Metadata T} (h : fromBytes env data = .ok m) {doc : List (Str × Json)} (hd : env.parse data = some (.obj doc))
    {s : Json} (hs : LastMember doc b!"signed" s) (he : SpelledExactly doc b!"signed") : RoleType.unmarshal env s = .ok m.signed := by
  unfold fromBytes at h
  obtain ⟨_, _, h⟩ := Res.bind_eq_ok.1 h
  obtain ⟨j, hj, h⟩ := Res.bind_eq_ok.1 h
  obtain ⟨m', hm, h⟩ := Res.bind_eq_ok.1 h
  obtain ⟨_, _, h⟩ := Res.bind_eq_ok.1 h
  cases h
  rw [hd] at hj
  cases hj
  unfold Metadata.unmarshal unmarshalStruct at hm
  obtain ⟨a1, h1, hm⟩ := Res.bind_eq_ok.1 hm
  obtain ⟨a2, h2, hm⟩ := Res.bind_eq_ok.1 hm
  obtain ⟨u, _, hm⟩ := Res.bind_eq_ok.1 hm
  cases h2
  cases hm
  show RoleType.unmarshal env s = .ok a1.signed
  have := decFields_last (get := fun a : Metadata T => RoleType.unmarshal env s = .ok a.signed) (f0 := b!"signed") (j0 := s) (v := True) (by simp [Metadata.names]) (by decide)
    (fun f j a a' hf hset => ?_) (fun a a' hset => ?_) he hs h1
  · exact of_eq_true this
  · unfold Metadata.setField at hset
    rw [if_neg hf] at hset
    obtain ⟨v, _, hset⟩ := Res.bind_eq_ok.1 hset
    cases hset
    rfl
  · unfold Metadata.setField at hset
    rw [if_pos rfl] at hset
    obtain ⟨v, hv, hset⟩ := Res.bind_eq_ok.1 hset
    cases hset
    exact eq_true hv

theorem payload_of_faithful {T : Type} [RoleType T] {a : T} {s : Json} (h : ∃ j', RoleType.marshal a = .ok j' ∧ N j' = N s) : canonical s = payload a := by
  obtain ⟨j', h1, h2⟩ := h
  unfold payload
  rw [h1, Res.bind_ok]
  unfold canonical
  have h2 : Json.toAny some j' = Json.toAny some s := h2
  rw [h2]

end

end Tuf
