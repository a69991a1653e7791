import Verif.Proofs.WellFormed
import Verif.Proofs.Canon

/-! The signed payload determines the value. -/

namespace Tuf
open Spec

section
variable {env : Env} {α β γ : Type}

/-- Decoding with `UseNumber`. -/
abbrev N (j : Json) : Option Json := Json.toAny some j

mutual
theorem N_isSome : ∀ j : Json, (N j).isSome
  | .null => by simp [N, Json.toAny]
  | .bool _ => by simp [N, Json.toAny]
  | .num _ => by simp [N, Json.toAny]
  | .frac _ => by simp [N, Json.toAny]
  | .str _ => by simp [N, Json.toAny]
  | .esc _ _ => by simp [N, Json.toAny]
  | .arr l => by rw [N, toAny_arr, Option.isSome_map]; exact NList_isSome l
  | .obj m => by rw [N, toAny_obj, Option.isSome_map]; exact NFields_isSome m
theorem NList_isSome : ∀ l : List Json, (Json.toAnyList some l).isSome
  | [] => by simp [Json.toAnyList]
  | j :: l => by
    rw [toAnyList_isSome, List.forall_mem_cons, ← toAnyList_isSome]
    exact ⟨N_isSome j, NList_isSome l⟩
theorem NFields_isSome : ∀ m : List (Str × Json), (Json.toAnyFields some m).isSome
  | [] => by simp [Json.toAnyFields]
  | (k, j) :: m => by
    rw [toAnyFields_isSome, List.forall_mem_cons, ← toAnyFields_isSome]
    exact ⟨N_isSome j, NFields_isSome m⟩
end

mutual
theorem norm_of_fixed {f : NumLit → Option NumLit} : ∀ j : Json, Json.toAny f j = some j → Norm j
  | .null, _ => by simp [Norm, Json.toAny]
  | .bool _, _ => by simp [Norm, Json.toAny]
  | .num _, _ => by simp [Norm, Json.toAny, Json.ofLit]
  | .frac _, _ => by simp [Norm, Json.toAny, Json.ofLit]
  | .str _, _ => by simp [Norm, Json.toAny]
  | .esc _ _, h => by simp [Json.toAny] at h
  | .arr l, h => toAny_fixed_arr.2 (normList_of_fixed l (toAny_fixed_arr.1 h))
  | .obj m, h => toAny_fixed_obj.2 ⟨(toAny_fixed_obj.1 h).1, normFields_of_fixed m (toAny_fixed_obj.1 h).2⟩
theorem normList_of_fixed {f : NumLit → Option NumLit} : ∀ l : List Json, (∀ j ∈ l, Json.toAny f j = some j) → ∀ j ∈ l, Norm j
  | [], _ => by simp
  | j :: l, h => by
    rw [List.forall_mem_cons] at h ⊢
    exact ⟨norm_of_fixed j h.1, normList_of_fixed l h.2⟩
theorem normFields_of_fixed {f : NumLit → Option NumLit} : ∀ m : List (Str × Json), (∀ e ∈ m, Json.toAny f e.2 = some e.2) → ∀ e ∈ m, Norm e.2
  | [], _ => by simp
  | (k, j) :: m, h => by
    rw [List.forall_mem_cons] at h ⊢
    exact ⟨norm_of_fixed j h.1, normFields_of_fixed m h.2⟩
end

theorem N_obj_sorted {d : List (Str × Json)} (hs : Entries.Sorted d) : ∃ es, Json.toAnyFields some d = some es ∧ N (.obj d) = some (.obj es) := by
  obtain ⟨es, he⟩ := Option.isSome_iff_exists.1 (NFields_isSome d)
  exact ⟨es, he, toAny_sorted he hs⟩

theorem obj_inj {d1 d2 : List (Str × Json)} (h1 : Entries.Sorted d1) (h2 : Entries.Sorted d2) (h : N (.obj d1) = N (.obj d2)) :
    Json.toAnyFields some d1 = Json.toAnyFields some d2 := by
  obtain ⟨es1, a1, b1⟩ := N_obj_sorted h1
  obtain ⟨es2, a2, b2⟩ := N_obj_sorted h2
  rw [b1, b2] at h
  cases h
  rw [a1, a2]

/-- Equal payloads of structs: equal fields, equal unrecognised fields. -/
theorem dict_inj {names : List Str} {u1 u2 : Fields} {fs1 fs2 : List (Str × Json)} (hu1 : FieldsWF env names u1) (hu2 : FieldsWF env names u2)
    (hn1 : (fs1.map Prod.fst).Nodup) (hn2 : (fs2.map Prod.fst).Nodup) (hk1 : ∀ e ∈ fs1, e.1 ∈ names) (hk2 : ∀ e ∈ fs2, e.1 ∈ names)
    (h : N (.obj (mkDict u1 fs1)) = N (.obj (mkDict u2 fs2))) : (∀ k, (Entries.get? fs1 k).bind N = (Entries.get? fs2 k).bind N) ∧ u1 = u2 := by
  have hf := obj_inj (mkDict_sorted hu1.sorted fs1) (mkDict_sorted hu2.sorted fs2) h
  obtain ⟨es, he⟩ := Option.isSome_iff_exists.1 (NFields_isSome (mkDict u1 fs1))
  have hget : ∀ k, (Entries.get? (mkDict u1 fs1) k).bind N = (Entries.get? (mkDict u2 fs2) k).bind N := by
    intro k
    rw [← toAnyFields_get? he k, ← toAnyFields_get? (hf ▸ he) k]
  have hun : ∀ {u : Fields}, FieldsWF env names u → ∀ k ∈ names, u.get? k = none := by
    intro u hu k hk
    cases hg : u.get? k with
    | none => rfl
    | some v => exact absurd hk (hu.unknown _ (Entries.mem_of_get? hg))
  have hfs : ∀ {fs : List (Str × Json)}, (∀ e ∈ fs, e.1 ∈ names) → ∀ k ∉ names, Entries.get? fs k = none := by
    intro fs hfs k hk
    cases hg : Entries.get? fs k with
    | none => rfl
    | some v => exact absurd (hfs _ (Entries.mem_of_get? hg)) hk
  constructor
  · intro k
    by_cases hk : k ∈ names
    · have := hget k
      rw [mkDict_get? _ _ hn1, mkDict_get? _ _ hn2, hun hu1 k hk, hun hu2 k hk] at this
      cases h1 : Entries.get? fs1 k <;> cases h2 : Entries.get? fs2 k <;> rw [h1, h2] at this <;> exact this
    · rw [hfs hk1 k hk, hfs hk2 k hk]
  · refine Entries.Sorted.ext hu1.sorted hu2.sorted ?_
    intro k
    by_cases hk : k ∈ names
    · rw [hun hu1 k hk, hun hu2 k hk]
    · have := hget k
      rw [mkDict_get? _ _ hn1, mkDict_get? _ _ hn2, hfs hk1 k hk, hfs hk2 k hk] at this
      have hfix : ∀ {u : Fields}, FieldsWF env names u → (u.get? k).bind N = u.get? k := by
        intro u hu
        cases hg : u.get? k with
        | none => rfl
        | some v => exact norm_of_fixed v (hu.any _ (Entries.mem_of_get? hg))
      dsimp only at this
      rwa [hfix hu1, hfix hu2] at this

theorem list_inj {enc : α → Json} {v : α → β} {l1 l2 : List α} (hinj : ∀ x ∈ l1, ∀ y ∈ l2, N (enc x) = N (enc y) → v x = v y)
    (h : Json.toAnyList some (l1.map enc) = Json.toAnyList some (l2.map enc)) : l1.map v = l2.map v := by
  induction l1 generalizing l2 with
  | nil =>
    cases l2 with
    | nil => rfl
    | cons y l2 =>
      obtain ⟨l, hl⟩ := Option.isSome_iff_exists.1 (NList_isSome ((y :: l2).map enc))
      rw [hl] at h
      simp only [List.map_nil, Json.toAnyList] at h
      cases h
      obtain ⟨_, _, _, _, h⟩ := toAnyList_cons.1 hl
      cases h
  | cons x l1 ih =>
    obtain ⟨l, hl⟩ := Option.isSome_iff_exists.1 (NList_isSome ((x :: l1).map enc))
    rw [hl] at h
    obtain ⟨a, b, h1, h2, rfl⟩ := toAnyList_cons.1 hl
    cases l2 with
    | nil => simp only [List.map_nil, Json.toAnyList] at h; cases h
    | cons y l2 =>
      obtain ⟨a', b', h3, h4, h5⟩ := toAnyList_cons.1 h.symm
      cases h5
      rw [List.map_cons, List.map_cons, hinj x (.head _) y (.head _) (h1.trans h3.symm),
        ih (fun x hx y hy => hinj x (.tail _ hx) y (.tail _ hy)) (h2.trans h4.symm)]

theorem N_arr_inj {l1 l2 : List Json} (h : N (.arr l1) = N (.arr l2)) : Json.toAnyList some l1 = Json.toAnyList some l2 := by
  rw [N, N, toAny_arr, toAny_arr] at h
  obtain ⟨a, ha⟩ := Option.isSome_iff_exists.1 (NList_isSome l1)
  obtain ⟨b, hb⟩ := Option.isSome_iff_exists.1 (NList_isSome l2)
  rw [ha, hb] at h ⊢
  simpa using h

theorem N_arr_ne (l : List Json) (j : Json) (hj : ∀ l, j ≠ .arr l) : N (.arr l) ≠ some j := by
  rw [N, toAny_arr]
  intro h
  obtain ⟨a, _, rfl⟩ := Option.map_eq_some_iff.1 h
  exact hj a rfl

theorem N_obj_ne (d : List (Str × Json)) (j : Json) (hj : ∀ l, j ≠ .obj l) : N (.obj d) ≠ some j := by
  rw [N, toAny_obj]
  intro h
  obtain ⟨a, _, rfl⟩ := Option.map_eq_some_iff.1 h
  exact hj _ rfl

theorem N_null : N .null = some .null := by simp [N, Json.toAny]
theorem N_str (s : Str) : N (.str s) = some (.str s) := by simp [N, Json.toAny]
theorem N_num (n : Int) : N (.num n) = some (.num n) := by simp [N, Json.toAny, Json.ofLit]
theorem N_bool (b : Bool) : N (.bool b) = some (.bool b) := by simp [N, Json.toAny]

theorem slice_inj {enc : α → Json} {v : α → β} {s1 s2 : Slice α} (hinj : ∀ x ∈ s1.elems, ∀ y ∈ s2.elems, N (enc x) = N (enc y) → v x = v y)
    (h : N (encSlice enc s1) = N (encSlice enc s2)) : s1.map (List.map v) = s2.map (List.map v) := by
  cases s1 with
  | none =>
    cases s2 with
    | none => rfl
    | some l2 => exact absurd (h.symm.trans N_null) (N_arr_ne _ _ (by simp))
  | some l1 =>
    cases s2 with
    | none => exact absurd (h.trans N_null) (N_arr_ne _ _ (by simp))
    | some l2 => exact congrArg some (list_inj hinj (N_arr_inj h))

theorem strs_inj {s1 s2 : Slice Str} (h : N (encSlice .str s1) = N (encSlice .str s2)) : s1 = s2 := by
  have := slice_inj (v := fun x : Str => x) (fun x _ y _ hxy => by rw [N_str, N_str] at hxy; cases hxy; rfl) h
  simpa using this

theorem map_inj {enc : α → Json} {v : α → β} {m1 m2 : GoMap α} (hs1 : Entries.Sorted m1.entries) (hs2 : Entries.Sorted m2.entries)
    (hinj : ∀ e1 ∈ m1.entries, ∀ e2 ∈ m2.entries, e1.1 = e2.1 → N (enc e1.2) = N (enc e2.2) → v e1.2 = v e2.2)
    (h : N (encMap enc m1) = N (encMap enc m2)) : m1.map (fun es => es.map (fun e => (e.1, v e.2))) = m2.map (fun es => es.map (fun e => (e.1, v e.2))) := by
  cases m1 with
  | none =>
    cases m2 with
    | none => rfl
    | some l2 => exact absurd (h.symm.trans N_null) (N_obj_ne _ _ (by simp))
  | some l1 =>
    cases m2 with
    | none => exact absurd (h.trans N_null) (N_obj_ne _ _ (by simp))
    | some l2 =>
      refine congrArg some ?_
      have hf := obj_inj ((Entries.sorted_map l1 (fun e => enc e.2)).2 hs1) ((Entries.sorted_map l2 (fun e => enc e.2)).2 hs2) h
      clear h
      have hinj' : ∀ e1 ∈ l1, ∀ e2 ∈ l2, e1.1 = e2.1 → N (enc e1.2) = N (enc e2.2) → v e1.2 = v e2.2 := hinj
      clear hs1 hs2 hinj
      induction l1 generalizing l2 with
      | nil =>
        cases l2 with
        | nil => rfl
        | cons y l2 =>
          obtain ⟨l, hl⟩ := Option.isSome_iff_exists.1 (NFields_isSome ((y :: l2).map (fun e => (e.1, enc e.2))))
          rw [hl] at hf
          simp only [List.map_nil, Json.toAnyFields] at hf
          cases hf
          obtain ⟨_, _, _, _, h⟩ := toAnyFields_cons.1 hl
          cases h
      | cons x l1 ih =>
        obtain ⟨l, hl⟩ := Option.isSome_iff_exists.1 (NFields_isSome ((x :: l1).map (fun e => (e.1, enc e.2))))
        rw [hl] at hf
        obtain ⟨a, b, h1, h2, rfl⟩ := toAnyFields_cons.1 hl
        cases l2 with
        | nil => simp only [List.map_nil, Json.toAnyFields] at hf; cases hf
        | cons y l2 =>
          obtain ⟨a', b', h3, h4, h5⟩ := toAnyFields_cons.1 hf.symm
          simp only [List.cons.injEq, Prod.mk.injEq] at h5
          obtain ⟨⟨h5, h6⟩, h7⟩ := h5
          subst h6 h7
          show List.map _ (x :: l1) = List.map _ (y :: l2)
          have ih' := ih l2 (h2.trans h4.symm) (fun e1 h1 e2 h2 => hinj' e1 (.tail _ h1) e2 (.tail _ h2))
          rw [List.map_cons, List.map_cons, h5, hinj' x (.head _) y (.head _) h5 (h1.trans h3.symm)]
          exact congrArg _ ih'

theorem ptr_inj {enc : α → Json} {v : α → β} {p1 p2 : Option α} (hobj : ∀ x, ∃ d, enc x = .obj d)
    (hinj : ∀ x y, p1 = some x → p2 = some y → N (enc x) = N (enc y) → v x = v y) (h : N (encPtr enc p1) = N (encPtr enc p2)) : p1.map v = p2.map v := by
  have hne : ∀ x, N (enc x) ≠ some .null := by
    intro x
    obtain ⟨d, hd⟩ := hobj x
    rw [hd]
    exact N_obj_ne _ _ (by simp)
  cases p1 with
  | none =>
    cases p2 with
    | none => rfl
    | some y => exact absurd (h.symm.trans N_null) (hne y)
  | some x =>
    cases p2 with
    | none => exact absurd (h.trans N_null) (hne x)
    | some y => exact congrArg some (hinj x y rfl rfl h)

theorem map_id_entries {m1 m2 : GoMap α} (h : m1.map (fun es => es.map (fun e => (e.1, e.2))) = m2.map (fun es => es.map (fun e => (e.1, e.2)))) : m1 = m2 := by
  simpa using h

theorem hashes_inj {h1 h2 : Hashes} (hs1 : Entries.Sorted h1.entries) (hs2 : Entries.Sorted h2.entries) (h : N (encMap encHex h1) = N (encMap encHex h2)) : h1 = h2 := by
  refine map_id_entries (map_inj (v := fun x : Bytes => x) hs1 hs2 ?_ h)
  intro e1 _ e2 _ _ he
  unfold encHex at he
  rw [N_str, N_str] at he
  simp only [Option.some.injEq, Json.str.injEq] at he
  exact hexEncode_injective he

/-- A map of pointers to structs. -/
theorem ptrmap_inj {enc : α → Json} {v : α → α} {m1 m2 : GoMap (Option α)} (hobj : ∀ x, ∃ d, enc x = .obj d) (hs1 : Entries.Sorted m1.entries) (hs2 : Entries.Sorted m2.entries)
    (hinj : ∀ e1 ∈ m1.entries, ∀ e2 ∈ m2.entries, e1.1 = e2.1 → ∀ x y, e1.2 = some x → e2.2 = some y → N (enc x) = N (enc y) → v x = v y)
    (h : N (encMap (encPtr enc) m1) = N (encMap (encPtr enc) m2)) : mapValues v m1 = mapValues v m2 := by
  unfold mapValues
  exact map_inj (v := Option.map v) hs1 hs2 (fun e1 h1 e2 h2 hk he => ptr_inj hobj (hinj e1 h1 e2 h2 hk) he) h

theorem mapValues_id {m : GoMap (Option α)} : mapValues (fun x => x) m = m := by
  unfold mapValues
  cases m with
  | none => rfl
  | some es => simp

end

/-! ## The types -/

section
variable {env : Env}

theorem get?_lit_cons (k : Str) (j : Json) (l : List (Str × Json)) (k' : Str) :
    Entries.get? ((k, j) :: l) k' = if k = k' then some j else Entries.get? l k' := Entries.get?_cons _ _ _ _

theorem KeyVal.inj {a b : KeyVal} (ha : FieldsWF env KeyVal.names a.unrec) (hb : FieldsWF env KeyVal.names b.unrec) (h : N a.marshal = N b.marshal) : a = b := by
  obtain ⟨h1, h2⟩ := dict_inj ha hb (by simp) (by simp) (by simp [KeyVal.names]) (by simp [KeyVal.names]) h
  have e1 := h1 b!"public"
  simp [Entries.get?_cons, N_str] at e1
  cases a; cases b; simp_all

theorem Key.inj {a b : Key} (ha : Key.WF env a) (hb : Key.WF env b) (h : N a.marshal = N b.marshal) : a = b := by
  obtain ⟨h1, h2⟩ := dict_inj ha.fields hb.fields (by simp) (by simp) (by simp [Key.names]) (by simp [Key.names]) h
  have e1 := h1 b!"keytype"
  have e2 := h1 b!"scheme"
  have e3 := h1 b!"keyval"
  simp [Entries.get?_cons, N_str] at e1 e2 e3
  have e4 := KeyVal.inj ha.value hb.value e3
  have i1 := ha.id
  have i2 := hb.id
  cases a; cases b; simp_all

theorem Role.inj {a b : Role} (ha : Role.WF env a) (hb : Role.WF env b) (h : N a.marshal = N b.marshal) : a = b := by
  obtain ⟨h1, h2⟩ := dict_inj ha.fields hb.fields (by simp) (by simp) (by simp [Role.names]) (by simp [Role.names]) h
  have e1 := h1 b!"keyids"
  have e2 := h1 b!"threshold"
  simp [Entries.get?_cons, N_num] at e1 e2
  have e3 := strs_inj e1
  cases a; cases b; simp_all

theorem SuccinctRoles.inj {a b : SuccinctRoles} (ha : SuccinctRoles.WF env a) (hb : SuccinctRoles.WF env b) (h : N a.marshal = N b.marshal) : a = b := by
  obtain ⟨h1, h2⟩ := dict_inj ha.fields hb.fields (by simp) (by simp) (by simp [SuccinctRoles.names]) (by simp [SuccinctRoles.names]) h
  have e1 := h1 b!"keyids"
  have e2 := h1 b!"threshold"
  have e3 := h1 b!"bit_length"
  have e4 := h1 b!"name_prefix"
  simp [Entries.get?_cons, N_num, N_str] at e1 e2 e3 e4
  have e3 := strs_inj e1
  cases a; cases b; simp_all

theorem get?_opt {p : Prop} [Decidable p] (k : Str) (j : Json) (l : List (Str × Json)) (k' : Str) :
    Entries.get? ((if p then [(k, j)] else []) ++ l) k' = if p ∧ k = k' then some j else Entries.get? l k' := by
  by_cases hp : p
  · simp [hp, Entries.get?_cons]
  · simp [hp]

theorem MetaFiles.inj {a b : MetaFiles} (ha : MetaFiles.WF env a) (hb : MetaFiles.WF env b) (h : N a.marshal = N b.marshal) : viewMeta a = viewMeta b := by
  have hk : ∀ c : MetaFiles, ∀ e ∈ (if c.length ≠ 0 then [(b!"length", Json.num c.length)] else []) ++ (if c.hashes.entries ≠ [] then [(b!"hashes", encMap encHex c.hashes)] else []) ++
      [(b!"version", .num c.version)], e.1 ∈ MetaFiles.names := by
    intro c e he
    simp only [List.mem_append, List.mem_ite_nil_right, List.mem_cons, List.not_mem_nil, or_false] at he
    rcases he with (⟨_, rfl⟩ | ⟨_, rfl⟩) | rfl <;> simp [MetaFiles.names]
  obtain ⟨h1, h2⟩ := dict_inj ha.fields hb.fields (by split <;> split <;> simp) (by split <;> split <;> simp) (hk a) (hk b) h
  have e1 := h1 b!"length"
  have e2 := h1 b!"version"
  have e3 := h1 b!"hashes"
  clear h1 h hk
  simp only [List.append_assoc, get?_opt, Entries.get?_cons] at e1 e2 e3
  have e1 : a.length = b.length := by
    by_cases ha0 : a.length = 0 <;> by_cases hb0 : b.length = 0 <;> simp [ha0, hb0, N_num] at e1 ⊢
    exact e1
  have e2 : a.version = b.version := by
    simpa [N_num] using e2
  have e3 : (if a.hashes.entries = [] then none else a.hashes) = (if b.hashes.entries = [] then none else b.hashes) := by
    have hsome : ∀ h : Hashes, N (encMap encHex h) ≠ none := fun h he => by have := N_isSome (encMap encHex h); rw [he] at this; cases this
    by_cases ha0 : a.hashes.entries = [] <;> by_cases hb0 : b.hashes.entries = []
    · rw [if_pos ha0, if_pos hb0]
    · simp [ha0, hb0] at e3; exact absurd e3.symm (hsome _)
    · simp [ha0, hb0] at e3; exact absurd e3 (hsome _)
    · rw [if_neg ha0, if_neg hb0]
      refine hashes_inj ha.hashes hb.hashes ?_
      simpa [ha0, hb0] using e3
  unfold viewMeta
  rw [e3]
  cases a; cases b; simp_all

theorem TargetFiles.inj {a b : TargetFiles} (ha : TargetFiles.WF env a) (hb : TargetFiles.WF env b) (hpath : a.path = b.path) (h : N a.marshal = N b.marshal) : viewTarget a = viewTarget b := by
  have hk : ∀ c : TargetFiles, ∀ e ∈ [(b!"length", Json.num c.length), (b!"hashes", encMap encHex c.hashes)] ++ (match c.custom with | some c => [(b!"custom", c)] | none => []),
      e.1 ∈ TargetFiles.names := by
    intro c e he
    cases hc : c.custom <;> rw [hc] at he <;> simp at he
    · rcases he with rfl | rfl <;> simp [TargetFiles.names]
    · rcases he with rfl | rfl | rfl <;> simp [TargetFiles.names]
  obtain ⟨h1, h2⟩ := dict_inj ha.fields hb.fields (by split <;> simp) (by split <;> simp) (hk a) (hk b) h
  have e1 := h1 b!"length"
  have e2 := h1 b!"hashes"
  have e3 := h1 b!"custom"
  clear h1 h hk
  have e1 : a.length = b.length := by simpa [Entries.get?_cons, N_num] using e1
  have e2 : a.hashes = b.hashes := hashes_inj ha.hashes hb.hashes (by simpa [Entries.get?_cons] using e2)
  have e3 : a.custom.bind (Json.toAny some) = b.custom.bind (Json.toAny some) := by
    cases hc1 : a.custom <;> cases hc2 : b.custom <;> rw [hc1, hc2] at e3 <;> simpa [Entries.get?_cons] using e3
  unfold viewTarget
  rw [e3]
  cases a; cases b; simp_all

theorem DelegatedRole.inj {a b : DelegatedRole} {j1 j2 : Json} (ha : DelegatedRole.WF env a) (hb : DelegatedRole.WF env b) (h1 : a.marshal = .ok j1) (h2 : b.marshal = .ok j2)
    (h : N j1 = N j2) : a = b := by
  have hsome : ∀ l : List Str, N (.arr (l.map Json.str)) ≠ none := fun l he => by have := N_isSome (.arr (l.map Json.str)); rw [he] at this; cases this
  have hsl : ∀ l1 l2 : List Str, N (.arr (l1.map Json.str)) = N (.arr (l2.map Json.str)) → l1 = l2 := fun l1 l2 he => by
    have := strs_inj (s1 := some l1) (s2 := some l2) he
    cases this; rfl
  unfold DelegatedRole.marshal at h1 h2
  cases ha1 : a.paths <;> cases ha2 : a.pathHashPrefixes <;> cases hb1 : b.paths <;> cases hb2 : b.pathHashPrefixes <;> rw [ha1, ha2] at h1 <;> rw [hb1, hb2] at h2 <;> cases h1 <;> cases h2 <;>
  · obtain ⟨h1, h2⟩ := dict_inj ha.fields hb.fields (by simp) (by simp) (by simp [DelegatedRole.names]) (by simp [DelegatedRole.names]) h
    have e1 := h1 b!"name"
    have e2 := h1 b!"keyids"
    have e3 := h1 b!"threshold"
    have e4 := h1 b!"terminating"
    have e5 := h1 b!"paths"
    have e6 := h1 b!"path_hash_prefixes"
    clear h1 h
    simp [Entries.get?_cons, N_str, N_num, N_bool, hsome, (fun l => (hsome l).symm)] at e1 e2 e3 e4 e5 e6
    all_goals
      have e2 := strs_inj e2
      try have e5 := hsl _ _ e5
      try have e6 := hsl _ _ e6
      cases a; cases b; simp_all

theorem marshalRoles_inj {l1 l2 : List DelegatedRole} {js1 js2 : List Json} (h1 : ∀ r ∈ l1, DelegatedRole.WF env r) (h2 : ∀ r ∈ l2, DelegatedRole.WF env r)
    (hm1 : marshalRoles l1 = .ok js1) (hm2 : marshalRoles l2 = .ok js2) (h : Json.toAnyList some js1 = Json.toAnyList some js2) : l1 = l2 := by
  induction l1 generalizing l2 js1 js2 with
  | nil =>
    cases hm1
    cases l2 with
    | nil => rfl
    | cons r l2 =>
      rw [marshalRoles] at hm2
      obtain ⟨j, _, hm2⟩ := Res.bind_eq_ok.1 hm2
      obtain ⟨js, _, hm2⟩ := Res.bind_eq_ok.1 hm2
      cases hm2
      obtain ⟨_, _, _, _, h⟩ := toAnyList_cons.1 h.symm
      cases h
  | cons r l1 ih =>
    rw [marshalRoles] at hm1
    obtain ⟨j, hj, hm1⟩ := Res.bind_eq_ok.1 hm1
    obtain ⟨js, hjs, hm1⟩ := Res.bind_eq_ok.1 hm1
    cases hm1
    cases l2 with
    | nil =>
      cases hm2
      obtain ⟨_, _, _, _, h⟩ := toAnyList_cons.1 h
      cases h
    | cons r' l2 =>
      rw [marshalRoles] at hm2
      obtain ⟨j', hj', hm2⟩ := Res.bind_eq_ok.1 hm2
      obtain ⟨js', hjs', hm2⟩ := Res.bind_eq_ok.1 hm2
      cases hm2
      obtain ⟨l, hl⟩ := Option.isSome_iff_exists.1 (NList_isSome (j :: js))
      rw [hl] at h
      obtain ⟨x, y, h3, h4, rfl⟩ := toAnyList_cons.1 hl
      obtain ⟨x', y', h5, h6, h7⟩ := toAnyList_cons.1 h.symm
      cases h7
      rw [List.forall_mem_cons] at h1 h2
      rw [DelegatedRole.inj h1.1 h2.1 hj hj' (h3.trans h5.symm), ih h1.2 h2.2 hjs hjs' (h4.trans h6.symm)]

theorem Key.obj (a : Key) : ∃ d, a.marshal = .obj d := ⟨_, rfl⟩
theorem Role.obj (a : Role) : ∃ d, a.marshal = .obj d := ⟨_, rfl⟩
theorem MetaFiles.obj (a : MetaFiles) : ∃ d, a.marshal = .obj d := ⟨_, rfl⟩
theorem TargetFiles.obj (a : TargetFiles) : ∃ d, a.marshal = .obj d := ⟨_, rfl⟩

theorem keys_inj {m1 m2 : GoMap (Option Key)} (h1 : MapWF (fun p => ∀ x, p = some x → Key.WF env x) m1) (h2 : MapWF (fun p => ∀ x, p = some x → Key.WF env x) m2)
    (h : N (encMap (encPtr Key.marshal) m1) = N (encMap (encPtr Key.marshal) m2)) : m1 = m2 := by
  have := ptrmap_inj (v := fun x => x) Key.obj h1.1 h2.1 (fun e1 he1 e2 he2 _ x y hx hy => Key.inj (h1.2 e1 he1 x hx) (h2.2 e2 he2 y hy)) h
  rwa [mapValues_id, mapValues_id] at this

theorem roles_inj {m1 m2 : GoMap (Option Role)} (h1 : MapWF (fun p => ∀ x, p = some x → Role.WF env x) m1) (h2 : MapWF (fun p => ∀ x, p = some x → Role.WF env x) m2)
    (h : N (encMap (encPtr Role.marshal) m1) = N (encMap (encPtr Role.marshal) m2)) : m1 = m2 := by
  have := ptrmap_inj (v := fun x => x) Role.obj h1.1 h2.1 (fun e1 he1 e2 he2 _ x y hx hy => Role.inj (h1.2 e1 he1 x hx) (h2.2 e2 he2 y hy)) h
  rwa [mapValues_id, mapValues_id] at this

theorem metas_inj {m1 m2 : GoMap (Option MetaFiles)} (h1 : MapWF (fun p => ∀ x, p = some x → MetaFiles.WF env x) m1) (h2 : MapWF (fun p => ∀ x, p = some x → MetaFiles.WF env x) m2)
    (h : N (encMap (encPtr MetaFiles.marshal) m1) = N (encMap (encPtr MetaFiles.marshal) m2)) : mapValues viewMeta m1 = mapValues viewMeta m2 :=
  ptrmap_inj MetaFiles.obj h1.1 h2.1 (fun e1 he1 e2 he2 _ x y hx hy => MetaFiles.inj (h1.2 e1 he1 x hx) (h2.2 e2 he2 y hy)) h

theorem Delegations.inj {a b : Delegations} {j1 j2 : Json} (ha : Delegations.WF env a) (hb : Delegations.WF env b) (h1 : a.marshal = .ok j1) (h2 : b.marshal = .ok j2)
    (h : N j1 = N j2) : viewDelegations a = viewDelegations b := by
  have hsome : ∀ j : Json, N j ≠ none := fun j he => by have := N_isSome j; rw [he] at this; cases this
  unfold Delegations.marshal at h1 h2
  dsimp only at h1 h2
  cases ha1 : a.roles with
  | some l1 =>
    rw [ha1] at h1
    obtain ⟨js1, hj1, h1⟩ := Res.bind_eq_ok.1 h1
    cases h1
    cases hb1 : b.roles with
    | some l2 =>
      rw [hb1] at h2
      obtain ⟨js2, hj2, h2⟩ := Res.bind_eq_ok.1 h2
      cases h2
      obtain ⟨h1, h2⟩ := dict_inj ha.fields hb.fields (by simp) (by simp) (by simp [Delegations.names]) (by simp [Delegations.names]) h
      have e1 := h1 b!"keys"
      have e2 := h1 b!"roles"
      simp [Entries.get?_cons] at e1 e2
      have e1 := keys_inj ha.keys hb.keys e1
      have e2 := marshalRoles_inj (fun r hr => ha.roles r (by rw [ha1]; exact hr)) (fun r hr => hb.roles r (by rw [hb1]; exact hr)) hj1 hj2 (N_arr_inj e2)
      unfold viewDelegations
      cases a; cases b; simp_all
    | none =>
      rw [hb1] at h2
      exfalso
      cases hb2 : b.succinctRoles <;> rw [hb2] at h2 <;> cases h2 <;>
      · have e2 := (dict_inj ha.fields hb.fields (by simp) (by simp) (by simp [Delegations.names]) (by simp [Delegations.names]) h).1 b!"roles"
        simp [Entries.get?_cons] at e2
        exact hsome _ e2
  | none =>
    rw [ha1] at h1
    cases hb1 : b.roles with
    | some l2 =>
      rw [hb1] at h2
      obtain ⟨js2, hj2, h2⟩ := Res.bind_eq_ok.1 h2
      cases h2
      exfalso
      cases ha2 : a.succinctRoles <;> rw [ha2] at h1 <;> cases h1 <;>
      · have e2 := (dict_inj ha.fields hb.fields (by simp) (by simp) (by simp [Delegations.names]) (by simp [Delegations.names]) h).1 b!"roles"
        simp [Entries.get?_cons] at e2
        exact hsome _ e2.symm
    | none =>
      rw [hb1] at h2
      cases ha2 : a.succinctRoles <;> cases hb2 : b.succinctRoles <;> rw [ha2] at h1 <;> rw [hb2] at h2 <;> cases h1 <;> cases h2 <;>
      · obtain ⟨h1, h2⟩ := dict_inj ha.fields hb.fields (by simp) (by simp) (by simp [Delegations.names]) (by simp [Delegations.names]) h
        have e1 := h1 b!"keys"
        have e2 := h1 b!"succinct_roles"
        simp [Entries.get?_cons, hsome, (fun j => (hsome j).symm)] at e1 e2
        all_goals
          have e1 := keys_inj ha.keys hb.keys e1
          try have e2 := SuccinctRoles.inj (ha.succinct _ ha2) (hb.succinct _ hb2) e2
          unfold viewDelegations
          cases a; cases b; simp_all

theorem time_inj (laws : EnvLaws env) {s t : Time} (hs : TimeWF env s) (ht : TimeWF env t) (h : s.text = t.text) : s = t := by
  have key : ∀ t : Time, TimeWF env t → env.parseTime t.text = some t := by
    rintro t (⟨s, h⟩ | rfl)
    · exact laws.time s t h
    · exact laws.zeroTime
  have h1 := key s hs
  have h2 := key t ht
  rw [h, h2] at h1
  cases h1; rfl

theorem RootType.inj (laws : EnvLaws env) {a b : RootType} {j1 j2 : Json} (ha : RootType.WF env a) (hb : RootType.WF env b) (h1 : a.marshal = .ok j1) (h2 : b.marshal = .ok j2)
    (h : N j1 = N j2) : a = b := by
  cases h1
  cases h2
  obtain ⟨h1, h2⟩ := dict_inj ha.fields hb.fields (by simp) (by simp) (by simp [RootType.names]) (by simp [RootType.names]) h
  have e1 := h1 b!"_type"
  have e2 := h1 b!"spec_version"
  have e3 := h1 b!"consistent_snapshot"
  have e4 := h1 b!"version"
  have e5 := h1 b!"expires"
  have e6 := h1 b!"keys"
  have e7 := h1 b!"roles"
  clear h1 h
  simp [Entries.get?_cons, N_str, N_num, N_bool] at e1 e2 e3 e4 e5 e6 e7
  have e5 := time_inj laws ha.expires hb.expires e5
  have e6 := keys_inj ha.keys hb.keys e6
  have e7 := roles_inj ha.roles hb.roles e7
  clear ha hb
  cases a; cases b; simp_all

theorem SnapshotType.inj (laws : EnvLaws env) {a b : SnapshotType} {j1 j2 : Json} (ha : SnapshotType.WF env a) (hb : SnapshotType.WF env b) (h1 : a.marshal = .ok j1)
    (h2 : b.marshal = .ok j2) (h : N j1 = N j2) : viewSnapshot a = viewSnapshot b := by
  cases h1
  cases h2
  obtain ⟨h1, h2⟩ := dict_inj ha.fields hb.fields (by simp) (by simp) (by simp [SnapshotType.names]) (by simp [SnapshotType.names]) h
  have e1 := h1 b!"_type"
  have e2 := h1 b!"spec_version"
  have e4 := h1 b!"version"
  have e5 := h1 b!"expires"
  have e6 := h1 b!"meta"
  clear h1 h
  simp [Entries.get?_cons, N_str, N_num] at e1 e2 e4 e5 e6
  have e5 := time_inj laws ha.expires hb.expires e5
  have e6 := metas_inj ha.metas hb.metas e6
  clear ha hb
  unfold viewSnapshot
  rw [e6]
  cases a; cases b; simp_all

theorem TimestampType.inj (laws : EnvLaws env) {a b : TimestampType} {j1 j2 : Json} (ha : TimestampType.WF env a) (hb : TimestampType.WF env b) (h1 : a.marshal = .ok j1)
    (h2 : b.marshal = .ok j2) (h : N j1 = N j2) : viewTimestamp a = viewTimestamp b := by
  cases h1
  cases h2
  obtain ⟨h1, h2⟩ := dict_inj ha.fields hb.fields (by simp) (by simp) (by simp [TimestampType.names]) (by simp [TimestampType.names]) h
  have e1 := h1 b!"_type"
  have e2 := h1 b!"spec_version"
  have e4 := h1 b!"version"
  have e5 := h1 b!"expires"
  have e6 := h1 b!"meta"
  clear h1 h
  simp [Entries.get?_cons, N_str, N_num] at e1 e2 e4 e5 e6
  have e5 := time_inj laws ha.expires hb.expires e5
  have e6 := metas_inj ha.metas hb.metas e6
  clear ha hb
  unfold viewTimestamp
  rw [e6]
  cases a; cases b; simp_all

theorem TargetsType.inj (laws : EnvLaws env) {a b : TargetsType} {j1 j2 : Json} (ha : TargetsType.WF env a) (hb : TargetsType.WF env b) (h1 : a.marshal = .ok j1)
    (h2 : b.marshal = .ok j2) (h : N j1 = N j2) : viewTargets a = viewTargets b := by
  have hsome : ∀ j : Json, N j ≠ none := fun j he => by have := N_isSome j; rw [he] at this; cases this
  have ht : N (encMap (encPtr TargetFiles.marshal) a.targets) = N (encMap (encPtr TargetFiles.marshal) b.targets) → mapValues viewTarget a.targets = mapValues viewTarget b.targets := by
    refine ptrmap_inj TargetFiles.obj ha.targets hb.targets ?_
    intro e1 he1 e2 he2 hk x y hx hy hxy
    obtain ⟨t1, a1, a2, a3⟩ := ha.target e1 he1
    obtain ⟨t2, b1, b2, b3⟩ := hb.target e2 he2
    rw [hx] at a1
    rw [hy] at b1
    cases a1; cases b1
    exact TargetFiles.inj a3 b3 (by rw [a2, b2, hk]) hxy
  unfold TargetsType.marshal at h1 h2
  dsimp only at h1 h2
  have fin : ∀ (x : mapValues viewTarget a.targets = mapValues viewTarget b.targets) (y : a.delegations.map viewDelegations = b.delegations.map viewDelegations)
      (z : a.type = b.type ∧ a.specVersion = b.specVersion ∧ a.version = b.version ∧ a.expires = b.expires ∧ a.unrec = b.unrec), viewTargets a = viewTargets b := by
    intro x y z
    unfold viewTargets
    rw [x, y]
    cases a; cases b; simp_all
  cases ha1 : a.delegations <;> cases hb1 : b.delegations <;> rw [ha1] at h1 <;> rw [hb1] at h2
  · cases h1
    cases h2
    obtain ⟨h1, h2⟩ := dict_inj ha.fields hb.fields (by simp) (by simp) (by simp [TargetsType.names]) (by simp [TargetsType.names]) h
    have e1 := h1 b!"_type"
    have e2 := h1 b!"spec_version"
    have e4 := h1 b!"version"
    have e5 := h1 b!"expires"
    have e6 := h1 b!"targets"
    simp [Entries.get?_cons, N_str, N_num] at e1 e2 e4 e5 e6
    exact fin (ht e6) (by rw [ha1, hb1]) ⟨e1, e2, e4, time_inj laws ha.expires hb.expires e5, h2⟩
  · obtain ⟨j, hj, h2⟩ := Res.bind_eq_ok.1 h2
    cases h1
    cases h2
    have := (dict_inj ha.fields hb.fields (by simp) (by simp) (by simp [TargetsType.names]) (by simp [TargetsType.names]) h).1 b!"delegations"
    simp [Entries.get?_cons] at this
    exact absurd this.symm (hsome _)
  · obtain ⟨j, hj, h1⟩ := Res.bind_eq_ok.1 h1
    cases h1
    cases h2
    have := (dict_inj ha.fields hb.fields (by simp) (by simp) (by simp [TargetsType.names]) (by simp [TargetsType.names]) h).1 b!"delegations"
    simp [Entries.get?_cons] at this
    exact absurd this (hsome _)
  · obtain ⟨j, hj, h1⟩ := Res.bind_eq_ok.1 h1
    obtain ⟨j', hj', h2⟩ := Res.bind_eq_ok.1 h2
    cases h1
    cases h2
    obtain ⟨h1, h2⟩ := dict_inj ha.fields hb.fields (by simp) (by simp) (by simp [TargetsType.names]) (by simp [TargetsType.names]) h
    have e1 := h1 b!"_type"
    have e2 := h1 b!"spec_version"
    have e4 := h1 b!"version"
    have e5 := h1 b!"expires"
    have e6 := h1 b!"targets"
    have e7 := h1 b!"delegations"
    simp [Entries.get?_cons, N_str, N_num] at e1 e2 e4 e5 e6 e7
    have e7 := Delegations.inj (ha.delegations _ ha1) (hb.delegations _ hb1) hj hj' e7
    exact fin (ht e6) (by rw [ha1, hb1]; exact congrArg some e7) ⟨e1, e2, e4, time_inj laws ha.expires hb.expires e5, h2⟩

end

/-- Equal payloads are payloads of equal decoded forms. -/
theorem payload_N {T U : Type} [RoleType T] [RoleType U] {a : T} {b : U} {p : Bytes} (h1 : payload a = .ok p) (h2 : payload b = .ok p) :
    ∃ j1 j2, RoleType.marshal a = .ok j1 ∧ RoleType.marshal b = .ok j2 ∧ N j1 = N j2 := by
  obtain ⟨j1, h3, h4⟩ := Res.bind_eq_ok.1 h1
  obtain ⟨j2, h5, h6⟩ := Res.bind_eq_ok.1 h2
  exact ⟨j1, j2, h3, h5, canonical_inj h4 h6⟩

end Tuf
