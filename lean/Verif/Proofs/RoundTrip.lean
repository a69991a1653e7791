import Verif.Proofs.Any
import Verif.Proofs.Hex
import Verif.Spec.RoundTrip
import Verif.Proofs.Spelling

/-! Proofs about serialisation: decoding what `json.Marshal` prints. -/

namespace Tuf
open Spec

section
variable {env : Env} {α : Type}

/-- Unrecognised fields as decoded: sorted, not recognised names, values decoded to `any`. -/
structure FieldsWF (env : Env) (names : List Str) (u : Fields) : Prop where
  sorted : Entries.Sorted u
  unknown : ∀ e ∈ u, e.1 ∉ names
  any : ∀ e ∈ u, Json.toAny env.anyNum e.2 = some e.2

/-- The document `j` decodes to `a`, and its numbers are in the range of float64. -/
def RT (env : Env) (dec : Json → Res α) (j : Json) (a : α) : Prop := dec j = .ok a ∧ (Json.toAny env.anyNum j).isSome

theorem findField_none {names : List Str} (hs : ∀ n ∈ names, SimpleName n) {u : Fields} (h : NoVariants names u) {k : Str} (hk : (u.get? k).isSome) : findField names k = none := by
  unfold findField
  rw [if_neg (fun hm => h k hk k hm (Spelled.refl' k)), List.find?_eq_none]
  intro n hn he
  exact h k hk n hn ((foldKey_spelled (hs n hn)).1 (beq_iff_eq.1 he).symm)

theorem mkDict_get? (u : Fields) (fs : List (Str × Json)) (hn : (fs.map Prod.fst).Nodup) (k : Str) :
    Entries.get? (mkDict u fs) k = (match Entries.get? fs k with
      | some v => some v
      | none => u.get? k) := by
  have h := Entries.foldl_set_get?_nodup fs hn u k
  unfold mkDict
  cases hg : Entries.get? fs k <;> rw [hg] at h <;> exact h

theorem mkDict_sorted {u : Fields} (h : Entries.Sorted u) (fs : List (Str × Json)) : Entries.Sorted (mkDict u fs) := h.foldl_set fs

theorem mkDict_mem {u : Fields} {fs : List (Str × Json)} {e : Str × Json} (h : e ∈ mkDict u fs) : e ∈ u ∨ e ∈ fs := foldl_set_mem h

/-- Decoding the members of a printed struct sets its fields one by one, in whatever order. -/
theorem decFields_agree {names : List Str} {setField : Str → Json → α → Res α} {agree : Str → α → α → Prop}
    (trans : ∀ f x y z, agree f x y → agree f y z → agree f x z) (refl : ∀ f x, agree f x x) {zero a : α} {fs : List (Str × Json)} (hfs : ∀ e ∈ fs, e.1 ∈ names)
    (hset : ∀ e ∈ fs, ∀ x, agree e.1 x zero → ∃ y, setField e.1 e.2 x = .ok y ∧ agree e.1 y a ∧ ∀ f ∈ names, f ≠ e.1 → agree f y x)
    (d : List (Str × Json)) (hd : (d.map Prod.fst).Nodup) (hmem : ∀ e ∈ d, e ∈ fs ∨ findField names e.1 = none) (x : α)
    (hx : ∀ f ∈ names, f ∈ d.map Prod.fst → agree f x zero) :
    ∃ y, decFields names setField d x = .ok y ∧ ∀ f ∈ names, (f ∈ d.map Prod.fst → agree f y a) ∧ (f ∉ d.map Prod.fst → agree f y x) := by
  induction d generalizing x with
  | nil => exact ⟨x, rfl, fun f _ => ⟨by simp, fun _ => refl f x⟩⟩
  | cons e d ih =>
    obtain ⟨k, j⟩ := e
    rw [List.map_cons, List.nodup_cons] at hd
    have hmem' : ∀ e ∈ d, e ∈ fs ∨ findField names e.1 = none := fun e he => hmem e (.tail _ he)
    rcases hmem (k, j) (.head _) with hk | hk
    · have hkn := hfs _ hk
      obtain ⟨y, h1, h2, h3⟩ := hset _ hk x (hx k hkn (.head _))
      have hne : ∀ f, f ∈ d.map Prod.fst → f ≠ k := by rintro f hf rfl; exact hd.1 hf
      obtain ⟨z, h4, h5⟩ := ih hd.2 hmem' y (fun f hf hd' => trans _ _ _ _ (h3 f hf (hne f hd')) (hx f hf (.tail _ hd')))
      refine ⟨z, ?_, ?_⟩
      · rw [decFields]
        have : findField names k = some k := by unfold findField; rw [if_pos hkn]
        rw [this]
        dsimp only
        rw [h1]
        exact h4
      · intro f hf
        obtain ⟨h6, h7⟩ := h5 f hf
        constructor
        · intro hm
          by_cases hfd : f ∈ d.map Prod.fst
          · exact h6 hfd
          · rcases List.mem_cons.1 hm with rfl | hm
            · exact trans _ _ _ _ (h7 hfd) h2
            · exact absurd hm hfd
        · intro hm
          rw [List.map_cons, List.mem_cons, not_or] at hm
          exact trans _ _ _ _ (h7 hm.2) (h3 f hf hm.1)
    · obtain ⟨z, h4, h5⟩ := ih hd.2 hmem' x (fun f hf hd' => hx f hf (.tail _ hd'))
      have hkn : k ∉ names := by
        intro hm
        unfold findField at hk
        rw [if_pos hm] at hk
        cases hk
      refine ⟨z, ?_, ?_⟩
      · rw [decFields, hk]; exact h4
      · intro f hf
        obtain ⟨h6, h7⟩ := h5 f hf
        constructor
        · intro hm
          rcases List.mem_cons.1 hm with rfl | hm
          · exact absurd hf hkn
          · exact h6 hm
        · intro hm
          rw [List.map_cons, List.mem_cons, not_or] at hm
          exact h7 hm.2

/-- The unrecognised fields of a printed struct. -/
theorem decAnyMap_dict {names : List Str} {u : Fields} {fs : List (Str × Json)} (hu : FieldsWF env names u) (hfs : ∀ e ∈ fs, e.1 ∈ names ∧ (Json.toAny env.anyNum e.2).isSome)
    (hn : (fs.map Prod.fst).Nodup) :
    (∃ d, decAnyMap env (.obj (mkDict u fs)) = .ok d ∧ names.foldl Entries.del d = u) ∧ (Json.toAny env.anyNum (.obj (mkDict u fs))).isSome := by
  have hs := mkDict_sorted hu.sorted fs
  have hsome : ∀ e ∈ mkDict u fs, (Json.toAny env.anyNum e.2).isSome := by
    intro e he
    rcases mkDict_mem he with he | he
    · rw [hu.any e he]; rfl
    · exact (hfs e he).2
  obtain ⟨d, hd⟩ := Option.isSome_iff_exists.1 (toAnyFields_isSome.2 hsome)
  refine ⟨⟨d, ?_, ?_⟩, toAny_obj_isSome.2 hsome⟩
  · unfold decAnyMap
    dsimp only
    rw [toAny_sorted hd hs]
  · refine Entries.Sorted.ext ((toAnyFields_sorted hd hs).foldl_del names) hu.sorted ?_
    intro k
    rw [Entries.get?_foldl_del, toAnyFields_get? hd, mkDict_get? u fs hn]
    split
    · next hk =>
      cases hg : u.get? k with
      | none => rfl
      | some v => exact absurd hk (hu.unknown _ (Entries.mem_of_get? hg))
    · next hk =>
      have : Entries.get? fs k = none := by
        cases hg : Entries.get? fs k with
        | none => rfl
        | some v => exact absurd (hfs _ (Entries.mem_of_get? hg)).1 hk
      rw [this]
      dsimp only
      cases hg : u.get? k with
      | none => rfl
      | some v => rw [Option.bind_some, hu.any _ (Entries.mem_of_get? hg)]

theorem rt_struct {names : List Str} {setField : Str → Json → α → Res α} {zero : α} {post : α → Res α} {setUnrec : Fields → α → α} {agree : Str → α → α → Prop}
    (trans : ∀ f x y z, agree f x y → agree f y z → agree f x z) (refl : ∀ f x, agree f x x) {u : Fields} (hu : FieldsWF env names u) (hs : ∀ n ∈ names, SimpleName n) (hv : NoVariants names u)
    {fs : List (Str × Json)} (hn : (fs.map Prod.fst).Nodup) (hfs : ∀ e ∈ fs, e.1 ∈ names ∧ (Json.toAny env.anyNum e.2).isSome) {a1 a : α}
    (hset : ∀ e ∈ fs, ∀ x, agree e.1 x zero → ∃ y, setField e.1 e.2 x = .ok y ∧ agree e.1 y a1 ∧ ∀ f ∈ names, f ≠ e.1 → agree f y x)
    (habs : ∀ f ∈ names, f ∉ fs.map Prod.fst → agree f zero a1)
    (hfin : ∀ y, (∀ f ∈ names, agree f y a1) → ∃ y1, post y = .ok y1 ∧ setUnrec u y1 = a) :
    RT env (unmarshalStruct env names setField zero post setUnrec) (.obj (mkDict u fs)) a := by
  obtain ⟨⟨d, h1, h2⟩, h3⟩ := decAnyMap_dict hu hfs hn
  refine ⟨?_, h3⟩
  have hso := mkDict_sorted hu.sorted fs
  obtain ⟨y, h4, h5⟩ := decFields_agree trans refl (fun e he => (hfs e he).1) hset (mkDict u fs) hso.nodup (by
    intro e he
    rcases mkDict_mem he with he | he
    · exact .inr (findField_none hs hv (by rw [Entries.get?_of_mem hu.sorted.nodup he]; rfl))
    · exact .inl he) zero (fun f _ _ => refl f zero)
  have h6 : ∀ f ∈ names, agree f y a1 := by
    intro f hf
    by_cases hm : f ∈ (mkDict u fs).map Prod.fst
    · exact (h5 f hf).1 hm
    · refine trans _ _ _ _ ((h5 f hf).2 hm) (habs f hf ?_)
      intro hm'
      have hg : Entries.get? (mkDict u fs) f = none := Entries.get?_eq_none_iff.2 hm
      rw [mkDict_get? u fs hn] at hg
      obtain ⟨v, hv⟩ := Option.isSome_iff_exists.1 (Entries.get?_isSome_iff.2 hm')
      rw [hv] at hg
      cases hg
  obtain ⟨y1, h7, h8⟩ := hfin y h6
  unfold unmarshalStruct
  rw [show decStruct names setField zero (.obj (mkDict u fs)) = .ok y from h4, Res.bind_ok, h7, Res.bind_ok, h1, Res.bind_ok, h2, h8]

/-- The same for a struct with string lists: none is mentioned twice. -/
theorem rt_lists {names lists : List Str} {setField : Str → Json → α → Res α} {zero : α} {setUnrec : Fields → α → α} {agree : Str → α → α → Prop}
    (trans : ∀ f x y z, agree f x y → agree f y z → agree f x z) (refl : ∀ f x, agree f x x) {u : Fields} (hu : FieldsWF env names u) (hs : ∀ n ∈ names, SimpleName n) (hv : NoVariants names u)
    {fs : List (Str × Json)} (hn : (fs.map Prod.fst).Nodup) (hfs : ∀ e ∈ fs, e.1 ∈ names ∧ (Json.toAny env.anyNum e.2).isSome) {a1 a : α}
    (hset : ∀ e ∈ fs, ∀ x, agree e.1 x zero → ∃ y, setField e.1 e.2 x = .ok y ∧ agree e.1 y a1 ∧ ∀ f ∈ names, f ≠ e.1 → agree f y x)
    (habs : ∀ f ∈ names, f ∉ fs.map Prod.fst → agree f zero a1)
    (hfin : ∀ y, (∀ f ∈ names, agree f y a1) → ∃ y1, Res.ok y = .ok y1 ∧ setUnrec u y1 = a) :
    RT env (unmarshalLists env names lists setField zero setUnrec) (.obj (mkDict u fs)) a := by
  have h := rt_struct (post := .ok) trans refl hu hs hv hn hfs hset habs hfin
  refine ⟨(unmarshalLists_once fun f _ => OneMember.of_nodup (mkDict_sorted hu.sorted fs).nodup ?_).trans h.1, h.2⟩
  intro e he
  rcases mkDict_mem he with he | he
  · exact .inr (findField_none hs hv (by rw [Entries.get?_of_mem hu.sorted.nodup he]; rfl))
  · exact .inl (hfs e he).1

/-! ## Slices, maps and pointers -/

theorem rt_list {β : Type} {dec : Json → Res β} {enc : β → Json} {l : List β} (h : ∀ x ∈ l, RT env dec (enc x) x) :
    decList dec (l.map enc) = .ok l ∧ ∀ j ∈ l.map enc, (Json.toAny env.anyNum j).isSome := by
  induction l with
  | nil => exact ⟨rfl, by simp⟩
  | cons x l ih =>
    rw [List.forall_mem_cons] at h
    obtain ⟨h1, h2⟩ := ih h.2
    refine ⟨?_, ?_⟩
    · rw [List.map_cons, decList, h.1.1, Res.bind_ok, h1, Res.bind_ok]
    · rw [List.map_cons, List.forall_mem_cons]; exact ⟨h.1.2, h2⟩

theorem rt_slice {β : Type} {dec : Json → Res β} {enc : β → Json} {s : Slice β} (h : ∀ x ∈ s.elems, RT env dec (enc x) x) : RT env (decSlice dec) (encSlice enc s) s := by
  cases s with
  | none => exact ⟨rfl, by simp [encSlice, Json.toAny]⟩
  | some l =>
    obtain ⟨h1, h2⟩ := rt_list h
    exact ⟨by show (decList dec ((Slice.elems (some l)).map enc)).map some = _; rw [h1]; rfl, toAny_arr_isSome.2 h2⟩

theorem decEntries_append {β : Type} {dec : Json → Res β} {enc : β → Json} (es acc : Entries β) (hs : Entries.Sorted (acc ++ es)) (h : ∀ e ∈ es, dec (enc e.2) = .ok e.2) :
    decEntries dec (es.map (fun e => (e.1, enc e.2))) acc = .ok (acc ++ es) := by
  induction es generalizing acc with
  | nil => rw [List.append_nil]; rfl
  | cons e es ih =>
    rw [List.forall_mem_cons] at h
    rw [List.map_cons, decEntries, h.1, Res.bind_ok]
    have hset : acc.set e.1 e.2 = acc ++ [e] := by
      have hs' : Entries.Sorted (acc ++ [e]) := hs.sublist (List.Sublist.append_left (List.Sublist.cons_cons _ (List.nil_sublist _)) _)
      have hs0 : Entries.Sorted acc := hs.sublist (List.sublist_append_left _ _)
      refine Entries.Sorted.ext (hs0.set _ _) hs' ?_
      intro k
      rw [Entries.get?_set]
      have hnot : acc.get? e.1 = none := by
        refine Entries.get?_eq_none_iff.2 ?_
        intro hm
        obtain ⟨e', he', hk⟩ := List.mem_map.1 hm
        have := (List.pairwise_append.1 hs').2.2 e' he' e (.head _)
        exact this.2 hk
      have happ : ∀ (acc : Entries β), Entries.get? (acc ++ [e]) k = match acc.get? k with
          | some v => some v
          | none => if e.1 = k then some e.2 else none := by
        intro acc
        induction acc with
        | nil => rfl
        | cons x acc ih =>
          rw [List.cons_append, Entries.get?_cons, Entries.get?_cons, ih]
          split <;> rfl
      rw [happ]
      by_cases hk : e.1 = k
      · rw [if_pos hk, ← hk, hnot, if_pos rfl]
      · rw [if_neg hk]
        cases acc.get? k with
        | none => rw [if_neg hk]
        | some v => rfl
    rw [hset, ih (acc ++ [e]) (by rw [List.append_assoc]; exact hs) h.2, List.append_assoc]
    rfl

/-- A map as decoded: sorted, all elements good. -/
def MapWF {β : Type} (P : β → Prop) (m : GoMap β) : Prop := Entries.Sorted m.entries ∧ ∀ e ∈ m.entries, P e.2

theorem rt_map {β : Type} {dec : Json → Res β} {enc : β → Json} {m : GoMap β} (hm : MapWF (fun x => RT env dec (enc x) x) m) :
    decMap dec (encMap enc m) none = .ok m ∧ (Json.toAny env.anyNum (encMap enc m)).isSome := by
  cases m with
  | none => exact ⟨rfl, by simp [encMap, Json.toAny]⟩
  | some es =>
    refine ⟨?_, toAny_obj_isSome.2 ?_⟩
    · show (decEntries dec (es.map (fun e => (e.1, enc e.2))) []).map some = _
      rw [decEntries_append es [] hm.1 (fun e he => (hm.2 e he).1)]
      rfl
    · intro j hj
      obtain ⟨e, he, rfl⟩ := List.mem_map.1 hj
      exact (hm.2 e he).2

theorem rt_ptr {β : Type} {dec : Json → Res β} {enc : β → Json} {p : Option β} (h : ∀ x, p = some x → RT env dec (enc x) x ∧ enc x ≠ .null) :
    RT env (decPtr dec) (encPtr enc p) p := by
  cases p with
  | none => exact ⟨rfl, by simp [encPtr, Json.toAny]⟩
  | some x =>
    obtain ⟨⟨h1, h2⟩, h3⟩ := h x rfl
    refine ⟨?_, h2⟩
    show decPtr dec (enc x) = _
    unfold decPtr
    split
    · next he => exact absurd he h3
    · rw [h1]; rfl

theorem any_str (f : NumLit → Option NumLit) (s : Str) : (Json.toAny f (.str s)).isSome := by simp [Json.toAny]
theorem any_bool (f : NumLit → Option NumLit) (b : Bool) : (Json.toAny f (.bool b)).isSome := by simp [Json.toAny]
theorem any_int (laws : EnvLaws env) {n : Int} (h : inInt64 n = true) : (Json.toAny env.anyNum (.num n)).isSome := by
  simp only [Json.toAny, Option.isSome_map]; exact laws.anyInt n h

theorem rt_hex (b : Bytes) : RT env decHex (encHex b) b := by
  refine ⟨?_, any_str _ _⟩
  show Res.ofOption jsonErr (hexDecode (hexEncode b)) = _
  rw [hexDecode_hexEncode]; rfl

theorem rt_strs (s : Slice Str) : RT env (decSlice (fun j => decStr j [])) (encSlice .str s) s := rt_slice (fun _ _ => ⟨rfl, any_str _ _⟩)

theorem rt_hashes {h : Hashes} (hs : Entries.Sorted h.entries) : decMap decHex (encMap encHex h) none = .ok h ∧ (Json.toAny env.anyNum (encMap encHex h)).isSome :=
  rt_map ⟨hs, fun _ _ => rt_hex _⟩

end

end Tuf
