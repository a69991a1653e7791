import Verif.Proofs.Sorted
import Verif.Proofs.Parsing

/-! Proofs about decoding into `any`. -/

namespace Tuf

section
variable {f : NumLit → Option NumLit}

theorem toAnyList_cons {j : Json} {r l : List Json} :
    Json.toAnyList f (j :: r) = some l ↔ ∃ a b, Json.toAny f j = some a ∧ Json.toAnyList f r = some b ∧ l = a :: b := by
  simp only [Json.toAnyList]
  constructor
  · intro h
    split at h
    · next a b h1 h2 => cases h; exact ⟨a, b, h1, h2, rfl⟩
    · cases h
  · rintro ⟨a, b, h1, h2, rfl⟩
    rw [h1, h2]

theorem toAny_obj (m : List (Str × Json)) :
    Json.toAny f (.obj m) = (Json.toAnyFields f m).map (fun es => .obj (es.foldl (fun acc e => Entries.set acc e.1 e.2) [])) := by
  simp only [Json.toAny]

theorem toAny_arr (l : List Json) : Json.toAny f (.arr l) = (Json.toAnyList f l).map .arr := by
  simp only [Json.toAny]

theorem toAnyFields_isSome {m : List (Str × Json)} : (Json.toAnyFields f m).isSome ↔ ∀ e ∈ m, (Json.toAny f e.2).isSome := by
  induction m with
  | nil => simp [Json.toAnyFields]
  | cons e m ih =>
    obtain ⟨k, j⟩ := e
    rw [List.forall_mem_cons, ← ih]
    simp only [Json.toAnyFields]
    cases Json.toAny f j <;> cases Json.toAnyFields f m <;> simp

theorem toAnyList_isSome {l : List Json} : (Json.toAnyList f l).isSome ↔ ∀ j ∈ l, (Json.toAny f j).isSome := by
  induction l with
  | nil => simp [Json.toAnyList]
  | cons j l ih =>
    rw [List.forall_mem_cons, ← ih]
    simp only [Json.toAnyList]
    cases Json.toAny f j <;> cases Json.toAnyList f l <;> simp

theorem toAny_obj_isSome {m : List (Str × Json)} : (Json.toAny f (.obj m)).isSome ↔ ∀ e ∈ m, (Json.toAny f e.2).isSome := by
  rw [toAny_obj, Option.isSome_map, toAnyFields_isSome]

theorem toAny_arr_isSome {l : List Json} : (Json.toAny f (.arr l)).isSome ↔ ∀ j ∈ l, (Json.toAny f j).isSome := by
  rw [toAny_arr, Option.isSome_map, toAnyList_isSome]

theorem toAnyFields_get? {m es : List (Str × Json)} (h : Json.toAnyFields f m = some es) (k : Str) :
    Entries.get? es k = (Entries.get? m k).bind (Json.toAny f) := by
  induction m generalizing es with
  | nil => simp only [Json.toAnyFields] at h; cases h; rfl
  | cons e m ih =>
    obtain ⟨k', j⟩ := e
    obtain ⟨a, b, h1, h2, rfl⟩ := toAnyFields_cons.1 h
    rw [Entries.get?_cons, Entries.get?_cons, ih h2]
    split
    · rw [Option.bind_some, h1]
    · rfl

theorem toAnyFields_sorted {m es : List (Str × Json)} (h : Json.toAnyFields f m = some es) (hs : Entries.Sorted m) : Entries.Sorted es := by
  have hk := toAnyFields_keys h
  unfold Entries.Sorted at hs ⊢
  rw [← List.pairwise_map (f := Prod.fst) (R := StrLt)] at hs ⊢
  rw [hk]; exact hs

/-- Decoding a sorted object keeps its shape. -/
theorem toAny_sorted {m es : List (Str × Json)} (h : Json.toAnyFields f m = some es) (hs : Entries.Sorted m) : Json.toAny f (.obj m) = some (.obj es) := by
  rw [toAny_obj, h, Option.map_some, (toAnyFields_sorted h hs).refold]

/-- The members of an `any` value that is its own decoding. -/
theorem toAnyFields_fixed {m : List (Str × Json)} (h : ∀ e ∈ m, Json.toAny f e.2 = some e.2) : Json.toAnyFields f m = some m := by
  induction m with
  | nil => simp only [Json.toAnyFields]
  | cons e m ih =>
    obtain ⟨k, j⟩ := e
    rw [List.forall_mem_cons] at h
    exact toAnyFields_cons.2 ⟨j, m, h.1, ih h.2, rfl⟩

theorem foldl_set_mem {α : Type} {es : List (Str × α)} {acc : Entries α} {e : Str × α} (h : e ∈ es.foldl (fun acc e => Entries.set acc e.1 e.2) acc) : e ∈ acc ∨ e ∈ es := by
  induction es generalizing acc with
  | nil => exact .inl h
  | cons x es ih =>
    rcases ih h with h | h
    · rcases Entries.mem_set h with rfl | h
      · exact .inr (.head _)
      · exact .inl h
    · exact .inr (.tail _ h)

/-- Decoding and printing a float64 a second time changes nothing. -/
def Idem (f : NumLit → Option NumLit) : Prop := ∀ l l', f l = some l' → f l' = some l'

theorem toAny_lit (l : NumLit) : Json.toAny f (Json.ofLit l) = (f l).map Json.ofLit := by
  cases l <;> simp only [Json.ofLit, Json.toAny]

mutual
theorem toAny_idem (hf : Idem f) : ∀ (j j' : Json), Json.toAny f j = some j' → Json.toAny f j' = some j'
  | .null, j', h => by simp only [Json.toAny] at h; cases h; simp only [Json.toAny]
  | .bool b, j', h => by simp only [Json.toAny] at h; cases h; simp only [Json.toAny]
  | .num n, j', h => by
    simp only [Json.toAny] at h
    obtain ⟨l, h1, rfl⟩ := Option.map_eq_some_iff.1 h
    rw [toAny_lit, hf _ _ h1]; rfl
  | .frac n, j', h => by
    simp only [Json.toAny] at h
    obtain ⟨l, h1, rfl⟩ := Option.map_eq_some_iff.1 h
    rw [toAny_lit, hf _ _ h1]; rfl
  | .str s, j', h => by simp only [Json.toAny] at h; cases h; simp only [Json.toAny]
  | .esc r s, j', h => by simp only [Json.toAny] at h; cases h; simp only [Json.toAny]
  | .arr l, j', h => by
    rw [toAny_arr] at h
    obtain ⟨l', h1, rfl⟩ := Option.map_eq_some_iff.1 h
    rw [toAny_arr, toAnyList_idem hf l l' h1]; rfl
  | .obj m, j', h => by
    rw [toAny_obj] at h
    obtain ⟨es, h1, rfl⟩ := Option.map_eq_some_iff.1 h
    refine toAny_sorted (toAnyFields_fixed ?_) (Entries.sorted_nil.foldl_set es)
    intro e he
    rcases foldl_set_mem he with he | he
    · cases he
    · exact toAnyFields_idem hf m es h1 e he
theorem toAnyList_idem (hf : Idem f) : ∀ (l l' : List Json), Json.toAnyList f l = some l' → Json.toAnyList f l' = some l'
  | [], l', h => by simp only [Json.toAnyList] at h; cases h; simp only [Json.toAnyList]
  | j :: r, l', h => by
    obtain ⟨a, b, h1, h2, rfl⟩ := toAnyList_cons.1 h
    exact toAnyList_cons.2 ⟨a, b, toAny_idem hf j a h1, toAnyList_idem hf r b h2, rfl⟩
theorem toAnyFields_idem (hf : Idem f) : ∀ (m es : List (Str × Json)), Json.toAnyFields f m = some es → ∀ e ∈ es, Json.toAny f e.2 = some e.2
  | [], es, h => by simp only [Json.toAnyFields] at h; cases h; simp
  | (k, j) :: r, es, h => by
    obtain ⟨a, b, h1, h2, rfl⟩ := toAnyFields_cons.1 h
    exact List.forall_mem_cons.2 ⟨toAny_idem hf j a h1, toAnyFields_idem hf r b h2⟩
end

end

end Tuf
