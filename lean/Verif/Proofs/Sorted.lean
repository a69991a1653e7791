import Verif.Model.Marshal

/-! Proofs about the order of map keys: sorted maps with the same content are equal. -/

namespace Tuf

theorem strLe_refl (a : Str) : strLe a a = true := by
  induction a with
  | nil => rfl
  | cons x a ih => unfold strLe; rw [if_pos rfl]; exact ih

theorem strLe_total (a b : Str) : strLe a b = true ∨ strLe b a = true := by
  induction a generalizing b with
  | nil => exact .inl rfl
  | cons x a ih =>
    cases b with
    | nil => exact .inr rfl
    | cons y b =>
      unfold strLe
      by_cases h : x = y
      · subst h; rw [if_pos rfl, if_pos rfl]; exact ih b
      · rw [if_neg h, if_neg (Ne.symm h)]
        have : x.toNat ≠ y.toNat := fun he => h (UInt8.toNat_inj.1 he)
        rcases Nat.lt_or_gt_of_ne this with h1 | h1
        · exact .inl (decide_eq_true h1)
        · exact .inr (decide_eq_true h1)

theorem strLe_antisymm {a b : Str} (h1 : strLe a b = true) (h2 : strLe b a = true) : a = b := by
  induction a generalizing b with
  | nil => cases b with
    | nil => rfl
    | cons => cases h2
  | cons x a ih =>
    cases b with
    | nil => cases h1
    | cons y b =>
      unfold strLe at h1 h2
      by_cases h : x = y
      · subst h; rw [if_pos rfl] at h1 h2; rw [ih h1 h2]
      · rw [if_neg h] at h1
        rw [if_neg (Ne.symm h)] at h2
        have h1 := of_decide_eq_true h1
        have h2 := of_decide_eq_true h2
        omega

theorem strLe_trans {a b c : Str} (h1 : strLe a b = true) (h2 : strLe b c = true) : strLe a c = true := by
  induction a generalizing b c with
  | nil => rfl
  | cons x a ih =>
    cases b with
    | nil => cases h1
    | cons y b =>
      cases c with
      | nil => cases h2
      | cons z c =>
        unfold strLe at h1 h2 ⊢
        by_cases hxy : x = y
        · subst hxy
          rw [if_pos rfl] at h1
          by_cases hxz : x = z
          · subst hxz; rw [if_pos rfl] at h2 ⊢; exact ih h1 h2
          · rw [if_neg hxz] at h2 ⊢; exact h2
        · rw [if_neg hxy] at h1
          have h1 := of_decide_eq_true h1
          by_cases hyz : y = z
          · subst hyz; rw [if_neg hxy]; exact decide_eq_true h1
          · rw [if_neg hyz] at h2
            have h2 := of_decide_eq_true h2
            have : x ≠ z := by rintro rfl; omega
            rw [if_neg this]
            exact decide_eq_true (by omega)

/-- Strict order of strings. -/
def StrLt (a b : Str) : Prop := strLe a b = true ∧ a ≠ b

theorem StrLt.trans {a b c : Str} (h1 : StrLt a b) (h2 : StrLt b c) : StrLt a c := by
  refine ⟨strLe_trans h1.1 h2.1, ?_⟩
  rintro rfl
  exact h1.2 (strLe_antisymm h1.1 h2.1)

theorem strLt_of_not_le {a b : Str} (h : ¬ strLe a b = true) : StrLt b a := by
  refine ⟨(strLe_total a b).resolve_left h, ?_⟩
  rintro rfl
  exact h (strLe_refl _)

namespace Entries
variable {α β : Type}

/-- Keys in strictly increasing order. -/
def Sorted (m : Entries α) : Prop := m.Pairwise (fun a b => StrLt a.1 b.1)

theorem sorted_nil : Sorted ([] : Entries α) := List.Pairwise.nil

theorem Sorted.nodup {m : Entries α} (h : Sorted m) : m.keys.Nodup := by
  unfold keys
  rw [List.nodup_iff_pairwise_ne, List.pairwise_map]
  exact h.imp (fun h => h.2)

theorem Sorted.replace {m : Entries α} (h : Sorted m) (k : Str) (v : α) : Sorted (m.replace k v) := by
  unfold Sorted at h ⊢
  rw [← List.pairwise_map (f := Prod.fst) (R := StrLt)] at h ⊢
  have := keys_replace m k v
  unfold keys at this
  rw [this]; exact h

theorem Sorted.insertByKey {m : Entries α} (h : Sorted m) (k : Str) (v : α) (hk : m.get? k = none) : Sorted (insertByKey (k, v) m) := by
  induction m with
  | nil => exact List.pairwise_singleton _ _
  | cons e m ih =>
    obtain ⟨k0, v0⟩ := e
    rw [get?_cons] at hk
    split at hk
    · cases hk
    · next hne =>
      have hs := List.pairwise_cons.1 h
      unfold Tuf.insertByKey
      split
      · next hle =>
        refine List.pairwise_cons.2 ⟨?_, h⟩
        have h0 : StrLt k k0 := ⟨hle, Ne.symm hne⟩
        intro x hx
        rcases List.mem_cons.1 hx with rfl | hx
        · exact h0
        · exact h0.trans (hs.1 x hx)
      · next hle =>
        refine List.pairwise_cons.2 ⟨?_, ih hs.2 hk⟩
        intro x hx
        rcases mem_insertByKey.1 hx with rfl | hx
        · exact strLt_of_not_le hle
        · exact hs.1 x hx

theorem Sorted.set {m : Entries α} (h : Sorted m) (k : Str) (v : α) : Sorted (m.set k v) := by
  unfold Entries.set
  split
  · exact h.replace k v
  · next hk => exact h.insertByKey k v (by simpa using hk)

theorem Sorted.del {m : Entries α} (h : Sorted m) (k : Str) : Sorted (m.del k) := h.sublist List.filter_sublist

theorem Sorted.foldl_del {m : Entries α} (h : Sorted m) (ks : List Str) : Sorted (ks.foldl Entries.del m) := by
  induction ks generalizing m with
  | nil => exact h
  | cons k ks ih => exact ih (h.del k)

theorem get?_foldl_del (m : Entries α) (ks : List Str) (k : Str) : (ks.foldl Entries.del m).get? k = if k ∈ ks then none else m.get? k := by
  induction ks generalizing m with
  | nil => simp
  | cons k' ks ih =>
    rw [List.foldl_cons, ih, get?_del]
    by_cases h1 : k ∈ ks
    · simp [h1]
    · by_cases h2 : k' = k
      · simp [h2]
      · simp [h1, h2, Ne.symm h2]

theorem Sorted.foldl_set {m : Entries α} (h : Sorted m) (es : List (Str × α)) : Sorted (es.foldl (fun acc e => Entries.set acc e.1 e.2) m) := by
  induction es generalizing m with
  | nil => exact h
  | cons e es ih => exact ih (h.set _ _)

/-- Sorted maps with the same content are equal. -/
theorem Sorted.ext {m m' : Entries α} (h : Sorted m) (h' : Sorted m') (he : ∀ k, m.get? k = m'.get? k) : m = m' := by
  induction m generalizing m' with
  | nil =>
    cases m' with
    | nil => rfl
    | cons e m' => have := he e.1; rw [get?_cons, if_pos rfl] at this; cases this
  | cons e m ih =>
    cases m' with
    | nil => have := he e.1; rw [get?_cons, if_pos rfl] at this; cases this
    | cons e' m' =>
      obtain ⟨k, v⟩ := e
      obtain ⟨k', v'⟩ := e'
      have hs := List.pairwise_cons.1 h
      have hs' := List.pairwise_cons.1 h'
      have hk : k = k' := by
        apply Classical.byContradiction
        intro hne
        have h1 := he k
        rw [get?_cons, if_pos rfl, get?_cons, if_neg (Ne.symm hne)] at h1
        have h2 := he k'
        rw [get?_cons, if_neg hne, get?_cons, if_pos rfl] at h2
        have h3 := hs'.1 _ (mem_of_get? h1.symm)
        have h4 := hs.1 _ (mem_of_get? h2)
        exact h3.2 (strLe_antisymm h3.1 h4.1)
      subst hk
      have hv : v = v' := by
        have := he k
        rw [get?_cons, if_pos rfl, get?_cons, if_pos rfl] at this
        exact Option.some.inj this
      subst hv
      refine congrArg _ (ih hs.2 hs'.2 ?_)
      intro k1
      by_cases h1 : k = k1
      · subst h1
        have n1 : get? m k = none := get?_eq_none_iff.2 (fun hm => by
          obtain ⟨e, he, hk⟩ := List.mem_map.1 hm
          exact (hs.1 e he).2 hk.symm)
        have n2 : get? m' k = none := get?_eq_none_iff.2 (fun hm => by
          obtain ⟨e, he, hk⟩ := List.mem_map.1 hm
          exact (hs'.1 e he).2 hk.symm)
        rw [n1, n2]
      · have := he k1
        rw [get?_cons, if_neg h1, get?_cons, if_neg h1] at this
        exact this

theorem sorted_map (m : Entries α) (f : Str × α → β) : Sorted (m.map (fun e => (e.1, f e))) ↔ Sorted m := by
  unfold Sorted
  rw [List.pairwise_map]

theorem get?_map (m : Entries α) (f : α → β) (k : Str) : get? (m.map (fun e => (e.1, f e.2))) k = (m.get? k).map f := by
  induction m with
  | nil => rfl
  | cons e m ih =>
    rw [List.map_cons, get?_cons, ih]
    obtain ⟨k', v⟩ := e
    rw [get?_cons]
    split <;> rfl

/-- Assigning a list with unique keys to the empty map. -/
theorem foldl_set_get?_nodup (es : List (Str × α)) (hn : (es.map Prod.fst).Nodup) (acc : Entries α) (k : Str) :
    (es.foldl (fun acc e => Entries.set acc e.1 e.2) acc).get? k = (match get? es k with
      | some v => some v
      | none => acc.get? k) := by
  induction es generalizing acc with
  | nil => rfl
  | cons e es ih =>
    obtain ⟨k', v⟩ := e
    rw [List.map_cons, List.nodup_cons] at hn
    rw [List.foldl_cons, ih hn.2, get?_cons]
    by_cases hk : k' = k
    · subst hk
      have : get? es k' = none := get?_eq_none_iff.2 hn.1
      rw [this, if_pos rfl]
      exact get?_set_self _ _ _
    · rw [if_neg hk]
      split
      · rfl
      · exact get?_set_ne _ _ hk

theorem Sorted.refold {m : Entries α} (h : Sorted m) : m.foldl (fun acc e => Entries.set acc e.1 e.2) [] = m := by
  refine Sorted.ext (sorted_nil.foldl_set m) h ?_
  intro k
  rw [foldl_set_get?_nodup _ h.nodup]
  cases get? m k <;> rfl

end Entries

end Tuf
