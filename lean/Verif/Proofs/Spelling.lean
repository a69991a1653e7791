import Verif.Spec.Spelling

/-! The case folding of encoding/json. -/

namespace Tuf
open Spec

theorem Spelled.refl' : ∀ name : Str, Spelled name name
  | [] => .nil
  | _ :: r => .cons (l := [_]) .same (Spelled.refl' r)

theorem foldKey_ascii {c : UInt8} (hc : c.toNat < 128) (r : Str) : foldKey (c :: r) = lowerByte c :: foldKey r := by
  rw [foldKey]
  · rintro r' rfl; exact absurd hc (by decide)
  · rintro r' rfl; exact absurd hc (by decide)

theorem simple_ascii {c : UInt8} (h : c = 95 ∨ (97 ≤ c.toNat ∧ c.toNat ≤ 122)) : c.toNat < 128 ∧ lowerByte c = c := by
  rcases h with rfl | h
  · decide
  · refine ⟨by omega, ?_⟩
    unfold lowerByte
    rw [if_neg (by omega)]

theorem foldKey_simple {name : Str} (h : SimpleName name) : foldKey name = name := by
  induction name with
  | nil => rfl
  | cons c r ih =>
    obtain ⟨h1, h2⟩ := simple_ascii (h c (.head _))
    rw [foldKey_ascii h1, h2, ih (fun c hc => h c (.tail _ hc))]

theorem lower_capital {c : UInt8} (h1 : 97 ≤ c.toNat) (h2 : c.toNat ≤ 122) : (c - 32).toNat < 128 ∧ lowerByte (c - 32) = c := by
  have : (c - 32).toNat = c.toNat - 32 := by
    rw [UInt8.toNat_sub_of_le]
    · rfl
    · exact UInt8.le_iff_toNat_le.2 (by show 32 ≤ c.toNat; omega)
  refine ⟨by omega, ?_⟩
  unfold lowerByte
  rw [if_pos (by omega)]
  exact UInt8.sub_add_cancel c 32

theorem spelled_fold {name key : Str} (hn : SimpleName name) (h : Spelled name key) : foldKey key = name := by
  induction h with
  | nil => rfl
  | @cons c l name key hl _ ih =>
    have ih := ih (fun c hc => hn c (.tail _ hc))
    cases hl with
    | same =>
      obtain ⟨h1, h2⟩ := simple_ascii (hn c (.head _))
      rw [List.singleton_append, foldKey_ascii h1, h2, ih]
    | capital h1 h2 =>
      obtain ⟨h3, h4⟩ := lower_capital h1 h2
      rw [List.singleton_append, foldKey_ascii h3, h4, ih]
    | kelvin => simp [foldKey, ih]
    | longS => simp [foldKey, ih]

theorem fold_spelled {name key : Str} (hn : SimpleName name) (h : foldKey key = name) : Spelled name key := by
  induction key using foldKey.induct generalizing name with
  | case1 => subst h; exact .nil
  | case2 r ih =>
    rw [foldKey] at h
    subst h
    exact .cons .kelvin (ih (fun c hc => hn c (.tail _ hc)) rfl)
  | case3 r ih =>
    rw [foldKey] at h
    subst h
    exact .cons .longS (ih (fun c hc => hn c (.tail _ hc)) rfl)
  | case4 c r h1 h2 ih =>
    rw [foldKey.eq_4 _ _ h1 h2] at h
    subst h
    have ih := ih (fun c hc => hn c (.tail _ hc)) rfl
    refine .cons (l := [c]) ?_ ih
    unfold lowerByte
    split
    · next hc =>
      have h3 : (c + 32).toNat = c.toNat + 32 := by
        rw [UInt8.toNat_add]
        show (c.toNat + 32) % 256 = _
        omega
      have : c = (c + 32) - 32 := (UInt8.add_sub_cancel c 32).symm
      have h4 : LetterSpelled (c + 32) [(c + 32) - 32] := .capital (by omega) (by omega)
      rwa [← this] at h4
    · exact .same

/-- The keys that are folded to the same text as the name of a field are its spellings. -/
theorem foldKey_spelled {name key : Str} (hn : SimpleName name) : foldKey key = foldKey name ↔ Spelled name key := by
  rw [foldKey_simple hn]
  exact ⟨fold_spelled hn, spelled_fold hn⟩

theorem not_spelled {name key : Str} (h : SimpleName name ∧ foldKey key ≠ foldKey name) : ¬ Spelled name key := fun hs => h.2 ((foldKey_spelled h.1).2 hs)

/-- A key sets the field of which it is a spelling. -/
theorem findField_spelled {names : List Str} (hs : ∀ n ∈ names, SimpleName n) {f key : Str} (hf : f ∈ names) : findField names key = some f ↔ Spelled f key := by
  constructor
  · intro h
    refine (foldKey_spelled (hs f hf)).1 ?_
    unfold findField at h
    split at h
    · cases h; rfl
    · have := List.find?_some h
      exact (beq_iff_eq.1 this).symm
  · intro h
    have h1 := spelled_fold (hs f hf) h
    unfold findField
    split
    · next hk => rw [foldKey_simple (hs key hk)] at h1; rw [h1]
    · cases hc : names.find? (fun f => foldKey f == foldKey key) with
      | none => exact absurd (by rw [h1, foldKey_simple (hs f hf)]; exact beq_self_eq_true f) (List.find?_eq_none.1 hc f hf)
      | some g =>
        have h2 : foldKey g = foldKey key := by simpa using List.find?_some hc
        rw [h1, foldKey_simple (hs g (List.mem_of_find?_eq_some hc))] at h2
        rw [h2]

end Tuf
