import Verif.Spec.Paths
import Verif.Proofs.Digits
import Verif.Proofs.Decode

/-! Proofs about path patterns and bins. -/

namespace Tuf
open Spec

theorem splitOn_ne_nil (sep : UInt8) (s : Str) : splitOn sep s ≠ [] := by
  induction s with
  | nil => simp [splitOn]
  | cons c r ih =>
    unfold splitOn
    split
    · simp
    · split <;> simp

theorem splitOn_no_sep (sep : UInt8) (s : Str) : ∀ p ∈ splitOn sep s, sep ∉ p := by
  induction s with
  | nil => simp [splitOn]
  | cons c r ih =>
    unfold splitOn
    split
    · intro p hp
      rcases List.mem_cons.1 hp with rfl | hp
      · simp
      · exact ih p hp
    · next hc =>
      split
      · next h => exact absurd h (splitOn_ne_nil sep r)
      · next q qs h =>
        rw [h] at ih
        intro p hp
        rcases List.mem_cons.1 hp with rfl | hp
        · simp only [List.mem_cons, not_or]
          exact ⟨fun h => hc h.symm, ih q (by simp)⟩
        · exact ih p (by simp [hp])

theorem intercalate_cons_cons (sep p q : Str) (r : List Str) :
    List.intercalate sep (p :: q :: r) = p ++ sep ++ List.intercalate sep (q :: r) := by
  simp [List.intercalate, List.intersperse]

theorem intercalate_singleton (sep p : Str) : List.intercalate sep [p] = p := by simp [List.intercalate, List.intersperse]

theorem splitOn_join (sep : UInt8) (s : Str) : List.intercalate [sep] (splitOn sep s) = s := by
  induction s with
  | nil => simp [splitOn]
  | cons c r ih =>
    unfold splitOn
    split
    · next hc =>
      cases h : splitOn sep r with
      | nil => exact absurd h (splitOn_ne_nil sep r)
      | cons q qs => rw [intercalate_cons_cons, ← h, ih, hc]; rfl
    · split
      · next h => exact absurd h (splitOn_ne_nil sep r)
      · next q qs h =>
        rw [h] at ih
        cases qs with
        | nil => rw [intercalate_singleton] at ih ⊢; rw [ih]
        | cons q' qs => rw [intercalate_cons_cons] at ih ⊢; rw [← ih]; rfl

theorem parts_splitOn (s : Str) : Parts s (splitOn 47 s) := ⟨splitOn_ne_nil _ s, splitOn_no_sep _ s, splitOn_join _ s⟩

/-- Splitting is the only way to write a string as slash-free parts. -/
theorem splitOn_intercalate {sep : UInt8} {ps : List Str} (hne : ps ≠ []) (h : ∀ p ∈ ps, sep ∉ p) :
    splitOn sep (List.intercalate [sep] ps) = ps := by
  have single : ∀ p : Str, sep ∉ p → splitOn sep p = [p] := by
    intro p hp
    induction p with
    | nil => rfl
    | cons c r ih =>
      simp only [List.mem_cons, not_or] at hp
      unfold splitOn
      rw [if_neg (fun h => hp.1 h.symm), ih hp.2]
  have front : ∀ (p t : Str), sep ∉ p → splitOn sep (p ++ sep :: t) = p :: splitOn sep t := by
    intro p t hp
    induction p with
    | nil => simp [splitOn]
    | cons c r ih =>
      simp only [List.mem_cons, not_or] at hp
      rw [List.cons_append]
      conv => lhs; unfold splitOn
      rw [if_neg (fun h => hp.1 h.symm), ih hp.2]
  induction ps with
  | nil => exact absurd rfl hne
  | cons p r ih =>
    cases r with
    | nil => rw [intercalate_singleton]; exact single p (h p (by simp))
    | cons q r =>
      rw [intercalate_cons_cons]
      have : p ++ [sep] ++ List.intercalate [sep] (q :: r) = p ++ sep :: List.intercalate [sep] (q :: r) := by simp
      rw [this, front p _ (h p (by simp)), ih (by simp) (fun x hx => h x (List.mem_cons_of_mem _ hx))]

theorem parts_unique {s : Str} {ps : List Str} (h : Parts s ps) : ps = splitOn 47 s := by
  obtain ⟨h1, h2, rfl⟩ := h
  exact (splitOn_intercalate h1 h2).symm

theorem matchParts_iff {env : Env} {ts ps : List Str} (h : ts.length = ps.length) :
    matchParts env ts ps = true ↔ ∀ (i : Nat) (hp : i < ps.length) (ht : i < ts.length), env.glob ps[i] ts[i] = some true := by
  induction ts generalizing ps with
  | nil =>
    cases ps with
    | nil => simp [matchParts]
    | cons => simp at h
  | cons t ts ih =>
    cases ps with
    | nil => simp at h
    | cons p ps =>
      simp only [List.length_cons, Nat.add_right_cancel_iff] at h
      simp only [matchParts]
      constructor
      · intro hm
        split at hm
        · next h0 =>
          intro i hp ht
          cases i with
          | zero => exact h0
          | succ i => exact (ih h).1 hm i (by simpa using hp) (by simpa using ht)
        · cases hm
      · intro hm
        rw [if_pos (show env.glob p t = some true from hm 0 (by simp) (by simp)), ih h]
        intro i hp ht
        exact hm (i + 1) (by simpa using hp) (by simpa using ht)

theorem inPattern_iff {env : Env} {path pattern : Str} :
    isTargetInPathPattern env path pattern = true ↔ PatternCovers env pattern path := by
  unfold isTargetInPathPattern
  simp only
  constructor
  · intro h
    split at h
    · cases h
    · next hl =>
      have hl : (splitOn 47 path).length = (splitOn 47 pattern).length := Classical.byContradiction hl
      exact ⟨_, _, parts_splitOn _, parts_splitOn _, hl.symm, (matchParts_iff hl).1 h⟩
  · rintro ⟨ps, ts, h1, h2, h3, h4⟩
    have e1 := parts_unique h1
    have e2 := parts_unique h2
    subst e1
    subst e2
    rw [if_neg (fun h => h h3.symm), matchParts_iff h3.symm]
    exact h4

/-! ## Bins -/

theorem lowerHex_digitChar {d : Nat} (h : d < 16) : LowerHex (digitChar d) ∧ lowerHexValue (digitChar d) = d := by
  have : ∀ d : Fin 16, ((48 ≤ (digitChar d.val).toNat ∧ (digitChar d.val).toNat ≤ 57) ∨ (97 ≤ (digitChar d.val).toNat ∧ (digitChar d.val).toNat ≤ 102)) ∧
      lowerHexValue (digitChar d.val) = d.val := by decide
  exact this ⟨d, h⟩

theorem digitChar_lowerHexValue {c : UInt8} (h : LowerHex c) : lowerHexValue c < 16 ∧ digitChar (lowerHexValue c) = c := by
  have : ∀ n : Fin 256, ((48 ≤ n.val ∧ n.val ≤ 57) ∨ (97 ≤ n.val ∧ n.val ≤ 102)) →
      lowerHexValue (UInt8.ofNat n.val) < 16 ∧ digitChar (lowerHexValue (UInt8.ofNat n.val)) = UInt8.ofNat n.val := by decide +kernel
  have h1 := this ⟨c.toNat, c.toNat_lt⟩ h
  simpa using h1

theorem foldl_lowerHex {l : List Nat} (h : ∀ d ∈ l, d < 16) (acc : Nat) :
    (l.map digitChar).foldl (fun acc c => acc * 16 + lowerHexValue c) acc = l.foldl (fun acc d => acc * 16 + d) acc := by
  induction l generalizing acc with
  | nil => rfl
  | cons d r ih =>
    simp only [List.map_cons, List.foldl_cons, (lowerHex_digitChar (h d (by simp))).2]
    exact ih (fun x hx => h x (List.mem_cons_of_mem _ hx)) _

/-- Padded hex has the stated form. -/
theorem padHex_form {w n : Nat} (hw : 1 ≤ w) (h : n < 16 ^ w) :
    (∀ c ∈ padHex w n, LowerHex c) ∧ (padHex w n).length = w ∧ (padHex w n).foldl (fun acc c => acc * 16 + lowerHexValue c) 0 = n := by
  have hd : ∀ d ∈ List.replicate (w - (digits 16 n).length) 0 ++ digits 16 n, d < 16 := by
    intro d hd
    rcases List.mem_append.1 hd with hd | hd
    · simp at hd; omega
    · exact digits_lt (by omega) n d hd
  refine ⟨?_, padHex_length hw h, ?_⟩
  · rw [padHex_eq]
    intro c hc
    obtain ⟨d, hm, rfl⟩ := List.mem_map.1 hc
    exact (lowerHex_digitChar (hd d hm)).1
  · rw [padHex_eq, foldl_lowerHex hd]
    show ofDigits 16 _ = n
    rw [ofDigits_replicate_zero, digits_value (by omega)]

/-- And it is the only string of that form. -/
theorem padHex_unique {w n : Nat} (hw : 1 ≤ w) {s : Str} (h1 : ∀ c ∈ s, LowerHex c) (h2 : s.length = w)
    (h3 : s.foldl (fun acc c => acc * 16 + lowerHexValue c) 0 = n) : s = padHex w n ∧ n < 16 ^ w := by
  have hs : s = (s.map lowerHexValue).map digitChar := by
    rw [List.map_map]
    conv => lhs; rw [← List.map_id s]
    apply List.map_congr_left
    intro c hc
    exact ((digitChar_lowerHexValue (h1 c hc)).2).symm
  have hlt : ∀ d ∈ s.map lowerHexValue, d < 16 := by
    intro d hd
    obtain ⟨c, hc, rfl⟩ := List.mem_map.1 hd
    exact (digitChar_lowerHexValue (h1 c hc)).1
  have hv : ofDigits 16 (s.map lowerHexValue) = n := by
    rw [← h3]
    conv => rhs; rw [hs]
    rw [foldl_lowerHex hlt]
    rfl
  have hn : n < 16 ^ w := by
    rw [← hv, ← h2, ← List.length_map lowerHexValue]
    exact ofDigits_lt hlt
  refine ⟨?_, hn⟩
  rw [hs, padHex_eq]
  congr 1
  refine ofDigits_inj (b := 16) hlt ?_ ?_ ?_
  · intro d hd
    rcases List.mem_append.1 hd with hd | hd
    · simp at hd; omega
    · exact digits_lt (by omega) n d hd
  · have := digits_length_le (by omega : 2 ≤ 16) hw hn
    simp
    omega
  · rw [hv, ofDigits_replicate_zero, digits_value (by omega)]

/-- Number of hex digits of the largest bin number. -/
theorem hexLength {b : Nat} (h1 : 1 ≤ b) : (digits 16 (2 ^ b - 1)).length = (b + 3) / 4 := by
  have e16 : ∀ k, 16 ^ k = 2 ^ (4 * k) := fun k => by rw [Nat.pow_mul]
  have hp : 0 < 2 ^ b := Nat.pow_pos (by omega)
  apply Nat.le_antisymm
  · apply digits_length_le (by omega) (by omega)
    rw [e16]
    have : 2 ^ b ≤ 2 ^ (4 * ((b + 3) / 4)) := Nat.pow_le_pow_right (by omega) (by omega)
    omega
  · have := lt_pow_digits (by omega : 2 ≤ 16) (2 ^ b - 1)
    rw [e16] at this
    have : 2 ^ b ≤ 2 ^ (4 * (digits 16 (2 ^ b - 1)).length) := by omega
    have := (Nat.pow_le_pow_iff_right (by omega : 1 < 2)).1 this
    omega

theorem formatInt_nonneg_length (n : Nat) : (formatInt 16 (n : Int)).length = (digits 16 n).length := by
  unfold formatInt formatNat
  rw [if_neg (by omega)]
  simp

theorem suffixLen_eq {b : Nat} (h1 : 1 ≤ b) : (formatInt 16 ((2 : Int) ^ b - 1)).length = (b + 3) / 4 := by
  have : ((2 : Int) ^ b - 1) = ((2 ^ b - 1 : Nat) : Int) := by
    have h : 1 ≤ 2 ^ b := Nat.pow_pos (by omega)
    rw [Int.natCast_sub h]
    simp
  rw [this, formatInt_nonneg_length, hexLength h1]

/-- The first four bytes of a digest as a number, from its bits. -/
theorem bits_byte (c : UInt8) : ofDigits 2 (bitsOfByte c) = c.toNat ∧ ∀ d ∈ bitsOfByte c, d < 2 := by
  have h := c.toNat_lt
  constructor
  · simp only [ofDigits, bitsOfByte, List.foldl_cons, List.foldl_nil]
    omega
  · intro d hd
    simp only [bitsOfByte, List.mem_cons, List.not_mem_nil, or_false] at hd
    omega

theorem leftmost_div {l : List Nat} (hl : ∀ d ∈ l, d < 2) {k : Nat} :
    ofDigits 2 (l.take k) = ofDigits 2 l / 2 ^ (l.length - k) := by
  have h := ofDigits_append 2 (l.take k) (l.drop k)
  rw [List.take_append_drop] at h
  have hlt := ofDigits_lt (b := 2) (l := l.drop k) (fun d hd => hl d (List.mem_of_mem_drop hd))
  rw [List.length_drop] at h hlt
  rw [h, Nat.mul_comm, Nat.mul_add_div (Nat.pow_pos (by omega)), Nat.div_eq_of_lt hlt, Nat.add_zero]

theorem leftmostBits_eq (a b c d : UInt8) (r : Bytes) {k : Nat} (hk : k ≤ 32) :
    leftmostBits k (a :: b :: c :: d :: r) = (((a.toNat * 256 + b.toNat) * 256 + c.toNat) * 256 + d.toNat) / 2 ^ (32 - k) := by
  have hb : ∀ c, (bitsOfByte c).length = 8 := fun c => rfl
  have e : ((a :: b :: c :: d :: r).flatMap bitsOfByte).take k =
      (bitsOfByte a ++ (bitsOfByte b ++ (bitsOfByte c ++ bitsOfByte d))).take k := by
    simp only [List.flatMap_cons]
    rw [← List.append_assoc, ← List.append_assoc, ← List.append_assoc, List.take_append_of_le_length]
    · simp only [List.append_assoc]
    · simp [hb]; omega
  have hl : (bitsOfByte a ++ (bitsOfByte b ++ (bitsOfByte c ++ bitsOfByte d))).length = 32 := by simp [hb]
  unfold leftmostBits
  rw [e]
  show ofDigits 2 _ = _
  rw [leftmost_div, hl]
  · congr 1
    simp only [ofDigits_append, List.length_append, hb, (bits_byte _).1]
    omega
  · intro x hx
    simp only [List.mem_append] at hx
    rcases hx with hx | hx | hx | hx <;> exact (bits_byte _).2 x hx

end Tuf
