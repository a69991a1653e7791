import Verif.Model.Std.Float
import Verif.Proofs.Std.JsonParse

/-! # Numbers decoded as float64: printing and reading again, small integers -/

namespace Tuf.Std
open Tuf Tuf.Spec

/-! ## Reading again what was printed -/

theorem shortest_read {neg : Bool} {x : Nat × Int} {s : NumLit} (h : shortest neg x = some s) : readF64 s = some (neg, x) := by
  have := List.find?_some h
  simpa using this

theorem readF64_zero : readF64 (.inl 0) = some (false, 0, 0) := by decide

theorem readF64_negZero : readF64 (.inr b!"-0") = some (true, 0, 0) := by decide

theorem anyNumber_cases {l l' : NumLit} (h : anyNumber l = some l') :
    l' = .inl 0 ∨ l' = .inr b!"-0" ∨ l' = l ∧ (readF64 l).isSome ∨ ∃ neg x, x.1 ≠ 0 ∧ readF64 l = some (neg, x) ∧ shortest neg x = some l' := by
  unfold anyNumber at h
  cases hr : readF64 l with
  | none => rw [hr] at h; cases h
  | some y =>
    obtain ⟨neg, x⟩ := y
    rw [hr] at h
    dsimp only at h
    split at h
    · cases neg
      · exact .inl (Option.some.inj h).symm
      · exact .inr (.inl (Option.some.inj h).symm)
    · next h0 =>
      cases hs : shortest neg x with
      | none =>
        rw [hs] at h
        exact .inr (.inr (.inl ⟨(Option.some.inj h).symm, rfl⟩))
      | some s =>
        rw [hs] at h
        rw [← Option.some.inj h]
        exact .inr (.inr (.inr ⟨neg, x, h0, rfl, hs⟩))

/-- What is printed is read as the same number, so that it is printed in the same way again. -/
theorem anyNumber_idem {l l' : NumLit} (h : anyNumber l = some l') : anyNumber l' = some l' := by
  rcases anyNumber_cases h with rfl | rfl | ⟨rfl, _⟩ | ⟨neg, x, h0, _, hs⟩
  · unfold anyNumber
    rw [readF64_zero]
    rfl
  · unfold anyNumber
    rw [readF64_negZero]
    rfl
  · exact h
  · unfold anyNumber
    rw [shortest_read hs]
    dsimp only
    rw [if_neg h0, hs]
    rfl

theorem literal_frac {s : Bytes} (h : (literal (.inr s)).isSome) : FracLit s := by
  unfold literal at h
  dsimp only at h
  split at h
  · next l hn =>
    split at h
    · cases h
    · next he =>
      have he : l = s := Classical.byContradiction he
      subst he
      cases number_writable hn 0 with
      | frac hf => exact hf
  · cases h

theorem readF64_frac {s : Bytes} (h : (readF64 (.inr s)).isSome) : FracLit s := by
  refine literal_frac ?_
  unfold readF64 at h
  cases hl : literal (.inr s) with
  | none => rw [hl] at h; cases h
  | some y => rfl

/-- What is printed is a number literal. -/
theorem anyNumber_lit {l : NumLit} {s : Bytes} (h : anyNumber l = some (.inr s)) : FracLit s := by
  rcases anyNumber_cases h with h' | h' | ⟨rfl, h'⟩ | ⟨neg, x, _, _, hs⟩
  · cases h'
  · cases h'
    exact negZero_lit
  · exact readF64_frac h'
  · exact readF64_frac (by rw [shortest_read hs]; rfl)

/-! ## Integers -/

theorem log2_bounds {n : Nat} (h : 0 < n) : 2 ^ Nat.log2 n ≤ n ∧ n < 2 ^ (Nat.log2 n + 1) :=
  ⟨Nat.log2_self_le (by omega), Nat.lt_log2_self⟩

theorem ilog2_int {n : Nat} (h : 0 < n) : ilog2 n 1 = Nat.log2 n := by
  have hb := (log2_bounds h).1
  have h1 : Nat.log2 1 = 0 := by decide
  unfold ilog2
  dsimp only
  rw [h1, if_pos]
  · omega
  · have e1 : ((Nat.log2 n : Int) - (0 : Nat)).toNat = Nat.log2 n := by omega
    have e2 : (-((Nat.log2 n : Int) - (0 : Nat))).toNat = 0 := by omega
    rw [e1, e2]
    omega

theorem halfEven_one (n : Nat) : halfEven n 1 = n := by
  unfold halfEven
  dsimp only
  rw [if_pos (by omega)]
  omega

/-- Integers below 2^53 are not rounded. -/
theorem round_small {n : Nat} (h0 : 0 < n) (h : n < 2 ^ 53) :
    roundF64 n 1 = some (n * 2 ^ (52 - Nat.log2 n), (Nat.log2 n : Int) - 52) := by
  have hb := log2_bounds h0
  have hl : Nat.log2 n ≤ 52 := by
    have : Nat.log2 n < 53 := (Nat.log2_lt (by omega)).2 h
    omega
  unfold roundF64
  dsimp only
  rw [ilog2_int h0]
  have hk : max ((Nat.log2 n : Int) - 52) (-1074) = (Nat.log2 n : Int) - 52 := by omega
  have e1 : (-((Nat.log2 n : Int) - 52)).toNat = 52 - Nat.log2 n := by omega
  have e2 : ((Nat.log2 n : Int) - 52).toNat = 0 := by omega
  rw [hk, e1, e2]
  rw [show 1 * 2 ^ 0 = 1 from rfl, halfEven_one]
  have hlt : n * 2 ^ (52 - Nat.log2 n) < 2 ^ 53 := by
    have : n * 2 ^ (52 - Nat.log2 n) < 2 ^ (Nat.log2 n + 1) * 2 ^ (52 - Nat.log2 n) := Nat.mul_lt_mul_of_pos_right hb.2 (Nat.pow_pos (by omega))
    rwa [← Nat.pow_add, show Nat.log2 n + 1 + (52 - Nat.log2 n) = 53 by omega] at this
  have hne : ¬ n * 2 ^ (52 - Nat.log2 n) = 2 ^ 53 := by omega
  rw [show (if n * 2 ^ (52 - Nat.log2 n) = 2 ^ 53 then ((2 ^ 52, (Nat.log2 n : Int) - 52 + 1) : Nat × Int) else (n * 2 ^ (52 - Nat.log2 n), (Nat.log2 n : Int) - 52))
    = (n * 2 ^ (52 - Nat.log2 n), (Nat.log2 n : Int) - 52) from if_neg hne]
  rw [if_neg (by dsimp only; omega)]

/-- The exponent of a larger integer is positive. -/
theorem round_large {n : Nat} (h : 2 ^ 53 ≤ n) {x : Nat × Int} (hx : roundF64 n 1 = some x) : 1 ≤ x.2 := by
  have h0 : 0 < n := by omega
  have hl : 53 ≤ Nat.log2 n := (Nat.le_log2 (by omega)).2 h
  unfold roundF64 at hx
  dsimp only at hx
  rw [ilog2_int h0] at hx
  generalize halfEven _ _ = m at hx
  by_cases hm : m = 2 ^ 53
  · simp only [hm, if_true] at hx
    split at hx
    · cases hx
    · rw [← Option.some.inj hx]; dsimp only; omega
  · simp only [hm, if_false] at hx
    split at hx
    · cases hx
    · rw [← Option.some.inj hx]; dsimp only; omega

theorem round_small_inj {n m : Nat} (h0 : 0 < n) (h : n < 2 ^ 53) (hm : 0 < m) (he : roundF64 m 1 = roundF64 n 1) : m = n := by
  rw [round_small h0 h] at he
  have hl : Nat.log2 n ≤ 52 := by
    have : Nat.log2 n < 53 := (Nat.log2_lt (by omega)).2 h
    omega
  by_cases hlt : m < 2 ^ 53
  · rw [round_small hm hlt] at he
    have h1 := (Prod.mk.inj (Option.some.inj he)).1
    have h2 := (Prod.mk.inj (Option.some.inj he)).2
    have h3 : Nat.log2 m = Nat.log2 n := by omega
    rw [h3] at h1
    exact Nat.eq_of_mul_eq_mul_right (Nat.pow_pos (by omega)) h1
  · have := round_large (by omega) he
    dsimp only at this
    omega

/-- Every int64 is a float64, after rounding. -/
theorem round_int64 {n : Nat} (h0 : 0 < n) (h : n ≤ 2 ^ 63) : (roundF64 n 1).isSome := by
  have hl : Nat.log2 n ≤ 63 := by
    have : Nat.log2 n < 64 := (Nat.log2_lt (by omega)).2 (by omega)
    omega
  unfold roundF64
  dsimp only
  rw [ilog2_int h0]
  rw [if_neg]
  · rfl
  · split <;> dsimp only <;> omega

theorem readF64_int (n : Int) (h : n ≠ 0) : readF64 (.inl n) = (roundF64 n.natAbs 1).map (fun x => (decide (n < 0), x)) := by
  unfold readF64 literal
  dsimp only
  rw [if_neg (by omega)]
  have : decNum n.natAbs 0 = n.natAbs := by simp [decNum]
  rw [this]
  rfl

/-- An integer field that is not recognised can be decoded. -/
theorem anyNumber_int64 {n : Int} (h : inInt64 n) : (anyNumber (.inl n)).isSome := by
  unfold anyNumber
  by_cases h0 : n = 0
  · subst h0; rw [readF64_zero]; rfl
  · rw [readF64_int n h0]
    obtain ⟨h1, h2⟩ : -(2 ^ 63 : Int) ≤ n ∧ n < 2 ^ 63 := by
      simpa [inInt64] using h
    have := round_int64 (n := n.natAbs) (by omega) (by omega)
    obtain ⟨x, hx⟩ := Option.isSome_iff_exists.1 this
    rw [hx]
    dsimp only [Option.map]
    split <;> rfl

/-! ## Integers below 2^53 are printed as they were -/

theorem pow_le_of_digits {n : Nat} (h : 0 < n) : 10 ^ ((digits 10 n).length - 1) ≤ n := by
  refine Classical.byContradiction fun hc => ?_
  by_cases h1 : (digits 10 n).length ≤ 1
  · rw [show (digits 10 n).length - 1 = 0 by omega] at hc; omega
  · have := digits_length_le (b := 10) (by omega) (n := n) (k := (digits 10 n).length - 1) (by omega) (by omega)
    omega

theorem digits_length_pos (n : Nat) : 1 ≤ (digits 10 n).length := by
  have := digits_ne_nil (b := 10) (by omega) n
  cases h : digits 10 n with
  | nil => exact absurd h this
  | cons a r => simp

theorem strip_spec (f : Nat) : ∀ (c : Nat) (t : Int), t ≤ (strip f c t).2 ∧ (strip f c t).1 * 10 ^ ((strip f c t).2 - t).toNat = c := by
  induction f with
  | zero => intro c t; simp [strip]
  | succ f ih =>
    intro c t
    unfold strip
    split
    · next h =>
      obtain ⟨h1, h2⟩ := ih (c / 10) (t + 1)
      refine ⟨by omega, ?_⟩
      generalize strip f (c / 10) (t + 1) = s at h1 h2 ⊢
      rw [show (s.2 - t).toNat = (s.2 - (t + 1)).toNat + 1 by omega, Nat.pow_succ, ← Nat.mul_assoc, h2]
      omega
    · simp

theorem strip_zeros (j : Nat) : ∀ (f m : Nat) (t : Int), strip (j + f) (m * 10 ^ j) t = strip f m (t + j) := by
  induction j with
  | zero => intro f m t; simp
  | succ j ih =>
    intro f m t
    rw [show j + 1 + f = (j + f) + 1 by omega]
    show (if m * 10 ^ (j + 1) % 10 = 0 then strip (j + f) (m * 10 ^ (j + 1) / 10) (t + 1) else _) = _
    have e : m * 10 ^ (j + 1) = (m * 10 ^ j) * 10 := by rw [Nat.pow_succ, ← Nat.mul_assoc]
    rw [e, if_pos (Nat.mul_mod_left _ _), Nat.mul_div_cancel _ (by omega), ih]
    congr 1
    omega

/-- The sign of an integer. -/
def signed (neg : Bool) (n : Nat) : Int := if neg then -(n : Int) else n

theorem print_of_strip {neg : Bool} {c n : Nat} {t : Int} (h0 : 0 < n) (h : n < 10 ^ 21) (h2 : 0 ≤ (strip (digits 10 c).length c t).2)
    (hn : (strip (digits 10 c).length c t).1 * 10 ^ (strip (digits 10 c).length c t).2.toNat = n) : printF64 neg c t = .inl (signed neg n) := by
  unfold printF64
  dsimp only
  generalize strip (digits 10 c).length c t = s at h2 hn ⊢
  have hpos : 0 < s.1 := by
    refine Nat.pos_of_ne_zero fun hz => ?_
    rw [hz] at hn; omega
  have hl := pow_le_of_digits hpos
  have hlen := digits_length_pos s.1
  have he : (digits 10 s.1).length - 1 + s.2.toNat < 21 := by
    have : 10 ^ ((digits 10 s.1).length - 1 + s.2.toNat) < 10 ^ 21 := by
      rw [Nat.pow_add]
      exact Nat.lt_of_le_of_lt (Nat.mul_le_mul_right _ hl) (by omega)
    exact (Nat.pow_lt_pow_iff_right (by omega)).1 this
  rw [if_neg (by omega), if_pos h2, hn]
  rfl

theorem print_int {neg : Bool} {c : Nat} {t : Int} (h0 : 0 < c) (ht : 0 ≤ t) (h : c * 10 ^ t.toNat < 10 ^ 21) :
    printF64 neg c t = .inl (signed neg (c * 10 ^ t.toNat)) := by
  obtain ⟨h1, h2⟩ := strip_spec (digits 10 c).length c t
  refine print_of_strip (Nat.mul_pos h0 (Nat.pow_pos (by omega))) h (by omega) ?_
  generalize strip (digits 10 c).length c t = s at h1 h2 ⊢
  rw [show s.2.toNat = (s.2 - t).toNat + t.toNat by omega, Nat.pow_add, ← Nat.mul_assoc, h2]

theorem print_point {neg : Bool} {n j : Nat} (h0 : 0 < n) (h : n < 10 ^ 21) : printF64 neg (n * 10 ^ j) (-(j : Int)) = .inl (signed neg n) := by
  have hpos : 0 < n * 10 ^ j := Nat.mul_pos h0 (Nat.pow_pos (by omega))
  have hlen : j ≤ (digits 10 (n * 10 ^ j)).length := by
    have h1 := lt_pow_digits (b := 10) (by omega) (n * 10 ^ j)
    have h2 : 10 ^ j ≤ n * 10 ^ j := Nat.le_mul_of_pos_left _ h0
    have := (Nat.pow_lt_pow_iff_right (a := 10) (by omega)).1 (Nat.lt_of_le_of_lt h2 h1)
    omega
  obtain ⟨f, hf⟩ : ∃ f, (digits 10 (n * 10 ^ j)).length = j + f := ⟨_, (Nat.add_sub_cancel' hlen).symm⟩
  have hs : strip (digits 10 (n * 10 ^ j)).length (n * 10 ^ j) (-(j : Int)) = strip f n 0 := by
    rw [hf, strip_zeros]
    congr 1
    omega
  obtain ⟨h1, h2⟩ := strip_spec f n 0
  refine print_of_strip h0 h ?_ ?_
  · rw [hs]; exact h1
  · rw [hs]
    rw [show ((strip f n 0).2 - 0) = (strip f n 0).2 by omega] at h2
    exact h2

theorem digits10_int {n : Nat} (h : 0 < n) : digits10 n 1 = (digits 10 n).length := by
  have h1 := pow_le_of_digits h
  have hlen := digits_length_pos n
  unfold digits10
  dsimp only
  rw [show (digits 10 1).length = 1 by decide]
  rw [show (((digits 10 n).length : Int) - (1 : Nat)).toNat = (digits 10 n).length - 1 by omega]
  rw [show (-(((digits 10 n).length : Int) - (1 : Nat))).toNat = 0 by omega]
  rw [if_pos (by omega)]
  omega

/-- The decimals next to an integer, with at most 16 digits, are printed as integers. -/
theorem candidates_int {n d : Nat} (h0 : 0 < n) (h : n < 10 ^ 16) (hd : 1 ≤ d) (neg : Bool) :
    ∀ c ∈ candidates n 1 d, ∃ v, 0 < v ∧ printF64 neg c.1 c.2 = .inl (signed neg v) := by
  have hlen := digits_length_pos n
  have hpow := pow_le_of_digits h0
  have hmax : (digits 10 n).length ≤ 16 := digits_length_le (by omega) (by omega) h
  by_cases ht : d ≤ (digits 10 n).length
  · -- a multiple of a power of ten
    have key : ∀ c, 0 < c → c ≤ n / 10 ^ ((digits 10 n).length - d) + 1 → ∃ v, 0 < v ∧ printF64 neg c (((digits 10 n).length : Int) - d) = .inl (signed neg v) := by
      intro c hc hle
      refine ⟨_, Nat.mul_pos hc (Nat.pow_pos (by omega)), print_int hc (by omega) ?_⟩
      rw [show (((digits 10 n).length : Int) - d).toNat = (digits 10 n).length - d by omega]
      have h1 : 10 ^ ((digits 10 n).length - d) ≤ 10 ^ 16 := Nat.pow_le_pow_right (by omega) (by omega)
      have h2 : c * 10 ^ ((digits 10 n).length - d) ≤ (n / 10 ^ ((digits 10 n).length - d) + 1) * 10 ^ ((digits 10 n).length - d) := Nat.mul_le_mul_right _ hle
      rw [Nat.add_mul] at h2
      have h3 := Nat.div_mul_le_self n (10 ^ ((digits 10 n).length - d))
      omega
    have hlo : 0 < n / 10 ^ ((digits 10 n).length - d) := by
      refine Nat.div_pos (Nat.le_trans (Nat.pow_le_pow_right (by omega) ?_) hpow) (Nat.pow_pos (by omega))
      omega
    intro c hc
    unfold candidates at hc
    dsimp only at hc
    rw [digits10_int h0] at hc
    rw [show (-(((digits 10 n).length : Int) - d)).toNat = 0 by omega] at hc
    rw [show (((digits 10 n).length : Int) - d).toNat = (digits 10 n).length - d by omega] at hc
    rw [Nat.one_mul, Nat.pow_zero, Nat.mul_one] at hc
    have hhi : ∀ x, x = (if n % 10 ^ ((digits 10 n).length - d) = 0 then n / 10 ^ ((digits 10 n).length - d) else n / 10 ^ ((digits 10 n).length - d) + 1) →
        0 < x ∧ x ≤ n / 10 ^ ((digits 10 n).length - d) + 1 := by
      intro x hx
      split at hx <;> omega
    split at hc <;> simp only [List.mem_cons, List.not_mem_nil, or_false] at hc <;> rcases hc with rfl | rfl
    · exact key _ hlo (by omega)
    · exact key _ (hhi _ rfl).1 (hhi _ rfl).2
    · exact key _ (hhi _ rfl).1 (hhi _ rfl).2
    · exact key _ hlo (by omega)
  · -- more digits than the number has
    intro c hc
    unfold candidates at hc
    dsimp only at hc
    rw [digits10_int h0] at hc
    rw [show (-(((digits 10 n).length : Int) - d)).toNat = d - (digits 10 n).length by omega] at hc
    rw [show (((digits 10 n).length : Int) - d).toNat = 0 by omega] at hc
    simp only [Nat.pow_zero, Nat.mul_one, Nat.mod_one, Nat.div_one, if_true, Nat.mul_zero, Nat.zero_le] at hc
    have hcc : c = (n * 10 ^ (d - (digits 10 n).length), ((digits 10 n).length : Int) - d) := by simpa using hc
    subst hcc
    refine ⟨n, h0, ?_⟩
    have := print_point (neg := neg) (j := d - (digits 10 n).length) h0 (by omega)
    rw [show (-((d - (digits 10 n).length : Nat) : Int)) = ((digits 10 n).length : Int) - d by omega] at this
    exact this

theorem fracF64_small {n : Nat} (h0 : 0 < n) (h : n < 2 ^ 53) : fracF64 (n * 2 ^ (52 - Nat.log2 n), (Nat.log2 n : Int) - 52) = (n, 1) := by
  have hl : Nat.log2 n ≤ 52 := by
    have : Nat.log2 n < 53 := (Nat.log2_lt (by omega)).2 h
    omega
  unfold fracF64
  dsimp only
  rw [show ((Nat.log2 n : Int) - 52).toNat = 0 by omega, show (-((Nat.log2 n : Int) - 52)).toNat = 52 - Nat.log2 n by omega]
  have hg : Nat.gcd (n * 2 ^ (52 - Nat.log2 n) * 2 ^ 0) (2 ^ (52 - Nat.log2 n)) = 2 ^ (52 - Nat.log2 n) := by
    rw [Nat.pow_zero, Nat.mul_one]
    exact Nat.gcd_mul_left_left _ _
  have hp : 0 < 2 ^ (52 - Nat.log2 n) := Nat.pow_pos (by omega)
  rw [hg, Nat.pow_zero, Nat.mul_one, Nat.mul_div_cancel _ hp, Nat.div_self hp]

theorem readF64_signed (neg : Bool) {v : Nat} (h : 0 < v) : readF64 (.inl (signed neg v)) = (roundF64 v 1).map (fun x => (neg, x)) := by
  have hne : signed neg v ≠ 0 := by unfold signed; split <;> omega
  rw [readF64_int _ hne]
  have h1 : (signed neg v).natAbs = v := by unfold signed; split <;> omega
  have h2 : decide (signed neg v < 0) = neg := by
    unfold signed
    cases neg
    · simp
    · simp; omega
  rw [h1, h2]

theorem anyNumber_signed (neg : Bool) {n : Nat} (h0 : 0 < n) (h : n < 2 ^ 53) : anyNumber (.inl (signed neg n)) = some (.inl (signed neg n)) := by
  have hr := round_small h0 h
  have hread : readF64 (.inl (signed neg n)) = some (neg, n * 2 ^ (52 - Nat.log2 n), (Nat.log2 n : Int) - 52) := by
    rw [readF64_signed neg h0, hr]; rfl
  unfold anyNumber
  rw [hread]
  dsimp only
  have hpos : 0 < n * 2 ^ (52 - Nat.log2 n) := Nat.mul_pos h0 (Nat.pow_pos (by omega))
  rw [if_neg (by omega)]
  cases hs : shortest neg (n * 2 ^ (52 - Nat.log2 n), (Nat.log2 n : Int) - 52) with
  | none => rfl
  | some s =>
    have hsr := shortest_read hs
    have hmem : s ∈ texts neg (n * 2 ^ (52 - Nat.log2 n), (Nat.log2 n : Int) - 52) := List.mem_of_find?_eq_some hs
    unfold texts at hmem
    rw [fracF64_small h0 h] at hmem
    obtain ⟨d, _, hd⟩ := List.mem_flatMap.1 hmem
    obtain ⟨c, hc, rfl⟩ := List.mem_map.1 hd
    obtain ⟨v, hv0, hv⟩ := candidates_int h0 (by omega) (by omega) neg c hc
    rw [hv] at hsr ⊢
    rw [readF64_signed neg hv0] at hsr
    have : roundF64 v 1 = roundF64 n 1 := by
      rw [hr]
      cases hrv : roundF64 v 1 with
      | none => rw [hrv] at hsr; cases hsr
      | some x =>
        rw [hrv] at hsr
        exact congrArg some (Prod.mk.inj (Option.some.inj hsr)).2
    have := round_small_inj h0 h hv0 this
    subst this
    rfl

/-- Integers below 2^53 in absolute value are printed as they were read. -/
theorem anyNumber_exact {n : Int} (h1 : -(2 ^ 53) < n) (h2 : n < 2 ^ 53) : anyNumber (.inl n) = some (.inl n) := by
  by_cases h0 : n = 0
  · subst h0
    unfold anyNumber
    rw [readF64_zero]
    rfl
  · have := anyNumber_signed (decide (n < 0)) (n := n.natAbs) (by omega) (by omega)
    have e : signed (decide (n < 0)) n.natAbs = n := by
      unfold signed
      by_cases hn : n < 0
      · simp [hn]; omega
      · simp [hn]; omega
    rwa [e] at this

end Tuf.Std
