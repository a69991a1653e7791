import Verif.Proofs.Std.Float

/-! # Powers and fractions as rational numbers -/

namespace Tuf.Std
open Tuf Tuf.Spec

theorem zpow_toNat {b : Nat} (hb : 0 < b) (k : Int) : (b : Rat) ^ k * ((b ^ (-k).toNat : Nat) : Rat) = ((b ^ k.toNat : Nat) : Rat) := by
  have hb' : (b : Rat) ≠ 0 := by
    have : ((0 : Nat) : Rat) < (b : Rat) := Rat.natCast_lt_natCast.2 hb
    grind
  rw [Rat.natCast_pow, Rat.natCast_pow, ← Rat.zpow_natCast, ← Rat.zpow_natCast, ← Rat.zpow_add hb']
  congr 1
  omega

theorem natCast_pos {n : Nat} (h : 0 < n) : (0 : Rat) < n := by
  have : ((0 : Nat) : Rat) < (n : Rat) := Rat.natCast_lt_natCast.2 h
  grind

theorem zpow_le {b : Nat} (hb : 0 < b) {j k : Int} (h : j ≤ k) : (b : Rat) ^ j ≤ (b : Rat) ^ k := by
  have h0 := natCast_pos hb
  obtain ⟨n, rfl⟩ : ∃ n : Nat, k = j + n := ⟨(k - j).toNat, by omega⟩
  rw [Rat.zpow_add (by grind), Rat.zpow_natCast, ← Rat.natCast_pow]
  have h1 : ((1 : Nat) : Rat) ≤ ((b ^ n : Nat) : Rat) := Rat.natCast_le_natCast.2 (Nat.pow_pos hb)
  have h2 := Rat.mul_le_mul_of_nonneg_left h1 (Rat.zpow_nonneg (a := (b : Rat)) (n := j) (by grind))
  grind

theorem zpow_lt_inv {b : Nat} (hb : 0 < b) {j k : Int} (h : (b : Rat) ^ j < (b : Rat) ^ k) : j < k := by
  refine Classical.byContradiction fun hc => ?_
  have := zpow_le hb (j := k) (k := j) (by omega)
  grind

/-- A number between two neighbouring powers: the exponent is determined. -/
theorem zpow_unique {b : Nat} (hb : 0 < b) {v : Rat} {j k : Int} (h1 : (b : Rat) ^ j ≤ v) (h2 : v < (b : Rat) ^ (j + 1)) (h3 : (b : Rat) ^ k ≤ v)
    (h4 : v < (b : Rat) ^ (k + 1)) : j = k := by
  have := zpow_lt_inv hb (j := j) (k := k + 1) (by grind)
  have := zpow_lt_inv hb (j := k) (k := j + 1) (by grind)
  omega

theorem div_le {p q : Nat} (hq : 0 < q) {x : Rat} : (p : Rat) / q ≤ x ↔ (p : Rat) ≤ x * q := by
  have h := Rat.lt_div_iff (a := x) (b := (p : Rat)) (natCast_pos hq)
  rw [← Rat.not_lt, ← Rat.not_lt, h]

theorem le_div {p q : Nat} (hq : 0 < q) {x : Rat} : x ≤ (p : Rat) / q ↔ x * q ≤ (p : Rat) := by
  have h := Rat.div_lt_iff (a := (p : Rat)) (c := x) (natCast_pos hq)
  rw [← Rat.not_lt, ← Rat.not_lt, h]

/-- `q·b^a ≤ p`, written without negative exponents. -/
theorem cross_le {b p q : Nat} (hb : 0 < b) (hq : 0 < q) {a : Int} : q * b ^ a.toNat ≤ p * b ^ (-a).toNat ↔ (b : Rat) ^ a ≤ (p : Rat) / q := by
  rw [le_div hq]
  have hz := zpow_toNat hb a
  have hp : (0 : Rat) < ((b ^ (-a).toNat : Nat) : Rat) := natCast_pos (Nat.pow_pos hb)
  rw [← Rat.natCast_le_natCast, Rat.natCast_mul, Rat.natCast_mul, ← hz]
  constructor
  · intro h
    refine Rat.le_of_mul_le_mul_right (c := ((b ^ (-a).toNat : Nat) : Rat)) ?_ hp
    grind
  · intro h
    have := Rat.mul_le_mul_of_nonneg_right h (Rat.le_of_lt hp)
    grind

/-- The larger of two neighbouring exponents, as `ilog2` and `digits10` find it. -/
theorem exponent_found {b p q i j : Nat} (hb : 0 < b) (hq : 0 < q) (h1 : b ^ i ≤ p) (h2 : p < b ^ (i + 1)) (h3 : b ^ j ≤ q) (h4 : q < b ^ (j + 1)) {a : Int} (ha : a = (i : Int) - j) :
    let e := if q * b ^ a.toNat ≤ p * b ^ (-a).toNat then a else a - 1
    (b : Rat) ^ e ≤ (p : Rat) / q ∧ (p : Rat) / q < (b : Rat) ^ (e + 1) := by
  have hb0 := natCast_pos hb
  have hbne : (b : Rat) ≠ 0 := by grind
  have pw : ∀ n : Nat, ((b ^ n : Nat) : Rat) = (b : Rat) ^ (n : Int) := fun n => by rw [Rat.natCast_pow, Rat.zpow_natCast]
  have h1' := Rat.natCast_le_natCast.2 h1
  have h2' := Rat.natCast_lt_natCast.2 h2
  have h3' := Rat.natCast_le_natCast.2 h3
  have h4' := Rat.natCast_lt_natCast.2 h4
  rw [pw] at h1' h2' h3' h4'
  have hq0 := natCast_pos hq
  dsimp only
  split
  · next hc =>
    refine ⟨(cross_le hb hq).1 hc, ?_⟩
    rw [Rat.div_lt_iff hq0]
    have e : (b : Rat) ^ (a + 1) * (b : Rat) ^ (j : Int) = (b : Rat) ^ ((i + 1 : Nat) : Int) := by
      rw [← Rat.zpow_add hbne]; congr 1; omega
    have := Rat.mul_le_mul_of_nonneg_left h3' (Rat.zpow_nonneg (a := (b : Rat)) (n := a + 1) (by grind))
    grind
  · next hc =>
    rw [cross_le hb hq, Rat.not_le] at hc
    refine ⟨?_, by rw [show a - 1 + 1 = a by omega]; exact hc⟩
    rw [le_div hq]
    have e : (b : Rat) ^ (a - 1) * (b : Rat) ^ ((j + 1 : Nat) : Int) = (b : Rat) ^ (i : Int) := by
      rw [← Rat.zpow_add hbne]; congr 1; omega
    have := Rat.mul_le_mul_of_nonneg_left (Rat.le_of_lt h4') (Rat.zpow_nonneg (a := (b : Rat)) (n := a - 1) (by grind))
    grind

theorem ilog2_spec {p q : Nat} (hp : 0 < p) (hq : 0 < q) : (2 : Rat) ^ (ilog2 p q) ≤ (p : Rat) / q ∧ (p : Rat) / q < (2 : Rat) ^ (ilog2 p q + 1) := by
  have h1 := log2_bounds hp
  have h2 := log2_bounds hq
  exact exponent_found (b := 2) (by omega) hq h1.1 h1.2 h2.1 h2.2 rfl

theorem digits10_spec {p q : Nat} (hp : 0 < p) (hq : 0 < q) : (10 : Rat) ^ (digits10 p q - 1) ≤ (p : Rat) / q ∧ (p : Rat) / q < (10 : Rat) ^ (digits10 p q) := by
  have l1 := digits_length_pos p
  have l2 := digits_length_pos q
  have u1 := lt_pow_digits (b := 10) (by omega) p
  have u2 := lt_pow_digits (b := 10) (by omega) q
  have h := exponent_found (b := 10) (p := p) (q := q) (i := (digits 10 p).length - 1) (j := (digits 10 q).length - 1) (by omega) hq (pow_le_of_digits hp)
    (by rwa [Nat.sub_add_cancel l1]) (pow_le_of_digits hq) (by rwa [Nat.sub_add_cancel l2]) rfl
  have ea : (((digits 10 p).length - 1 : Nat) : Int) - ((digits 10 q).length - 1 : Nat) = ((digits 10 p).length : Int) - ((digits 10 q).length : Int) := by omega
  rw [ea] at h
  unfold digits10
  dsimp only at h ⊢
  split at h
  · next hc => rw [if_pos hc]; rw [show ∀ x : Int, x + 1 - 1 = x by omega]; exact h
  · next hc => rw [if_neg hc]; rw [show ∀ x : Int, x - 1 + 1 = x by omega] at h; exact h

theorem halfEven_spec {p q : Nat} (hq : 0 < q) : 2 * halfEven p q * q ≤ 2 * p + q ∧ 2 * p ≤ 2 * halfEven p q * q + q := by
  have h := Nat.div_add_mod p q
  unfold halfEven
  dsimp only
  generalize hf : p / q = f at h ⊢
  generalize hr : p % q = r at h ⊢
  have e1 : 2 * f * q = 2 * (q * f) := by rw [Nat.mul_assoc, Nat.mul_comm f]
  have e2 : 2 * (f + 1) * q = 2 * (q * f) + 2 * q := by rw [Nat.mul_assoc, Nat.add_mul, Nat.mul_comm f]; omega
  have hlt : r < q := by rw [← hr]; exact Nat.mod_lt _ hq
  split
  · rw [e1]; omega
  · split
    · rw [e2]; omega
    · split
      · rw [e1]; omega
      · rw [e2]; omega

theorem halfEven_scale {p q c : Nat} (hc : 0 < c) : halfEven (p * c) (q * c) = halfEven p q := by
  unfold halfEven
  dsimp only
  rw [Nat.mul_div_mul_right _ _ hc, Nat.mul_mod_mul_right, ← Nat.mul_assoc]
  simp only [Nat.mul_lt_mul_right hc]

theorem halfEven_cross {p q p' q' : Nat} (hq : 0 < q) (hq' : 0 < q') (h : p * q' = p' * q) : halfEven p q = halfEven p' q' := by
  rw [← halfEven_scale (p := p) (q := q) hq', ← halfEven_scale (p := p') (q := q') hq, h, Nat.mul_comm q q']

theorem div_eq_div {p q p' q' : Nat} (hq : 0 < q) (hq' : 0 < q') : (p : Rat) / q = (p' : Rat) / q' ↔ p * q' = p' * q := by
  have h1 := natCast_pos hq
  have h2 := natCast_pos hq'
  rw [← Rat.natCast_inj, Rat.natCast_mul, Rat.natCast_mul]
  have e1 := Rat.div_mul_cancel (a := (p : Rat)) (b := (q : Rat)) (by grind)
  have e2 := Rat.div_mul_cancel (a := (p' : Rat)) (b := (q' : Rat)) (by grind)
  generalize (p : Rat) / q = x at e1 ⊢
  generalize (p' : Rat) / q' = y at e2 ⊢
  rw [← e1, ← e2]
  constructor
  · rintro rfl; grind
  · intro h
    have hne : (q : Rat) * q' ≠ 0 := by
      have := (Rat.mul_pos_iff_of_pos_left h1).2 h2
      grind
    grind

/-- Rounding depends on the number only, not on the fraction. -/
theorem round_cross {p q p' q' : Nat} (hp : 0 < p) (hq : 0 < q) (hp' : 0 < p') (hq' : 0 < q') (h : (p : Rat) / q = (p' : Rat) / q') : roundF64 p q = roundF64 p' q' := by
  have hl : ilog2 p q = ilog2 p' q' := by
    have h1 := ilog2_spec hp hq
    have h2 := ilog2_spec hp' hq'
    rw [h] at h1
    exact zpow_unique (b := 2) (by omega) h1.1 h1.2 h2.1 h2.2
  unfold roundF64
  dsimp only
  rw [hl]
  generalize max (ilog2 p' q' - 52) (-1074) = k
  rw [div_eq_div hq hq'] at h
  have : halfEven (p * 2 ^ (-k).toNat) (q * 2 ^ k.toNat) = halfEven (p' * 2 ^ (-k).toNat) (q' * 2 ^ k.toNat) := by
    refine halfEven_cross (Nat.mul_pos hq (Nat.pow_pos (by omega))) (Nat.mul_pos hq' (Nat.pow_pos (by omega))) ?_
    calc p * 2 ^ (-k).toNat * (q' * 2 ^ k.toNat) = (p * q') * (2 ^ (-k).toNat * 2 ^ k.toNat) := by ac_rfl
      _ = (p' * q) * (2 ^ (-k).toNat * 2 ^ k.toNat) := by rw [h]
      _ = p' * 2 ^ (-k).toNat * (q * 2 ^ k.toNat) := by ac_rfl
  rw [this]

/-- Rounding in terms of rational numbers: half a unit at most. -/
theorem halfEven_rat {p q : Nat} (hq : 0 < q) (k : Int) :
    2 * ((halfEven (p * 2 ^ (-k).toNat) (q * 2 ^ k.toNat) : Rat) * 2 ^ k) ≤ 2 * ((p : Rat) / q) + 2 ^ k ∧
    2 * ((p : Rat) / q) ≤ 2 * ((halfEven (p * 2 ^ (-k).toNat) (q * 2 ^ k.toNat) : Rat) * 2 ^ k) + 2 ^ k := by
  obtain ⟨h1, h2⟩ := halfEven_spec (p := p * 2 ^ (-k).toNat) (q := q * 2 ^ k.toNat) (Nat.mul_pos hq (Nat.pow_pos (by omega)))
  generalize halfEven (p * 2 ^ (-k).toNat) (q * 2 ^ k.toNat) = m at h1 h2 ⊢
  have hz := zpow_toNat (b := 2) (by omega) k
  have hpos : (0 : Rat) < ((2 ^ (-k).toNat : Nat) : Rat) := natCast_pos (Nat.pow_pos (by omega))
  have hq0 := natCast_pos hq
  have e1 := Rat.div_mul_cancel (a := (p : Rat)) (b := (q : Rat)) (by grind)
  have h1' := Rat.natCast_le_natCast.2 h1
  have h2' := Rat.natCast_le_natCast.2 h2
  simp only [Rat.natCast_mul, Rat.natCast_add] at h1' h2'
  rw [← hz, ← e1] at h1' h2'
  change (2 : Rat) * _ * _ ≤ 2 * _ + _ at h1'
  change (2 : Rat) * _ ≤ 2 * _ * _ + _ at h2'
  change ((2 : Rat) ^ k * _ = _) at hz
  generalize ((2 ^ (-k).toNat : Nat) : Rat) = B at *
  generalize (p : Rat) / q = v at *
  have hqB : (0 : Rat) < (q : Rat) * B := (Rat.mul_pos_iff_of_pos_left hq0).2 hpos
  constructor
  · refine Rat.le_of_mul_le_mul_right (c := (q : Rat) * B) ?_ hqB
    grind
  · refine Rat.le_of_mul_le_mul_right (c := (q : Rat) * B) ?_ hqB
    grind

end Tuf.Std
