import Verif.Proofs.Std.Rat
import Verif.Proofs.Std.Time
import Verif.Proofs.Std.JsonGrammar
import Verif.Spec.Std.Number

/-! # Decimals of at most 15 digits survive float64 -/

namespace Tuf.Std
open Tuf Tuf.Spec

/-! ## The nearest float64 -/

/-- The value of a float64. -/
def valF64 (x : Nat × Int) : Rat := (x.1 : Rat) * 2 ^ x.2

/-- At most half a unit away, and of full precision. -/
structure Near (v : Rat) (x : Nat × Int) : Prop where
  above : 2 * valF64 x ≤ 2 * v + 2 ^ x.2
  below : 2 * v ≤ 2 * valF64 x + 2 ^ x.2
  full : (2 ^ 52 : Nat) ≤ x.1

theorem two_pos (k : Int) : (0 : Rat) < 2 ^ k := Rat.zpow_pos (by decide)
theorem ten_pos (k : Int) : (0 : Rat) < 10 ^ k := Rat.zpow_pos (by decide)
theorem two_add (j k : Int) : (2 : Rat) ^ (j + k) = 2 ^ j * 2 ^ k := Rat.zpow_add (by decide) _ _
theorem ten_add (j k : Int) : (10 : Rat) ^ (j + k) = 10 ^ j * 10 ^ k := Rat.zpow_add (by decide) _ _
theorem two_le {j k : Int} (h : j ≤ k) : (2 : Rat) ^ j ≤ 2 ^ k := zpow_le (b := 2) (by omega) h
theorem ten_le {j k : Int} (h : j ≤ k) : (10 : Rat) ^ j ≤ 10 ^ k := zpow_le (b := 10) (by omega) h

/-- Rounding moves a number by half a unit at most. -/
theorem round_half {p q : Nat} (hq : 0 < q) {x : Nat × Int} (hx : roundF64 p q = some x) :
    2 * valF64 x ≤ 2 * ((p : Rat) / q) + 2 ^ x.2 ∧ 2 * ((p : Rat) / q) ≤ 2 * valF64 x + 2 ^ x.2 := by
  unfold roundF64 at hx
  dsimp only at hx
  generalize max (ilog2 p q - 52) (-1074) = k at hx
  obtain ⟨h1, h2⟩ := halfEven_rat (p := p) hq k
  generalize halfEven (p * 2 ^ (-k).toNat) (q * 2 ^ k.toNat) = m at hx h1 h2
  generalize (p : Rat) / q = v at *
  have hk0 := two_pos k
  by_cases hc : m = 2 ^ 53
  · simp only [hc, if_true] at hx
    split at hx
    · cases hx
    · rw [← Option.some.inj hx]
      have e : (2 : Rat) ^ (k + 1) = 2 ^ k * 2 := by rw [two_add]; rfl
      have hval : valF64 (2 ^ 52, k + 1) = (m : Rat) * 2 ^ k := by
        unfold valF64
        dsimp only
        rw [e, hc]
        rw [show ((2 ^ 52 : Nat) : Rat) = 4503599627370496 from rfl, show ((2 ^ 53 : Nat) : Rat) = 9007199254740992 from rfl]
        grind
      rw [hval]
      dsimp only
      rw [e]
      constructor <;> grind
  · simp only [hc, if_false] at hx
    split at hx
    · cases hx
    · rw [← Option.some.inj hx]
      exact ⟨h1, h2⟩

theorem round_full {p q : Nat} (hp : 0 < p) (hq : 0 < q) {x : Nat × Int} (hx : roundF64 p q = some x) (hv : (2 : Rat) ^ (-1022 : Int) ≤ (p : Rat) / q) : 2 ^ 52 ≤ x.1 := by
  obtain ⟨hl1, hl2⟩ := ilog2_spec hp hq
  have hl : -1022 < ilog2 p q + 1 := zpow_lt_inv (b := 2) (by omega) (show (2 : Rat) ^ (-1022 : Int) < (2 : Rat) ^ (ilog2 p q + 1) by grind)
  unfold roundF64 at hx
  dsimp only at hx
  rw [show max (ilog2 p q - 52) (-1074) = ilog2 p q - 52 by omega] at hx
  generalize hk : ilog2 p q - 52 = k at hx
  rw [show ilog2 p q = k + 52 by omega, two_add] at hl1
  obtain ⟨h1, h2⟩ := halfEven_rat (p := p) hq k
  generalize halfEven (p * 2 ^ (-k).toNat) (q * 2 ^ k.toNat) = m at hx h1 h2
  generalize (p : Rat) / q = v at *
  have hk0 := two_pos k
  have h52 : (2 : Rat) ^ (52 : Int) = 4503599627370496 := by decide
  have hm : 2 ^ 52 ≤ m := by
    refine Classical.byContradiction fun hc => ?_
    have : ((m + 1 : Nat) : Rat) ≤ ((2 ^ 52 : Nat) : Rat) := Rat.natCast_le_natCast.2 (by omega)
    rw [Rat.natCast_add, show ((2 ^ 52 : Nat) : Rat) = 4503599627370496 from rfl] at this
    have := Rat.mul_le_mul_of_nonneg_right this (Rat.le_of_lt hk0)
    rw [h52] at hl1
    grind
  split at hx
  · split at hx
    · cases hx
    · rw [← Option.some.inj hx]
      exact Nat.le_refl _
  · split at hx
    · cases hx
    · rw [← Option.some.inj hx]
      exact hm

theorem round_near {p q : Nat} (hq : 0 < q) {x : Nat × Int} (hx : roundF64 p q = some x) (hf : 2 ^ 52 ≤ x.1) : Near ((p : Rat) / q) x :=
  ⟨(round_half hq hx).1, (round_half hq hx).2, hf⟩

theorem round_some {p q : Nat} (hp : 0 < p) (hq : 0 < q) (hv : (p : Rat) / q < (2 : Rat) ^ (1023 : Int)) : ∃ x, roundF64 p q = some x := by
  obtain ⟨hl1, hl2⟩ := ilog2_spec hp hq
  have hl : ilog2 p q < 1023 := zpow_lt_inv (b := 2) (by omega) (show (2 : Rat) ^ (ilog2 p q) < (2 : Rat) ^ (1023 : Int) by grind)
  unfold roundF64
  dsimp only
  generalize halfEven _ _ = m
  rw [if_neg]
  · exact ⟨_, rfl⟩
  · split <;> dsimp only <;> omega

/-! ## Decimals near a float64 -/

theorem Near.pos {v : Rat} {x : Nat × Int} (h : Near v x) : (9007199254740991 : Rat) * 2 ^ x.2 ≤ 2 * v ∧ (2 : Rat) ^ (52 : Nat) * 2 ^ x.2 ≤ valF64 x := by
  obtain ⟨h1, h2, h3⟩ := h
  have h3' := Rat.mul_le_mul_of_nonneg_right (Rat.natCast_le_natCast.2 h3) (Rat.le_of_lt (two_pos x.2))
  rw [show ((2 ^ 52 : Nat) : Rat) = 4503599627370496 from rfl] at h3'
  unfold valF64 at *
  rw [show (2 : Rat) ^ (52 : Nat) = 4503599627370496 from rfl]
  have := two_pos x.2
  constructor <;> grind

/-- A multiple of `u` with at most 15 digits cannot be so small that half a unit is as large as `u`. -/
theorem unit_small {c : Nat} {u : Rat} (hc : c ≤ 10 ^ 15) (hu : 0 < u) {x : Nat × Int} (h : Near (c * u) x) : (2 : Rat) ^ x.2 < u := by
  obtain ⟨h1, _⟩ := h.pos
  refine Rat.not_le.1 fun hle => ?_
  have hc' : (c : Rat) ≤ 1000000000000000 := Rat.natCast_le_natCast.2 (show c ≤ 1000000000000000 by omega)
  have e1 := Rat.mul_le_mul_of_nonneg_right hc' (Rat.le_of_lt hu)
  have := two_pos x.2
  grind

theorem near_unique {c c' : Nat} {t t' : Int} (hc : c ≤ 10 ^ 15) (ht : t ≤ t') {x : Nat × Int} (h : Near (c * 10 ^ t) x) (h' : Near (c' * 10 ^ t') x) :
    (c : Rat) * 10 ^ t = c' * 10 ^ t' := by
  obtain ⟨n, rfl⟩ : ∃ n : Nat, t' = n + t := ⟨(t' - t).toNat, by omega⟩
  have hs := unit_small hc (ten_pos t) h
  rw [ten_add, Rat.zpow_natCast, ← Rat.mul_assoc, show (10 : Rat) ^ n = ((10 ^ n : Nat) : Rat) by rw [Rat.natCast_pow]; rfl, ← Rat.natCast_mul] at h' ⊢
  generalize c' * 10 ^ n = d at h' ⊢
  obtain ⟨h1, h2, _⟩ := h
  obtain ⟨h3, h4, _⟩ := h'
  have hu := ten_pos t
  generalize (10 : Rat) ^ t = u at *
  generalize valF64 x = w at *
  have key : ∀ a b : Nat, a < b → (b : Rat) * u ≤ a * u + 2 ^ x.2 → False := by
    intro a b hab hle
    have := Rat.natCast_le_natCast.2 (show a + 1 ≤ b from hab)
    rw [Rat.natCast_add] at this
    have := Rat.mul_le_mul_of_nonneg_right this (Rat.le_of_lt hu)
    grind
  rcases Nat.lt_trichotomy c d with hlt | rfl | hlt
  · exact (key c d hlt (by grind)).elim
  · rfl
  · exact (key d c hlt (by grind)).elim

theorem near_unique' {c c' : Nat} {t t' : Int} (hc : c ≤ 10 ^ 15) (hc' : c' ≤ 10 ^ 15) {x : Nat × Int} (h : Near (c * 10 ^ t) x) (h' : Near (c' * 10 ^ t') x) :
    (c : Rat) * 10 ^ t = c' * 10 ^ t' := by
  rcases Int.le_total t t' with ht | ht
  · exact near_unique hc ht h h'
  · exact (near_unique hc' ht h' h).symm

/-! ## Candidates -/

theorem frac_spec {x : Nat × Int} (h : 0 < x.1) : 0 < (fracF64 x).1 ∧ 0 < (fracF64 x).2 ∧ ((fracF64 x).1 : Rat) / (fracF64 x).2 = valF64 x := by
  unfold fracF64 valF64
  dsimp only
  have hp : 0 < x.1 * 2 ^ x.2.toNat := Nat.mul_pos h (Nat.pow_pos (by omega))
  have hq : 0 < 2 ^ (-x.2).toNat := Nat.pow_pos (by omega)
  have hz := zpow_toNat (b := 2) (by omega) x.2
  have hval : ((x.1 * 2 ^ x.2.toNat : Nat) : Rat) / ((2 ^ (-x.2).toNat : Nat) : Rat) = (x.1 : Rat) * 2 ^ x.2 := by
    rw [Rat.natCast_mul, ← hz, ← Rat.mul_assoc]
    have := natCast_pos hq
    exact Rat.mul_div_cancel (by grind)
  generalize x.1 * 2 ^ x.2.toNat = p at *
  generalize 2 ^ (-x.2).toNat = q at *
  have hg : 0 < Nat.gcd p q := Nat.gcd_pos_of_pos_left _ hp
  have d1 := Nat.div_mul_cancel (Nat.gcd_dvd_left p q)
  have d2 := Nat.div_mul_cancel (Nat.gcd_dvd_right p q)
  have p1 : 0 < p / Nat.gcd p q := Nat.div_pos (Nat.gcd_le_left _ hp) hg
  have p2 : 0 < q / Nat.gcd p q := Nat.div_pos (Nat.gcd_le_right _ hq) hg
  refine ⟨p1, p2, ?_⟩
  rw [← hval, div_eq_div p2 hq]
  calc p / Nat.gcd p q * q = p / Nat.gcd p q * (q / Nat.gcd p q * Nat.gcd p q) := by rw [d2]
    _ = (p / Nat.gcd p q * Nat.gcd p q) * (q / Nat.gcd p q) := by ac_rfl
    _ = p * (q / Nat.gcd p q) := by rw [d1]

/-- The candidates are the two decimals around the number. -/
theorem candidates_mem {p q d : Nat} {c : Nat × Int} :
    c ∈ candidates p q d ↔ c.2 = digits10 p q - d ∧
      (c.1 = p * 10 ^ (-(digits10 p q - d)).toNat / (q * 10 ^ (digits10 p q - d).toNat) ∨
       c.1 = (if p * 10 ^ (-(digits10 p q - d)).toNat % (q * 10 ^ (digits10 p q - d).toNat) = 0 then p * 10 ^ (-(digits10 p q - d)).toNat / (q * 10 ^ (digits10 p q - d).toNat)
         else p * 10 ^ (-(digits10 p q - d)).toNat / (q * 10 ^ (digits10 p q - d).toNat) + 1)) := by
  unfold candidates
  dsimp only
  generalize p * 10 ^ (-(digits10 p q - d)).toNat = n
  generalize q * 10 ^ (digits10 p q - d).toNat = m
  generalize (if n % m = 0 then n / m else n / m + 1) = hi
  generalize n / m = lo
  obtain ⟨a, b⟩ := c
  split <;> simp only [List.mem_cons, List.not_mem_nil, or_false, Prod.mk.injEq] <;> constructor
  · rintro (⟨h1, h2⟩ | ⟨h1, h2⟩)
    · exact ⟨h2, .inl h1⟩
    · exact ⟨h2, .inr h1⟩
  · rintro ⟨h2, h1 | h1⟩
    · exact .inl ⟨h1, h2⟩
    · exact .inr ⟨h1, h2⟩
  · rintro (⟨h1, h2⟩ | ⟨h1, h2⟩)
    · exact ⟨h2, .inr h1⟩
    · exact ⟨h2, .inl h1⟩
  · rintro ⟨h2, h1 | h1⟩
    · exact .inr ⟨h1, h2⟩
    · exact .inl ⟨h1, h2⟩

/-- `n·s < p/q` and `p/q < n·s` for a power `s` of ten, without negative exponents. -/
theorem ten_cross {p q n : Nat} (hq : 0 < q) (t : Int) : (n : Rat) * 10 ^ t ≤ (p : Rat) / q ↔ n * (q * 10 ^ t.toNat) ≤ p * 10 ^ (-t).toNat := by
  rw [le_div hq]
  have hz := zpow_toNat (b := 10) (by omega) t
  change (10 : Rat) ^ t * _ = _ at hz
  have hp : (0 : Rat) < ((10 ^ (-t).toNat : Nat) : Rat) := natCast_pos (Nat.pow_pos (by omega))
  rw [← Rat.natCast_le_natCast, Rat.natCast_mul, Rat.natCast_mul, Rat.natCast_mul, ← hz]
  constructor
  · intro h
    have := Rat.mul_le_mul_of_nonneg_right h (Rat.le_of_lt hp)
    grind
  · intro h
    refine Rat.le_of_mul_le_mul_right (c := ((10 ^ (-t).toNat : Nat) : Rat)) ?_ hp
    grind

theorem candidates_bound {p q d : Nat} (hp : 0 < p) (hq : 0 < q) (hd : 1 ≤ d) {c : Nat × Int} (h : c ∈ candidates p q d) : 0 < c.1 ∧ c.1 ≤ 10 ^ d := by
  obtain ⟨_, h⟩ := candidates_mem.1 h
  obtain ⟨h1, h2⟩ := digits10_spec hp hq
  generalize ht : digits10 p q - d = t at h
  have hm : 0 < q * 10 ^ t.toNat := Nat.mul_pos hq (Nat.pow_pos (by omega))
  have hlo : 1 * (q * 10 ^ t.toNat) ≤ p * 10 ^ (-t).toNat := by
    rw [← ten_cross hq]
    have := ten_le (j := t) (k := digits10 p q - 1) (by omega)
    grind
  have hhi : ¬ 10 ^ d * (q * 10 ^ t.toNat) ≤ p * 10 ^ (-t).toNat := by
    rw [← ten_cross hq]
    have e : (10 : Rat) ^ (digits10 p q) = ((10 ^ d : Nat) : Rat) * 10 ^ t := by
      rw [Rat.natCast_pow, ← Rat.zpow_natCast]
      show _ = (10 : Rat) ^ (d : Int) * _
      rw [← ten_add]; congr 1; omega
    rw [← e]
    grind
  generalize p * 10 ^ (-t).toNat = n at *
  generalize q * 10 ^ t.toNat = m at *
  have l1 : 1 ≤ n / m := (Nat.le_div_iff_mul_le hm).2 hlo
  have l2 : n / m < 10 ^ d := (Nat.div_lt_iff_lt_mul hm).2 (by omega)
  rcases h with h | h
  · omega
  · split at h <;> omega

/-- The decimal of at most 15 digits near a float64 is a candidate. -/
theorem candidate_found {c : Nat} {t : Int} (hc : c < 10 ^ 15) {x : Nat × Int} (h : Near (c * 10 ^ t) x) {p q : Nat} (hp : 0 < p) (hq : 0 < q) (hx : (p : Rat) / q = valF64 x) :
    ∃ e ∈ candidates p q 15, (e.1 : Rat) * 10 ^ e.2 = c * 10 ^ t := by
  obtain ⟨h1, h2⟩ := digits10_spec hp hq
  rw [hx] at h1 h2
  have hs := unit_small (by omega) (ten_pos t) h
  have h15 : (10 : Rat) ^ (15 : Int) = 1000000000000000 := by decide
  have ht : digits10 p q - 15 ≤ t := by
    refine Classical.byContradiction fun hn => ?_
    have hle := ten_le (j := 15 + t) (k := digits10 p q - 1) (by omega)
    rw [ten_add, h15] at hle
    have hc' : (c : Rat) + 1 ≤ 1000000000000000 := by
      have := Rat.natCast_le_natCast.2 (show c + 1 ≤ 1000000000000000 by omega)
      rw [Rat.natCast_add] at this
      exact this
    have e1 := Rat.mul_le_mul_of_nonneg_right hc' (Rat.le_of_lt (ten_pos t))
    have := h.above
    have := two_pos x.2
    have := ten_pos t
    grind
  obtain ⟨n, hn⟩ : ∃ n : Nat, t = n + (digits10 p q - 15) := ⟨(t - (digits10 p q - 15)).toNat, by omega⟩
  have hval : ((c * 10 ^ n : Nat) : Rat) * 10 ^ (digits10 p q - 15) = c * 10 ^ t := by
    rw [hn, ten_add, Rat.natCast_mul, Rat.natCast_pow, Rat.zpow_natCast, Rat.mul_assoc]
    rfl
  refine ⟨(c * 10 ^ n, digits10 p q - 15), candidates_mem.2 ⟨rfl, ?_⟩, hval⟩
  rw [← hval] at h
  dsimp only
  have e15 : (10 : Rat) ^ (digits10 p q) = 1000000000000000 * 10 ^ (digits10 p q - 15) := by
    rw [← h15, ← ten_add]; congr 1; omega
  rw [e15] at h2
  show _ = p * 10 ^ (-(digits10 p q - 15)).toNat / (q * 10 ^ (digits10 p q - 15).toNat) ∨ _ = (if p * 10 ^ (-(digits10 p q - 15)).toNat % (q * 10 ^ (digits10 p q - 15).toNat) = 0 then p * 10 ^ (-(digits10 p q - 15)).toNat / (q * 10 ^ (digits10 p q - 15).toNat)
         else p * 10 ^ (-(digits10 p q - 15)).toNat / (q * 10 ^ (digits10 p q - 15).toNat) + 1)
  generalize digits10 p q - 15 = s at *
  generalize c * 10 ^ n = V at *
  have hpos := h.pos.2
  have ha := h.above
  have hb := h.below
  have hten := ten_pos s
  have htwo := two_pos x.2
  rw [show (2 : Rat) ^ (52 : Nat) = 4503599627370496 from rfl] at hpos
  have g1 : ¬ (V + 1) * (q * 10 ^ s.toNat) ≤ p * 10 ^ (-s).toNat := by
    rw [← ten_cross hq, hx, Rat.natCast_add]
    grind
  have g2 : (V - 1) * (q * 10 ^ s.toNat) < p * 10 ^ (-s).toNat ∨ V = 0 := by
    by_cases h0 : V = 0
    · exact .inr h0
    · refine .inl (Classical.byContradiction fun hn => ?_)
      have hn : p * 10 ^ (-s).toNat ≤ (V - 1) * (q * 10 ^ s.toNat) := by omega
      have hle : (p : Rat) / q ≤ ((V - 1 : Nat) : Rat) * 10 ^ s := by
        rw [div_le hq]
        have hz := zpow_toNat (b := 10) (by omega) s
        change (10 : Rat) ^ s * _ = _ at hz
        have hp : (0 : Rat) < ((10 ^ (-s).toNat : Nat) : Rat) := natCast_pos (Nat.pow_pos (by omega))
        refine Rat.le_of_mul_le_mul_right (c := ((10 ^ (-s).toNat : Nat) : Rat)) ?_ hp
        have := Rat.natCast_le_natCast.2 hn
        rw [Rat.natCast_mul, Rat.natCast_mul, Rat.natCast_mul, ← hz] at this
        grind
      have e : (V : Rat) = ((V - 1 : Nat) : Rat) + 1 := by
        have := Rat.natCast_add (V - 1) 1
        rw [Nat.sub_add_cancel (by omega)] at this
        exact this
      rw [hx] at hle
      rw [e] at ha hb
      grind
  have hm : 0 < q * 10 ^ s.toNat := Nat.mul_pos hq (Nat.pow_pos (by omega))
  generalize p * 10 ^ (-s).toNat = a at *
  generalize q * 10 ^ s.toNat = b at *
  have l1 : a / b < V + 1 := (Nat.div_lt_iff_lt_mul hm).2 (by omega)
  have hdm := Nat.div_add_mod a b
  have hmod := Nat.mod_lt a hm
  have ldiv : ∀ w, w * b ≤ a → w ≤ a / b := fun w hw => (Nat.le_div_iff_mul_le hm).2 hw
  generalize a / b = w at *
  generalize a % b = r at *
  split
  · next h0 =>
    refine .inl ?_
    rcases g2 with g2 | g2
    · refine Nat.le_antisymm ?_ (by omega)
      have : V - 1 < w := by
        refine Classical.byContradiction fun hn => ?_
        have := Nat.mul_le_mul_left b (show w ≤ V - 1 by omega)
        rw [Nat.mul_comm] at g2
        omega
      omega
    · omega
  · rcases g2 with g2 | g2
    · have := ldiv _ (Nat.le_of_lt g2)
      omega
    · omega

/-! ## Literals -/

/-- A sign. -/
def sgn (neg : Bool) (v : Rat) : Rat := if neg then -v else v

theorem point_fraction {f fd : Bytes} (h : PointText f fd) : Fraction f ∧ f.drop 1 = fd := by
  cases h with
  | none => exact ⟨.inl rfl, rfl⟩
  | some h => exact ⟨.inr ⟨_, h, rfl⟩, rfl⟩

theorem digits_head_digit {ds : Bytes} (h : Digits ds) : ∃ d r, ds = d :: r ∧ isDigit d = true := by
  obtain ⟨hne, hds⟩ := h
  cases ds with
  | nil => exact absurd rfl hne
  | cons d r => exact ⟨d, r, rfl, hds d (by simp)⟩

theorem exp_exponent {e : Bytes} {x : Int} (h : ExpText e x) : Exponent e ∧ expVal e = x := by
  cases h with
  | none => exact ⟨.inl rfl, rfl⟩
  | @plain c ds hc hd =>
    refine ⟨.inr ⟨c, [], ds, hc, .inl rfl, hd, rfl⟩, ?_⟩
    obtain ⟨d, r, rfl, hdig⟩ := digits_head_digit hd
    obtain ⟨_, _, _, h1, h2⟩ := isDigit_ne hdig
    unfold expVal
    split
    · next heq => simp only [List.cons.injEq] at heq; exact absurd heq.2.1 h2
    · next heq => simp only [List.cons.injEq] at heq; exact absurd heq.2.1 h1
    · next heq => simp only [List.cons.injEq] at heq; rw [← heq.2, digitsVal_eq]
    · next heq => cases heq
  | @plus c ds hc hd =>
    refine ⟨.inr ⟨c, [43], ds, hc, .inr (.inl rfl), hd, rfl⟩, ?_⟩
    show ((digitsVal ds : Nat) : Int) = _
    rw [digitsVal_eq]
  | @minus c ds hc hd =>
    refine ⟨.inr ⟨c, [45], ds, hc, .inr (.inr rfl), hd, rfl⟩, ?_⟩
    show -((digitsVal ds : Nat) : Int) = _
    rw [digitsVal_eq]

theorem exponent_head {e : Bytes} (h : Exponent e) : ∀ c ∈ e.head?, isDigit c = false ∧ c ≠ 46 := by
  rcases h with rfl | ⟨c, sign, es, hc, hs, _, rfl⟩
  · intro c hc; cases hc
  · intro c' hc'
    simp at hc'
    subst hc'
    rcases hc with rfl | rfl <;> decide

theorem unsigned_denotes {s : Bytes} {v : Rat} (h : UnsignedIs s v) :
    (∃ c t, decimal s = some (c, t) ∧ v = (c : Rat) * 10 ^ t) ∧ number s = some (.frac s, []) ∧ number (45 :: s) = some (.frac (45 :: s), []) ∧ s.head? ≠ some 45 := by
  cases h with
  | @mk ds f fd e x h1 h2 h3 hne =>
    obtain ⟨hf, hfd⟩ := point_fraction h2
    obtain ⟨he, hx⟩ := exp_exponent h3
    have hu := unsigned_parsed h1 hf he (rest := []) (by intro c hc; cases hc)
    rw [List.append_nil] at hu
    obtain ⟨d, r, hds, hdig⟩ := digits_head_digit h1.1
    obtain ⟨_, _, _, _, h45⟩ := isDigit_ne hdig
    have hhead : (ds ++ f ++ e).head? ≠ some 45 := by
      rw [hds]
      simpa using h45
    have hcons : ∃ a b, f ++ e = a :: b := by
      cases hfe : f ++ e with
      | nil =>
        rw [List.append_eq_nil_iff] at hfe
        rcases hne with h | h
        · exact absurd hfe.1 h
        · exact absurd hfe.2 h
      | cons a b => exact ⟨a, b, rfl⟩
    obtain ⟨a, b, hab⟩ := hcons
    refine ⟨⟨_, _, ?_, rfl⟩, ?_, ?_, hhead⟩
    · unfold decimal
      rw [hu]
      dsimp only
      rw [fraction_parsed hf (exponent_head he)]
      dsimp only
      rw [hfd, hx, digitsVal_eq]
    · unfold number
      split
      · next heq => rw [heq] at hhead; exact absurd rfl hhead
      · rw [hu, hab]
        dsimp only
        rw [← hab, List.append_assoc]
    · show (match unsigned (ds ++ f ++ e) with
        | none => none
        | some (ds, [], r') => some (if ds = [48] then Json.frac [45, 48] else Json.num (-(digitsVal ds : Int)), r')
        | some (ds, l, r') => some (Json.frac (45 :: ds ++ l), r')) = _
      rw [hu, hab]
      dsimp only
      rw [← hab, List.cons_append, List.append_assoc]

/-- Literals are read as what they stand for. -/
theorem literal_denotes {l : NumLit} {v : Rat} (h : Denotes l v) : ∃ neg c t, literal l = some (neg, c, t) ∧ v = sgn neg ((c : Rat) * 10 ^ t) := by
  cases h with
  | int n =>
    refine ⟨_, _, _, rfl, ?_⟩
    have h10 : (10 : Rat) ^ (0 : Int) = 1 := by decide
    rw [h10, Rat.mul_one]
    have e : ∀ m : Nat, (m : Rat) = ((m : Int) : Rat) := fun m => (Rat.intCast_natCast m).symm
    unfold sgn
    by_cases hn : n < 0
    · rw [decide_eq_true hn, if_pos rfl, e, ← Rat.intCast_neg]
      congr 1
      omega
    · rw [decide_eq_false hn, if_neg (by simp), e]
      congr 1
      omega
  | @pos s v h =>
    obtain ⟨⟨c, t, h1, h2⟩, h3, _, h5⟩ := unsigned_denotes h
    refine ⟨false, c, t, ?_, h2⟩
    unfold literal
    dsimp only
    rw [h3]
    dsimp only
    rw [if_neg (by simp), if_neg h5, h1]
    rfl
  | @neg s v h =>
    obtain ⟨⟨c, t, h1, h2⟩, _, h4, _⟩ := unsigned_denotes h
    refine ⟨true, c, t, ?_, by rw [h2]; rfl⟩
    unfold literal
    dsimp only
    rw [h4]
    dsimp only
    rw [if_neg (by simp), if_pos (by simp)]
    show (decimal s).map _ = _
    rw [h1]
    rfl
  | negZero => exact ⟨true, 0, 0, by decide, by decide +kernel⟩

/-! ## Printing -/

theorem denotes_signed {s : Bytes} {v : Rat} (neg : Bool) (h : UnsignedIs s v) : Denotes (.inr ((if neg then [45] else []) ++ s)) (sgn neg v) := by
  cases neg
  · exact .pos h
  · exact .neg h

theorem pow_ten_nat (n : Nat) : ((10 ^ n : Nat) : Rat) = 10 ^ (n : Int) := by
  rw [Rat.natCast_pow, Rat.zpow_natCast]
  rfl

theorem number_format (c : Nat) : digitsNumber (formatNat 10 c) = c := by rw [← digitsVal_eq, digitsVal_format]

theorem format_length (c : Nat) : (formatNat 10 c).length = (digits 10 c).length := by simp [formatNat]

theorem format_digits (c : Nat) : Digits (formatNat 10 c) := (formatNat_int c).1

theorem exp_unsigned {c : Nat} (hc : 0 < c) (t : Int) : UnsignedIs (expLit c t) ((c : Rat) * 10 ^ t) := by
  have hint := formatNat_int c
  have hval := number_format c
  unfold expLit
  dsimp only
  generalize formatNat 10 c = ds at hint hval ⊢
  obtain ⟨d, r, rfl, hdig⟩ := digits_head_digit hint.1
  have hd0 : d ≠ 48 := by
    rintro rfl
    have := hint.2 rfl
    rw [this] at hval
    simp [digitsNumber] at hval
    omega
  have h1 : IntDigits [d] := ⟨⟨by simp, by simpa using hdig⟩, by simp⟩
  have hexp : ∀ e : Int, ExpText (101 :: (if e < 0 then 45 else 43) :: formatNat 10 e.natAbs) e := by
    intro e
    split
    · have := ExpText.minus (c := 101) (.inl rfl) (format_digits e.natAbs)
      rw [number_format] at this
      rwa [show -((e.natAbs : Nat) : Int) = e by omega] at this
    · have := ExpText.plus (c := 101) (.inl rfl) (format_digits e.natAbs)
      rw [number_format] at this
      rwa [show ((e.natAbs : Nat) : Int) = e by omega] at this
  have hrest : PointText (if (d :: r).length ≤ 1 then [] else 46 :: (d :: r).drop 1) r := by
    cases r with
    | nil => exact .none
    | cons a b => exact .some ⟨by simp, fun x hx => hint.1.2 x (List.mem_cons_of_mem _ hx)⟩
  have := UnsignedIs.mk h1 hrest (hexp (t + (d :: r).length - 1)) (.inr (by simp))
  rw [show [d] ++ r = d :: r from rfl, hval] at this
  rw [show t + ((d :: r).length : Int) - 1 - (r.length : Int) = t by simp only [List.length_cons]; omega] at this
  exact this

theorem zeros_number (k : Nat) (ds : Bytes) : digitsNumber (List.replicate k 48 ++ ds) = digitsNumber ds := by
  rw [← digitsVal_eq, ← digitsVal_eq, digitsVal_append, digitsVal_zeros]
  omega

theorem point_unsigned {c : Nat} (hc : 0 < c) {t : Int} (ht : t < 0) : UnsignedIs (pointLit c t) ((c : Rat) * 10 ^ t) := by
  have hint := formatNat_int c
  have hval := number_format c
  unfold pointLit
  dsimp only
  generalize formatNat 10 c = ds at hint hval ⊢
  split
  · next hw =>
    have hsplit := List.take_append_drop (ds.length - (-t).toNat) ds
    have hl : (ds.drop (ds.length - (-t).toNat)).length = (-t).toNat := by rw [List.length_drop]; omega
    have hlt : (ds.take (ds.length - (-t).toNat)).length = ds.length - (-t).toNat := by rw [List.length_take]; omega
    have h1 : IntDigits (ds.take (ds.length - (-t).toNat)) := by
      refine ⟨⟨?_, fun x hx => hint.1.2 x (List.mem_of_mem_take hx)⟩, ?_⟩
      · intro h; rw [h] at hlt; simp at hlt; omega
      · intro h
        have : ds.head? = some 48 := by
          rw [← hsplit]
          cases hh : ds.take (ds.length - (-t).toNat) with
          | nil => rw [hh] at h; cases h
          | cons a b => rw [hh] at h; simpa using h
        have := hint.2 this
        rw [this] at hval
        simp [digitsNumber] at hval
        omega
    have h2 : PointText (46 :: ds.drop (ds.length - (-t).toNat)) (ds.drop (ds.length - (-t).toNat)) := by
      refine .some ⟨?_, fun x hx => hint.1.2 x (List.mem_of_mem_drop hx)⟩
      intro h; rw [h] at hl; simp at hl; omega
    have := UnsignedIs.mk h1 h2 .none (.inl (by simp))
    rw [hsplit, hval, hl, List.append_nil, show (0 : Int) - ((-t).toNat : Int) = t by omega] at this
    exact this
  · next hw =>
    have h1 : IntDigits [48] := ⟨⟨by simp, by decide⟩, by simp⟩
    have hl : (List.replicate ((-t).toNat - ds.length) 48 ++ ds).length = (-t).toNat := by
      rw [List.length_append, List.length_replicate]; omega
    have h2 : PointText (46 :: (List.replicate ((-t).toNat - ds.length) 48 ++ ds)) (List.replicate ((-t).toNat - ds.length) 48 ++ ds) := by
      refine .some ⟨?_, ?_⟩
      · intro h; rw [h] at hl; simp at hl; omega
      · intro x hx
        rcases List.mem_append.1 hx with hx | hx
        · rw [List.eq_of_mem_replicate hx]; decide
        · exact hint.1.2 x hx
    have := UnsignedIs.mk h1 h2 .none (.inl (by simp))
    rw [show [48] ++ (List.replicate ((-t).toNat - ds.length) 48 ++ ds) = List.replicate ((-t).toNat - ds.length + 1) 48 ++ ds by
      rw [List.replicate_succ]; rfl, zeros_number, hval, hl, List.append_nil, show (0 : Int) - ((-t).toNat : Int) = t by omega] at this
    simpa using this

/-- What is printed stands for the number. -/
theorem print_denotes {neg : Bool} {c : Nat} (hc : 0 < c) (t : Int) : Denotes (printF64 neg c t) (sgn neg ((c : Rat) * 10 ^ t)) := by
  obtain ⟨h1, h2⟩ := strip_spec (digits 10 c).length c t
  unfold printF64
  dsimp only
  generalize strip (digits 10 c).length c t = s at h1 h2 ⊢
  have hpos : 0 < s.1 := by
    refine Nat.pos_of_ne_zero fun hz => ?_
    rw [hz] at h2; omega
  have hval : (s.1 : Rat) * 10 ^ s.2 = (c : Rat) * 10 ^ t := by
    rw [← h2, Rat.natCast_mul, pow_ten_nat, Rat.mul_assoc, ← ten_add]
    congr 2
    omega
  rw [← hval]
  split
  · exact denotes_signed neg (exp_unsigned hpos s.2)
  · split
    · next h0 =>
      have hv : (s.1 : Rat) * 10 ^ s.2 = ((s.1 * 10 ^ s.2.toNat : Nat) : Rat) := by
        rw [Rat.natCast_mul, pow_ten_nat]
        congr 2
        omega
      rw [hv]
      generalize s.1 * 10 ^ s.2.toNat = n
      have h := Denotes.int (if neg then -(n : Int) else n)
      cases neg
      · exact h
      · have e : ((-(n : Int) : Int) : Rat) = -(n : Rat) := by rw [Rat.intCast_neg, Rat.intCast_natCast]
        have h : Denotes (.inl (-(n : Int))) ((-(n : Int) : Int) : Rat) := h
        rw [e] at h
        exact h
    · next h0 => exact denotes_signed neg (point_unsigned hpos (by omega))

/-! ## Reading and printing -/

theorem sgn_inj {neg neg' : Bool} {a b : Rat} (ha : 0 < a) (hb : 0 ≤ b) (h : sgn neg a = sgn neg' b) : neg = neg' ∧ a = b := by
  cases neg <;> cases neg' <;> simp only [sgn, Bool.false_eq_true, if_true, if_false] at h
  · exact ⟨rfl, h⟩
  · grind
  · grind
  · exact ⟨rfl, by grind⟩

theorem dec_value (c : Nat) (t : Int) : ((decNum c t : Nat) : Rat) / ((decDen t : Nat) : Rat) = (c : Rat) * 10 ^ t := by
  unfold decNum decDen
  have hz := zpow_toNat (b := 10) (by omega) t
  change (10 : Rat) ^ t * _ = _ at hz
  rw [Rat.natCast_mul, ← hz, ← Rat.mul_assoc]
  have : (0 : Rat) < ((10 ^ (-t).toNat : Nat) : Rat) := natCast_pos (Nat.pow_pos (by omega))
  exact Rat.mul_div_cancel (by grind)

theorem natCast_nonneg (c : Nat) : (0 : Rat) ≤ c := by
  have := Rat.natCast_le_natCast.2 (Nat.zero_le c)
  grind

/-- A literal other than zero is rounded. -/
theorem read_denotes {l : NumLit} {neg : Bool} {a : Rat} (h : Denotes l (sgn neg a)) (ha : 0 < a) :
    ∃ p q : Nat, 0 < p ∧ 0 < q ∧ (p : Rat) / q = a ∧ readF64 l = (roundF64 p q).map (fun x => (neg, x)) := by
  obtain ⟨neg', c, t, h1, h2⟩ := literal_denotes h
  have hge : (0 : Rat) ≤ (c : Rat) * 10 ^ t := by
    have := Rat.mul_le_mul_of_nonneg_right (natCast_nonneg c) (Rat.le_of_lt (ten_pos t))
    grind
  obtain ⟨rfl, rfl⟩ := sgn_inj ha hge h2
  have hc : c ≠ 0 := by
    rintro rfl
    rw [show ((0 : Nat) : Rat) = 0 from rfl, Rat.zero_mul] at ha
    exact Rat.lt_irrefl ha
  refine ⟨decNum c t, decDen t, Nat.mul_pos (by omega) (Nat.pow_pos (by omega)), Nat.pow_pos (by omega), dec_value c t, ?_⟩
  unfold readF64
  rw [h1]
  dsimp only
  rw [if_neg hc]

theorem texts_mem {neg : Bool} {x : Nat × Int} {s : NumLit} (h : s ∈ texts neg x) : ∃ d e, d < 17 ∧ e ∈ candidates (fracF64 x).1 (fracF64 x).2 (d + 1) ∧ s = printF64 neg e.1 e.2 := by
  unfold texts at h
  obtain ⟨d, hd, h⟩ := List.mem_flatMap.1 h
  obtain ⟨e, he, rfl⟩ := List.mem_map.1 h
  exact ⟨d, e, List.mem_range.1 hd, he, rfl⟩

/-- The text that is printed for a float64 stands for a number near it. -/
theorem printed_near {neg : Bool} {x : Nat × Int} {s : NumLit} (hf : 2 ^ 52 ≤ x.1) {d : Nat} {e : Nat × Int} (he : e ∈ candidates (fracF64 x).1 (fracF64 x).2 (d + 1))
    (hs : s = printF64 neg e.1 e.2) (hr : readF64 s = some (neg, x)) :
    0 < e.1 ∧ e.1 ≤ 10 ^ (d + 1) ∧ Denotes s (sgn neg ((e.1 : Rat) * 10 ^ e.2)) ∧ Near ((e.1 : Rat) * 10 ^ e.2) x := by
  obtain ⟨f1, f2, _⟩ := frac_spec (x := x) (by omega)
  obtain ⟨h1, h2⟩ := candidates_bound f1 f2 (by omega) he
  have hd := print_denotes (neg := neg) h1 e.2
  rw [← hs] at hd
  have hpos : (0 : Rat) < (e.1 : Rat) * 10 ^ e.2 := (Rat.mul_pos_iff_of_pos_left (natCast_pos h1)).2 (ten_pos _)
  obtain ⟨p, q, _, hq, hv, hrd⟩ := read_denotes hd hpos
  rw [hr] at hrd
  refine ⟨h1, h2, hd, ?_⟩
  rw [← hv]
  refine round_near hq ?_ hf
  cases hx : roundF64 p q with
  | none => rw [hx] at hrd; cases hrd
  | some y =>
    rw [hx] at hrd
    exact congrArg some (Prod.mk.inj (Option.some.inj hrd)).2.symm

/-- A decimal of at most 15 digits near a float64 is what is printed for it. -/
theorem shortest_short {neg : Bool} {c : Nat} {t : Int} (hc0 : 0 < c) (hc : c < 10 ^ 15) {p q : Nat} (hp : 0 < p) (hq : 0 < q) (hv : (p : Rat) / q = (c : Rat) * 10 ^ t) {x : Nat × Int}
    (hx : roundF64 p q = some x) (hf : 2 ^ 52 ≤ x.1) : ∃ s, shortest neg x = some s ∧ Denotes s (sgn neg ((c : Rat) * 10 ^ t)) := by
  have hnear := round_near hq hx hf
  rw [hv] at hnear
  obtain ⟨f1, f2, f3⟩ := frac_spec (x := x) (by omega)
  obtain ⟨e, he, hval⟩ := candidate_found hc hnear f1 f2 f3
  have hpos : (0 : Rat) < (c : Rat) * 10 ^ t := (Rat.mul_pos_iff_of_pos_left (natCast_pos hc0)).2 (ten_pos _)
  have he0 := (candidates_bound f1 f2 (by omega) he).1
  have hd := print_denotes (neg := neg) he0 e.2
  rw [hval] at hd
  have hread : readF64 (printF64 neg e.1 e.2) = some (neg, x) := by
    obtain ⟨p', q', hp', hq', hv', hr⟩ := read_denotes hd hpos
    rw [hr, round_cross hp' hq' hp hq (by rw [hv', hv]), hx]
    rfl
  have hsplit : texts neg x = (List.range 15).flatMap (fun d => (candidates (fracF64 x).1 (fracF64 x).2 (d + 1)).map (fun c => printF64 neg c.1 c.2)) ++
      [15, 16].flatMap (fun d => (candidates (fracF64 x).1 (fracF64 x).2 (d + 1)).map (fun c => printF64 neg c.1 c.2)) := by
    unfold texts
    rw [← List.flatMap_append]
    rfl
  have hmem : printF64 neg e.1 e.2 ∈ (List.range 15).flatMap (fun d => (candidates (fracF64 x).1 (fracF64 x).2 (d + 1)).map (fun c => printF64 neg c.1 c.2)) :=
    List.mem_flatMap.2 ⟨14, by simp, List.mem_map.2 ⟨e, he, rfl⟩⟩
  unfold shortest
  rw [hsplit, List.find?_append]
  cases hfind : ((List.range 15).flatMap (fun d => (candidates (fracF64 x).1 (fracF64 x).2 (d + 1)).map (fun c => printF64 neg c.1 c.2))).find? (fun s => decide (readF64 s = some (neg, x))) with
  | none => exact absurd hread (by simpa using List.find?_eq_none.1 hfind _ hmem)
  | some s =>
    refine ⟨s, rfl, ?_⟩
    have hs : readF64 s = some (neg, x) := by simpa using List.find?_some hfind
    obtain ⟨d, hd, hm⟩ := List.mem_flatMap.1 (List.mem_of_find?_eq_some hfind)
    obtain ⟨e', he', hse⟩ := List.mem_map.1 hm
    obtain ⟨_, hb, hden, hn⟩ := printed_near hf he' hse.symm hs
    have hd : d < 15 := List.mem_range.1 hd
    have h15 : 10 ^ (d + 1) ≤ 10 ^ 15 := Nat.pow_le_pow_right (by omega) (by omega)
    rw [near_unique' (c := c) (t := t) (by omega) (Nat.le_trans hb h15) hnear hn]
    exact hden

theorem tiny : (2 : Rat) ^ (-1022 : Int) ≤ (10 : Rat) ^ (-307 : Int) := by decide +kernel
theorem huge : (10 : Rat) ^ (307 : Int) < (2 : Rat) ^ (1023 : Int) := by decide +kernel

theorem sgn_zero (neg : Bool) : sgn neg 0 = 0 := by cases neg <;> rfl

/-- Decimals of at most 15 digits keep their value. -/
theorem anyNumber_short {l : NumLit} {v : Rat} (h : Denotes l v) (hs : Short v) : ∃ l', anyNumber l = some l' ∧ Denotes l' v := by
  obtain ⟨neg, c0, t0, h1, h2⟩ := literal_denotes h
  by_cases hc0 : c0 = 0
  · subst hc0
    refine ⟨if neg then .inr b!"-0" else .inl 0, ?_, ?_⟩
    · unfold anyNumber readF64
      rw [h1]
      rfl
    · rw [show ((0 : Nat) : Rat) = 0 from rfl, Rat.zero_mul, sgn_zero] at h2
      rw [h2]
      cases neg
      · exact .int 0
      · exact .negZero
  · have hpos : (0 : Rat) < (c0 : Rat) * 10 ^ t0 := (Rat.mul_pos_iff_of_pos_left (natCast_pos (by omega))).2 (ten_pos _)
    obtain ⟨c, t, hc, ht1, ht2, hv⟩ := hs
    have hge : (0 : Rat) ≤ (c : Rat) * 10 ^ t := by
      have := Rat.mul_le_mul_of_nonneg_right (natCast_nonneg c) (Rat.le_of_lt (ten_pos t))
      grind
    have hval : (c0 : Rat) * 10 ^ t0 = (c : Rat) * 10 ^ t := by
      rcases hv with hv | hv
      · exact (sgn_inj (neg := neg) (neg' := false) hpos hge (by rw [← h2, hv]; rfl)).2
      · exact (sgn_inj (neg := neg) (neg' := true) hpos hge (by rw [← h2, hv]; rfl)).2
    have hc1 : 0 < c := by
      refine Nat.pos_of_ne_zero fun hz => ?_
      rw [hval, hz, show ((0 : Nat) : Rat) = 0 from rfl, Rat.zero_mul] at hpos
      exact Rat.lt_irrefl hpos
    rw [h2] at h ⊢
    obtain ⟨p, q, hp, hq, hpq, hr⟩ := read_denotes h hpos
    rw [hval] at hpq ⊢
    have hlow : (2 : Rat) ^ (-1022 : Int) ≤ (p : Rat) / q := by
      rw [hpq]
      have e1 := ten_le (j := -307) (k := t) ht1
      have e2 := Rat.mul_le_mul_of_nonneg_right (show (1 : Rat) ≤ c from Rat.natCast_le_natCast.2 hc1) (Rat.le_of_lt (ten_pos t))
      have := tiny
      grind
    have hhigh : (p : Rat) / q < (2 : Rat) ^ (1023 : Int) := by
      rw [hpq]
      have e1 := ten_le (j := 15 + t) (k := 307) (by omega)
      rw [ten_add] at e1
      have hc' : (c : Rat) < (10 : Rat) ^ (15 : Int) := Rat.natCast_lt_natCast.2 hc
      have e2 := Rat.mul_lt_mul_of_pos_right hc' (ten_pos t)
      have := huge
      grind
    obtain ⟨x, hx⟩ := round_some hp hq hhigh
    have hf := round_full hp hq hx hlow
    obtain ⟨s, hs1, hs2⟩ := shortest_short (neg := neg) hc1 hc hp hq hpq hx hf
    refine ⟨s, ?_, hs2⟩
    unfold anyNumber
    rw [hr, hx]
    dsimp only [Option.map]
    rw [if_neg (by omega), hs1]
    rfl

/-- Other numbers are changed very little. -/
theorem anyNumber_close {l l' : NumLit} {v : Rat} (h : Denotes l v) (hv : (2 : Rat) ^ (-1022 : Int) ≤ v ∨ v ≤ -(2 : Rat) ^ (-1022 : Int)) (ha : anyNumber l = some l') :
    ∃ v', Denotes l' v' ∧ (2 ^ 51 : Nat) * (v' - v) ≤ (if v < 0 then -v else v) ∧ (2 ^ 51 : Nat) * (v - v') ≤ (if v < 0 then -v else v) := by
  obtain ⟨neg, c0, t0, h1, h2⟩ := literal_denotes h
  have htwo := two_pos (-1022)
  have hge : (0 : Rat) ≤ (c0 : Rat) * 10 ^ t0 := by
    have := Rat.mul_le_mul_of_nonneg_right (natCast_nonneg c0) (Rat.le_of_lt (ten_pos t0))
    grind
  generalize (c0 : Rat) * 10 ^ t0 = a at h2 hge
  have hlow : (2 : Rat) ^ (-1022 : Int) ≤ a := by
    rw [h2] at hv
    cases neg <;> simp only [sgn, Bool.false_eq_true, if_true, if_false] at hv <;> grind
  have hpos : 0 < a := by grind
  have habs : (if v < 0 then -v else v) = a := by
    rw [h2]
    cases neg <;> simp only [sgn, Bool.false_eq_true, if_true, if_false] <;> grind
  rw [habs]
  rw [h2] at h
  obtain ⟨p, q, hp, hq, hpq, hr⟩ := read_denotes h hpos
  rw [← hpq] at hlow
  unfold anyNumber at ha
  rw [hr] at ha
  cases hx : roundF64 p q with
  | none => rw [hx] at ha; cases ha
  | some x =>
    rw [hx] at ha
    dsimp only [Option.map] at ha
    have hf := round_full hp hq hx hlow
    rw [if_neg (by omega)] at ha
    cases hsh : shortest neg x with
    | none =>
      rw [hsh] at ha
      cases Option.some.inj ha
      refine ⟨v, by rw [h2]; exact h, ?_, ?_⟩ <;> grind
    | some s =>
      rw [hsh] at ha
      cases Option.some.inj ha
      obtain ⟨d, e, _, he, hse⟩ := texts_mem (List.mem_of_find?_eq_some hsh)
      obtain ⟨_, _, hden, hn⟩ := printed_near hf he hse (shortest_read hsh)
      refine ⟨_, hden, ?_⟩
      have hn0 := round_near hq hx hf
      rw [hpq] at hn0
      generalize (e.1 : Rat) * 10 ^ e.2 = b at *
      have b1 := hn0.pos.1
      have a1 := hn0.above
      have a2 := hn0.below
      have a3 := hn.above
      have a4 := hn.below
      have hx0 := two_pos x.2
      rw [show ((2 ^ 51 : Nat) : Rat) = 2251799813685248 from rfl, h2]
      cases neg <;> simp only [sgn, Bool.false_eq_true, if_true, if_false] <;> constructor <;> grind

end Tuf.Std
