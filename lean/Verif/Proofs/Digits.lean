import Verif.Proofs.Hex

/-! Positional notation: digits, padded hex, parsing. -/

namespace Tuf

/-- The value of a digit list, most significant first. -/
def ofDigits (b : Nat) (l : List Nat) : Nat := l.foldl (fun acc d => acc * b + d) 0

theorem foldl_digits (b : Nat) (l : List Nat) (acc : Nat) :
    l.foldl (fun acc d => acc * b + d) acc = acc * b ^ l.length + ofDigits b l := by
  unfold ofDigits
  induction l generalizing acc with
  | nil => simp
  | cons d r ih =>
    simp only [List.foldl_cons, List.length_cons]
    rw [ih (acc * b + d), ih (0 * b + d)]
    simp only [Nat.zero_mul, Nat.zero_add, Nat.add_mul, Nat.pow_succ]
    rw [Nat.mul_assoc, Nat.mul_comm b (b ^ r.length), Nat.add_assoc]

theorem ofDigits_cons (b d : Nat) (l : List Nat) : ofDigits b (d :: l) = d * b ^ l.length + ofDigits b l := by
  conv => lhs; unfold ofDigits
  rw [List.foldl_cons, foldl_digits]
  simp

theorem ofDigits_append (b : Nat) (l r : List Nat) : ofDigits b (l ++ r) = ofDigits b l * b ^ r.length + ofDigits b r := by
  conv => lhs; unfold ofDigits
  rw [List.foldl_append, foldl_digits]
  rfl

theorem ofDigits_lt {b : Nat} {l : List Nat} (h : ∀ d ∈ l, d < b) : ofDigits b l < b ^ l.length := by
  induction l with
  | nil => simp [ofDigits]
  | cons d r ih =>
    rw [ofDigits_cons, List.length_cons, Nat.pow_succ]
    have h1 := ih (fun x hx => h x (List.mem_cons_of_mem _ hx))
    have h2 : d + 1 ≤ b := h d (by simp)
    calc d * b ^ r.length + ofDigits b r < d * b ^ r.length + b ^ r.length := by omega
      _ = (d + 1) * b ^ r.length := by rw [Nat.add_mul, Nat.one_mul]
      _ ≤ b * b ^ r.length := Nat.mul_le_mul_right _ h2
      _ = b ^ r.length * b := Nat.mul_comm _ _

theorem ofDigits_inj {b : Nat} {l r : List Nat} (hl : ∀ d ∈ l, d < b) (hr : ∀ d ∈ r, d < b) (hlen : l.length = r.length)
    (h : ofDigits b l = ofDigits b r) : l = r := by
  induction l generalizing r with
  | nil => cases r with
    | nil => rfl
    | cons => simp at hlen
  | cons d l ih =>
    cases r with
    | nil => simp at hlen
    | cons e r =>
      simp only [List.length_cons, Nat.add_right_cancel_iff] at hlen
      rw [ofDigits_cons, ofDigits_cons, hlen] at h
      have h1 := ofDigits_lt (fun x hx => hl x (List.mem_cons_of_mem _ hx))
      have h2 := ofDigits_lt (fun x hx => hr x (List.mem_cons_of_mem _ hx))
      rw [hlen] at h1
      have hd : d = e := by
        have e1 : (d * b ^ r.length + ofDigits b l) / b ^ r.length = d := by
          rw [Nat.mul_comm, Nat.mul_add_div (by omega), Nat.div_eq_of_lt h1, Nat.add_zero]
        have e2 : (e * b ^ r.length + ofDigits b r) / b ^ r.length = e := by
          rw [Nat.mul_comm, Nat.mul_add_div (by omega), Nat.div_eq_of_lt h2, Nat.add_zero]
        rw [← e1, h, e2]
      subst hd
      have := ih (fun x hx => hl x (List.mem_cons_of_mem _ hx)) (fun x hx => hr x (List.mem_cons_of_mem _ hx)) hlen (by omega)
      rw [this]

theorem digitsAux_spec {b : Nat} (hb : 2 ≤ b) (fuel n : Nat) (hf : n < fuel) :
    ofDigits b (digitsAux b fuel n) = n ∧ (∀ d ∈ digitsAux b fuel n, d < b) ∧ digitsAux b fuel n ≠ [] ∧
      (∀ k, 1 ≤ k → n < b ^ k → (digitsAux b fuel n).length ≤ k) := by
  induction fuel generalizing n with
  | zero => omega
  | succ f ih =>
    unfold digitsAux
    split
    · next h =>
      refine ⟨by simp [ofDigits], by simpa using h, by simp, fun k hk _ => by simpa using hk⟩
    · next h =>
      have hdiv : n / b < f := by
        have : n / b < n := Nat.div_lt_self (by omega) (by omega)
        omega
      obtain ⟨h1, h2, h3, h4⟩ := ih (n / b) hdiv
      refine ⟨?_, ?_, by simp, ?_⟩
      · rw [ofDigits_append, h1]
        simp only [ofDigits, List.length_singleton, Nat.pow_one, List.foldl_cons, List.foldl_nil, Nat.zero_mul, Nat.zero_add]
        rw [Nat.mul_comm]
        exact Nat.div_add_mod n b
      · intro d hd
        rcases List.mem_append.1 hd with hd | hd
        · exact h2 d hd
        · simp at hd; rw [hd]; exact Nat.mod_lt _ (by omega)
      · intro k hk hn
        cases k with
        | zero => omega
        | succ k =>
          cases k with
          | zero => simp at hn; omega
          | succ k =>
            have : n / b < b ^ (k + 1) := by
              rw [Nat.div_lt_iff_lt_mul (by omega)]
              rw [Nat.pow_succ] at hn
              exact hn
            have := h4 (k + 1) (by omega) this
            simp
            omega

theorem digits_value {b : Nat} (hb : 2 ≤ b) (n : Nat) : ofDigits b (digits b n) = n := (digitsAux_spec hb _ n (by omega)).1
theorem digits_lt {b : Nat} (hb : 2 ≤ b) (n : Nat) : ∀ d ∈ digits b n, d < b := (digitsAux_spec hb _ n (by omega)).2.1
theorem digits_ne_nil {b : Nat} (hb : 2 ≤ b) (n : Nat) : digits b n ≠ [] := (digitsAux_spec hb _ n (by omega)).2.2.1
theorem digits_length_le {b : Nat} (hb : 2 ≤ b) {n k : Nat} (hk : 1 ≤ k) (h : n < b ^ k) : (digits b n).length ≤ k :=
  (digitsAux_spec hb _ n (by omega)).2.2.2 k hk h
theorem lt_pow_digits {b : Nat} (hb : 2 ≤ b) (n : Nat) : n < b ^ (digits b n).length := by
  conv => lhs; rw [← digits_value hb n]
  exact ofDigits_lt (digits_lt hb n)

/-- Padded hex is the digit list padded with zeros. -/
theorem padHex_eq (w n : Nat) :
    padHex w n = (List.replicate (w - (digits 16 n).length) 0 ++ digits 16 n).map digitChar := by
  unfold padHex formatNat
  simp [digitChar]

theorem padHex_length {w n : Nat} (hw : 1 ≤ w) (h : n < 16 ^ w) : (padHex w n).length = w := by
  have := digits_length_le (by omega : 2 ≤ 16) hw h
  rw [padHex_eq]
  simp
  omega

theorem ofDigits_replicate_zero (b k : Nat) (l : List Nat) : ofDigits b (List.replicate k 0 ++ l) = ofDigits b l := by
  induction k with
  | zero => rfl
  | succ k ih => rw [List.replicate_succ, List.cons_append, ofDigits_cons, ih]; simp

theorem parseHexDigits_map {l : List Nat} (h : ∀ d ∈ l, d < 16) (acc : Nat) :
    parseHexDigits acc (l.map digitChar) = some (acc * 16 ^ l.length + ofDigits 16 l) := by
  induction l generalizing acc with
  | nil => simp [parseHexDigits, ofDigits]
  | cons d r ih =>
    simp only [List.map_cons, parseHexDigits, hexVal_digitChar (h d (by simp))]
    rw [ih (fun x hx => h x (List.mem_cons_of_mem _ hx)), ofDigits_cons, List.length_cons, Nat.pow_succ, Nat.add_mul]
    congr 1
    rw [Nat.mul_assoc, Nat.mul_comm 16 (16 ^ r.length)]
    omega

theorem padHex_parse (w n : Nat) : parseHexDigits 0 (padHex w n) = some n := by
  rw [padHex_eq, parseHexDigits_map]
  · rw [ofDigits_replicate_zero, digits_value (by omega)]; simp
  · intro d hd
    rcases List.mem_append.1 hd with hd | hd
    · simp at hd; omega
    · exact digits_lt (by omega) n d hd

theorem padHex_injective {w a b : Nat} (h : padHex w a = padHex w b) : a = b := by
  have := padHex_parse w a
  rw [h, padHex_parse] at this
  exact (Option.some.inj this).symm

/-- No hex digit is a sign. -/
theorem digitChar_not_sign {d : Nat} (h : d < 16) : digitChar d ≠ 43 ∧ digitChar d ≠ 45 := by
  have : ∀ d : Fin 16, digitChar d.val ≠ 43 ∧ digitChar d.val ≠ 45 := by decide
  exact this ⟨d, h⟩

theorem padHex_ne_nil (w n : Nat) : padHex w n ≠ [] := by
  rw [padHex_eq]
  have := digits_ne_nil (by omega : 2 ≤ 16) n
  simp [this]

theorem parseInt16_padHex {w n : Nat} (h : n < 2 ^ 63) : parseInt16 (padHex w n) = some (n : Int) := by
  have hp := padHex_parse w n
  have hne := padHex_ne_nil w n
  have hs : ∀ c r, padHex w n = c :: r → c ≠ 43 ∧ c ≠ 45 := by
    intro c r hc
    rw [padHex_eq] at hc
    have hm : c ∈ (List.replicate (w - (digits 16 n).length) 0 ++ digits 16 n).map digitChar := by rw [hc]; simp
    obtain ⟨d, hd, rfl⟩ := List.mem_map.1 hm
    apply digitChar_not_sign
    rcases List.mem_append.1 hd with hd | hd
    · simp at hd; omega
    · exact digits_lt (by omega) n d hd
  have hr : inInt64 (n : Int) = true := by simp [inInt64]; omega
  generalize padHex w n = s at *
  cases s with
  | nil => exact absurd rfl hne
  | cons c r =>
    obtain ⟨h1, h2⟩ := hs c r rfl
    unfold parseInt16
    split
    · next heq => cases heq; exact absurd rfl h1
    · next heq => cases heq; exact absurd rfl h2
    · simp [hp, hr]

end Tuf
