import Verif.Spec.Std.Time
import Verif.Proofs.Std.JsonParse

/-! Times: printing and parsing, order. -/

namespace Tuf.Std
open Tuf Tuf.Spec

theorem digit_isDigit {d : Nat} (h : d < 10) : isDigit (UInt8.ofNat (48 + d)) = true := by
  simp only [isDigit, toNat_ofNat (n := 48 + d) (by omega), Bool.and_eq_true, decide_eq_true_eq]
  omega

theorem digit_val {d : Nat} (h : d < 10) : (UInt8.ofNat (48 + d)).toNat - 48 = d := by
  rw [toNat_ofNat (n := 48 + d) (by omega)]
  omega

theorem pad_length (w n : Nat) : (pad w n).length = w := by
  induction w generalizing n with
  | zero => rfl
  | succ w ih => simp [pad, ih]

theorem pad_digits (w n : Nat) : ∀ c ∈ pad w n, isDigit c = true := by
  induction w generalizing n with
  | zero => intro c hc; cases hc
  | succ w ih =>
    intro c hc
    rw [pad] at hc
    rcases List.mem_append.1 hc with hc | hc
    · exact ih _ c hc
    · rw [List.mem_singleton.1 hc]
      exact digit_isDigit (by omega)

theorem digitsVal_append (a b : Bytes) : digitsVal (a ++ b) = digitsVal a * 10 ^ b.length + digitsVal b := by
  have fold : ∀ (b : Bytes) (x : Nat), b.foldl (fun n c => n * 10 + (c.toNat - 48)) x = x * 10 ^ b.length + b.foldl (fun n c => n * 10 + (c.toNat - 48)) 0 := by
    intro b
    induction b with
    | nil => intro x; simp
    | cons c b ih =>
      intro x
      rw [List.foldl_cons, ih, List.foldl_cons, ih (0 * 10 + _), List.length_cons, Nat.pow_succ]
      simp only [Nat.zero_mul, Nat.zero_add, Nat.add_mul]
      rw [Nat.mul_assoc, Nat.mul_comm 10, Nat.add_assoc]
  unfold digitsVal
  rw [List.foldl_append, fold]

theorem digitsVal_pad (w n : Nat) (h : n < 10 ^ w) : digitsVal (pad w n) = n := by
  induction w generalizing n with
  | zero =>
    simp at h
    subst h
    rfl
  | succ w ih =>
    rw [Nat.pow_succ] at h
    rw [pad, digitsVal_append, ih (n / 10) (by omega)]
    show n / 10 * 10 ^ 1 + (0 * 10 + ((UInt8.ofNat (48 + n % 10)).toNat - 48)) = n
    rw [digit_val (by omega)]
    omega

theorem two_pad {n : Nat} (h : n < 100) (r : Bytes) : two (pad 2 n ++ r) = some (n, r) := by
  have e : pad 2 n = [UInt8.ofNat (48 + n / 10 % 10), UInt8.ofNat (48 + n % 10)] := by simp [pad]
  rw [e, List.cons_append, List.cons_append, List.nil_append, two, digit_isDigit (by omega), digit_isDigit (by omega), Bool.and_self, if_pos rfl, digit_val (by omega), digit_val (by omega)]
  congr 2
  omega

theorem four_pad {n : Nat} (h : n < 10000) (r : Bytes) : four (pad 4 n ++ r) = some (n, r) := by
  have hv := digitsVal_pad 4 n (by omega)
  have e : pad 4 n = [UInt8.ofNat (48 + n / 10 / 10 / 10 % 10), UInt8.ofNat (48 + n / 10 / 10 % 10), UInt8.ofNat (48 + n / 10 % 10), UInt8.ofNat (48 + n % 10)] := by
    simp only [pad, List.nil_append, List.cons_append]
  rw [e] at hv ⊢
  rw [List.cons_append, List.cons_append, List.cons_append, List.cons_append, List.nil_append, four, digit_isDigit (by omega), digit_isDigit (by omega), digit_isDigit (by omega),
    digit_isDigit (by omega), Bool.and_self, Bool.and_self, Bool.and_self, if_pos rfl, hv]

theorem lit_cons (c : UInt8) (r : Bytes) : lit c (c :: r) = some r := by rw [lit, if_pos rfl]

theorem below_some {n m : Nat} {r : Bytes} (h : m < n) : below n (some (m, r)) = some (m, r) := by simp [below, h]

theorem below_eq {n m : Nat} {x : Option (Nat × Bytes)} {r : Bytes} (h : below n x = some (m, r)) : x = some (m, r) ∧ m < n := by
  unfold below at h
  obtain ⟨p, h1, h2⟩ := Option.bind_eq_some_iff.1 h
  split at h2
  · next hp => cases h2; exact ⟨h1, hp⟩
  · cases h2

theorem dropWhile_split (l : Str) : ∃ k, l = List.replicate k 48 ++ l.dropWhile (fun c => decide (c = 48)) := by
  induction l with
  | nil => exact ⟨0, rfl⟩
  | cons c l ih =>
    by_cases hc : c = 48
    · obtain ⟨k, hk⟩ := ih
      subst hc
      refine ⟨k + 1, ?_⟩
      rw [List.dropWhile_cons_of_pos (by simp), List.replicate_succ, List.cons_append, ← hk]
    · exact ⟨0, by rw [List.dropWhile_cons_of_neg (by simp [hc])]; rfl⟩

theorem trimZeros_split (s : Str) : ∃ k, s = trimZeros s ++ List.replicate k 48 := by
  obtain ⟨k, hk⟩ := dropWhile_split s.reverse
  refine ⟨k, ?_⟩
  have := congrArg List.reverse hk
  rw [List.reverse_reverse, List.reverse_append, List.reverse_replicate] at this
  exact this

theorem digitsVal_zeros (k : Nat) : digitsVal (List.replicate k 48) = 0 := by
  induction k with
  | zero => rfl
  | succ k ih =>
    rw [List.replicate_succ]
    have := digitsVal_append [48] (List.replicate k 48)
    rw [ih] at this
    rw [show (48 : UInt8) :: List.replicate k 48 = [48] ++ List.replicate k 48 from rfl, this]
    simp [digitsVal]

/-- What may follow the fraction. -/
theorem offsetText_head (o : Int) : ∃ c t, offsetText o = c :: t ∧ isDigit c = false ∧ c ≠ 46 ∧ c ≠ 44 := by
  unfold offsetText
  split
  · exact ⟨90, [], rfl, by decide, by decide, by decide⟩
  · split
    · exact ⟨45, _, rfl, by decide, by decide, by decide⟩
    · exact ⟨43, _, rfl, by decide, by decide, by decide⟩

theorem nanos_text {n : Nat} (h : n ≤ 999999999) (o : Int) : nanos (fractionText n ++ offsetText o) = (n, offsetText o) := by
  obtain ⟨c, t, ho, h1, h2, h3⟩ := offsetText_head o
  unfold fractionText
  split
  · next h0 => rw [List.nil_append, ho, nanos, if_neg (by simp [h2, h3]), h0]
  · next h0 =>
    obtain ⟨k, hk⟩ := trimZeros_split (pad 9 n)
    have hval := digitsVal_pad 9 n (by omega)
    have hlen := pad_length 9 n
    have hdig := pad_digits 9 n
    rw [hk] at hval hlen hdig
    rw [digitsVal_append, digitsVal_zeros, List.length_replicate, Nat.add_zero] at hval
    rw [List.length_append, List.length_replicate] at hlen
    generalize trimZeros (pad 9 n) = ds at *
    rw [List.cons_append, nanos, if_pos (.inl rfl), takeDigits_all (fun c hc => hdig c (by simp [hc])) (by rw [ho]; intro c' hc'; simp at hc'; subst hc'; exact h1)]
    cases ds with
    | nil =>
      exfalso
      simp [digitsVal] at hval
      omega
    | cons d ds =>
      dsimp only
      rw [List.take_of_length_le (by omega), show 9 - (d :: ds).length = k by omega, hval]

theorem offset_text {o : Int} (h : -1440 < o ∧ o < 1440) : offset (offsetText o) = some o := by
  unfold offsetText
  split
  · next h0 => rw [h0]; rfl
  · next h0 =>
    split
    · next hneg =>
      rw [List.cons_append, offset, if_neg (by decide), if_pos (.inr rfl), two_pad (by omega)]
      dsimp only
      rw [lit_cons]
      dsimp only
      have := two_pad (n := o.natAbs % 60) (by omega) []
      rw [List.append_nil] at this
      rw [this]
      dsimp only
      rw [if_pos (by omega), if_pos rfl]
      congr 1
      omega
    · next hneg =>
      rw [List.cons_append, offset, if_neg (by decide), if_pos (.inl rfl), two_pad (by omega)]
      dsimp only
      rw [lit_cons]
      dsimp only
      have := two_pad (n := o.natAbs % 60) (by omega) []
      rw [List.append_nil] at this
      rw [this]
      dsimp only
      rw [if_pos (by omega), if_neg (by decide)]
      congr 1
      omega

theorem daysIn_le (m y : Nat) : daysIn m y ≤ 31 := by
  unfold daysIn
  split
  · split <;> omega
  · split <;> omega

/-- What is printed is read again. -/
theorem parse_format {c : Civil} (h : ValidCivil c) : parseCivil (formatTime c) = some c := by
  have hd := daysIn_le c.month c.year
  have hday := h.day
  have hm := h.month
  have hy := h.year
  have hh := h.hour
  have hmi := h.minute
  have hs := h.second
  have hdate : ∀ r, date (pad 4 c.year ++ 45 :: (pad 2 c.month ++ 45 :: (pad 2 c.day ++ r))) = some ((c.year, c.month, c.day), r) := by
    intro r
    unfold date
    rw [four_pad (by omega)]
    dsimp only
    rw [lit_cons]
    dsimp only
    rw [two_pad (by omega), below_some (by omega)]
    dsimp only
    rw [lit_cons]
    dsimp only
    rw [two_pad (by omega)]
    dsimp only
    rw [if_pos ⟨hm.1, hday.1, hday.2⟩]
  have hclock : ∀ r, clock (pad 2 c.hour ++ 58 :: (pad 2 c.minute ++ 58 :: (pad 2 c.second ++ r))) = some ((c.hour, c.minute, c.second), r) := by
    intro r
    unfold clock oneOrTwo
    rw [two_pad (by omega)]
    dsimp only
    rw [below_some (by omega)]
    dsimp only
    rw [lit_cons]
    dsimp only
    rw [two_pad (by omega), below_some (by omega)]
    dsimp only
    rw [lit_cons]
    dsimp only
    rw [two_pad (by omega), below_some (by omega)]
  unfold parseCivil formatTime
  rw [hdate]
  dsimp only
  rw [lit_cons]
  dsimp only
  rw [hclock]
  dsimp only
  rw [nanos_text h.nano, offset_text h.offset]

/-! ## What is read is valid -/

theorem isDigit_le {c : UInt8} (h : isDigit c = true) : c.toNat - 48 ≤ 9 := by
  simp [isDigit] at h
  omega

theorem four_le {s r : Bytes} {n : Nat} (h : four s = some (n, r)) : n ≤ 9999 := by
  unfold four at h
  split at h
  · split at h
    · next hd =>
      cases h
      simp only [Bool.and_eq_true] at hd
      have h1 := isDigit_le hd.1.1.1
      have h2 := isDigit_le hd.1.1.2
      have h3 := isDigit_le hd.1.2
      have h4 := isDigit_le hd.2
      simp only [digitsVal, List.foldl_cons, List.foldl_nil]
      omega
    · cases h
  · cases h

theorem digitsVal_lt {ds : Bytes} (h : ∀ c ∈ ds, isDigit c = true) : digitsVal ds < 10 ^ ds.length := by
  induction ds with
  | nil => simp [digitsVal]
  | cons c ds ih =>
    have h1 := ih (fun c hc => h c (by simp [hc]))
    have h2 := isDigit_le (h c (by simp))
    have := digitsVal_append [c] ds
    rw [show c :: ds = [c] ++ ds from rfl, this]
    have e : digitsVal [c] = c.toNat - 48 := by simp [digitsVal]
    rw [e, List.length_append, List.length_singleton, Nat.pow_add]
    have : (c.toNat - 48) * 10 ^ ds.length ≤ 9 * 10 ^ ds.length := Nat.mul_le_mul_right _ h2
    omega

theorem nanos_le (s : Bytes) : (nanos s).1 ≤ 999999999 := by
  cases s with
  | nil => exact Nat.zero_le _
  | cons c r =>
    rw [nanos]
    split
    · split
      · exact Nat.zero_le _
      · next ds _ _ heq =>
        have hd := takeDigits_digit r
        rw [heq] at hd
        have hlt := digitsVal_lt (ds := ds.take 9) (fun c hc => hd c (List.mem_of_mem_take hc))
        have hlen : (ds.take 9).length ≤ 9 := by simp; omega
        generalize ds.take 9 = t at *
        show digitsVal t * 10 ^ (9 - t.length) ≤ 999999999
        have : digitsVal t * 10 ^ (9 - t.length) < 10 ^ t.length * 10 ^ (9 - t.length) := Nat.mul_lt_mul_of_pos_right hlt (by apply Nat.pow_pos; omega)
        rw [← Nat.pow_add, show t.length + (9 - t.length) = 9 by omega] at this
        omega
    · exact Nat.zero_le _

theorem offset_range {s : Bytes} {o : Int} (h : offset s = some o) : -1440 < o ∧ o < 1440 := by
  cases s with
  | nil => cases h
  | cons c r =>
    rw [offset] at h
    split at h
    · split at h
      · cases h; omega
      · cases h
    · split at h
      · split at h
        · cases h
        · split at h
          · cases h
          · split at h
            · split at h
              · simp only [Option.some.injEq] at h
                split at h <;> omega
              · cases h
            · cases h
      · cases h

theorem parseCivil_valid {s : Bytes} {c : Civil} (h : parseCivil s = some c) : ValidCivil c := by
  unfold parseCivil at h
  split at h
  · cases h
  · next hdate =>
    split at h
    · cases h
    · split at h
      · cases h
      · next hclock =>
        split at h
        · cases h
        · next ho =>
          cases h
          have hd : ∀ {s r : Bytes} {y m d : Nat}, date s = some ((y, m, d), r) → y ≤ 9999 ∧ (1 ≤ m ∧ m ≤ 12) ∧ 1 ≤ d ∧ d ≤ daysIn m y := by
            intro s r y m d hd
            unfold date at hd
            split at hd
            · cases hd
            · next hy =>
              split at hd
              · cases hd
              · split at hd
                · cases hd
                · next hm =>
                  split at hd
                  · cases hd
                  · split at hd
                    · cases hd
                    · split at hd
                      · next hv =>
                        cases hd
                        have := (below_eq hm).2
                        exact ⟨four_le hy, ⟨hv.1, by omega⟩, hv.2⟩
                      · cases hd
          have hc : ∀ {s r : Bytes} {a m x : Nat}, clock s = some ((a, m, x), r) → a ≤ 23 ∧ m ≤ 59 ∧ x ≤ 59 := by
            intro s r a m x hc
            unfold clock at hc
            split at hc
            · cases hc
            · next h1 =>
              split at hc
              · cases hc
              · split at hc
                · cases hc
                · next h2 =>
                  split at hc
                  · cases hc
                  · split at hc
                    · cases hc
                    · next h3 =>
                      cases hc
                      have h1 := (below_eq h1).2
                      have h2 := (below_eq h2).2
                      have h3 := (below_eq h3).2
                      omega
          obtain ⟨h1, h2, h3⟩ := hd hdate
          obtain ⟨h4, h5, h6⟩ := hc hclock
          exact ⟨h1, h2, h3, h4, h5, h6, nanos_le _, offset_range ho⟩

theorem parse_text {s : Str} {t : Time} (h : parseRFC3339 s = some t) : parseRFC3339 t.text = some t := by
  obtain ⟨c, h1, rfl⟩ := Option.map_eq_some_iff.1 h
  show (parseCivil (formatTime c)).map timeOf = _
  rw [parse_format (parseCivil_valid h1)]
  rfl

theorem parse_zero : parseRFC3339 Time.zero.text = some Time.zero := by decide +kernel

theorem digit_ascii {c : UInt8} (h : isDigit c = true) : c.toNat < 128 := by
  simp [isDigit] at h
  omega

theorem formatTime_utf8 (c : Civil) : Utf8 (formatTime c) := by
  have hpad : ∀ w n, Utf8 (pad w n) := fun w n => utf8_ascii (fun c hc => digit_ascii (pad_digits w n c hc))
  have hsep : ∀ (c : UInt8) (s : Bytes), c.toNat < 128 → Utf8 s → Utf8 (c :: s) := fun c s hc hs => utf8_append (a := [c]) (utf8_byte hc) hs
  refine utf8_append (hpad _ _) (hsep _ _ (by decide) (utf8_append (hpad _ _) (hsep _ _ (by decide) (utf8_append (hpad _ _) (hsep _ _ (by decide)
    (utf8_append (hpad _ _) (hsep _ _ (by decide) (utf8_append (hpad _ _) (hsep _ _ (by decide) (utf8_append (hpad _ _) (utf8_append ?_ ?_)))))))))))
  · unfold fractionText
    split
    · exact utf8_nil
    · refine hsep _ _ (by decide) (utf8_ascii ?_)
      intro c' hc'
      obtain ⟨k, hk⟩ := trimZeros_split (pad 9 c.nano)
      exact digit_ascii (pad_digits 9 c.nano c' (by rw [hk]; simp [hc']))
  · unfold offsetText
    split
    · exact utf8_byte (by decide)
    · rw [List.cons_append]
      refine hsep _ _ ?_ (utf8_append (hpad _ _) (hsep _ _ (by decide) (hpad _ _)))
      split <;> decide

/-! ## Order -/

theorem dayNumber_epoch : dayNumber 1970 1 1 = 719162 := by decide

theorem leap_iff (y : Nat) : isLeap y = true ↔ y % 4 = 0 ∧ (y % 100 ≠ 0 ∨ y % 400 = 0) := by
  simp only [isLeap, Bool.and_eq_true, Bool.or_eq_true, decide_eq_true_eq, bne_iff_ne]

/-- Days from January 1 of year 1 to January 1 of the year. -/
def yearNumber (y : Nat) : Int :=
  146097 * (((y : Int) - 1) / 400) + 36524 * (((y : Int) - 1) % 400 / 100) + 1461 * (((y : Int) - 1) % 100 / 4) + 365 * (((y : Int) - 1) % 4)

/-- Days from January 1 to the date. -/
def dayOfYear (y m d : Nat) : Int := daysBefore m + (if isLeap y && 3 ≤ m then 1 else 0) + d - 1

theorem dayNumber_split (y m d : Nat) : dayNumber y m d = yearNumber y + dayOfYear y m d := by
  unfold dayNumber yearNumber dayOfYear
  dsimp only
  omega

theorem yearNumber_succ (y : Nat) : yearNumber (y + 1) = yearNumber y + (if isLeap y then 366 else 365) := by
  have e : ((y + 1 : Nat) : Int) - 1 = y := by omega
  have key : (if isLeap y = true then (366 : Int) else 365) = if y % 4 = 0 ∧ (y % 100 ≠ 0 ∨ y % 400 = 0) then 366 else 365 := by
    by_cases h : isLeap y = true
    · rw [if_pos h, if_pos ((leap_iff y).1 h)]
    · rw [if_neg h, if_neg (fun h' => h ((leap_iff y).2 h'))]
  rw [key]
  unfold yearNumber
  rw [e]
  split <;> omega

theorem yearNumber_mono {y y' : Nat} (h : y < y') : yearNumber y + (if isLeap y then 366 else 365) ≤ yearNumber y' := by
  induction y' with
  | zero => omega
  | succ y' ih =>
    rw [yearNumber_succ y']
    by_cases he : y = y'
    · rw [he]; omega
    · have := ih (by omega)
      split at this <;> split <;> omega

theorem months {m : Nat} (h : 1 ≤ m ∧ m ≤ 12) :
    m = 1 ∨ m = 2 ∨ m = 3 ∨ m = 4 ∨ m = 5 ∨ m = 6 ∨ m = 7 ∨ m = 8 ∨ m = 9 ∨ m = 10 ∨ m = 11 ∨ m = 12 := by omega

/-- The first day of the next month follows the last day of the month. -/
theorem month_end {y m : Nat} (h : 1 ≤ m ∧ m ≤ 12) : dayOfYear y m (daysIn m y) + 1 = if m = 12 then (if isLeap y then 366 else 365) else dayOfYear y (m + 1) 1 := by
  unfold dayOfYear daysIn daysBefore
  cases hl : isLeap y <;> rcases months h with rfl | rfl | rfl | rfl | rfl | rfl | rfl | rfl | rfl | rfl | rfl | rfl <;> simp

theorem dayOfYear_month {y m m' : Nat} (h : 1 ≤ m) (hlt : m < m') (h' : m' ≤ 12) : dayOfYear y m (daysIn m y) < dayOfYear y m' 1 := by
  induction m' with
  | zero => omega
  | succ k ih =>
    by_cases he : m = k
    · subst he
      have := month_end (y := y) (m := m) ⟨h, by omega⟩
      rw [if_neg (by omega)] at this
      omega
    · have h1 := ih (by omega) (by omega)
      have h2 := month_end (y := y) (m := k) ⟨by omega, by omega⟩
      rw [if_neg (by omega)] at h2
      have : dayOfYear y k 1 ≤ dayOfYear y k (daysIn k y) := by
        unfold dayOfYear
        have : 1 ≤ daysIn k y := by unfold daysIn; split <;> split <;> omega
        omega
      omega

theorem dayOfYear_range {y m d : Nat} (hm : 1 ≤ m ∧ m ≤ 12) (hd : 1 ≤ d ∧ d ≤ daysIn m y) : 0 ≤ dayOfYear y m d ∧ dayOfYear y m d < if isLeap y then 366 else 365 := by
  have hle : dayOfYear y m d ≤ dayOfYear y m (daysIn m y) := by unfold dayOfYear; omega
  constructor
  · unfold dayOfYear
    split <;> omega
  · by_cases h12 : m = 12
    · have := month_end (y := y) hm
      rw [if_pos h12] at this
      omega
    · have h1 := dayOfYear_month (y := y) hm.1 (show m < 12 by omega) (Nat.le_refl 12)
      have h2 := month_end (y := y) (m := 12) (by omega)
      rw [if_pos rfl] at h2
      have : dayOfYear y 12 1 ≤ dayOfYear y 12 (daysIn 12 y) := by
        unfold dayOfYear
        have : daysIn 12 y = 31 := rfl
        omega
      omega

theorem dayNumber_next {a b : Civil} (ha : ValidCivil a) (hb : ValidCivil b) (h : NextDay a b) : dayNumber b.year b.month b.day = dayNumber a.year a.month a.day + 1 := by
  rw [dayNumber_split, dayNumber_split]
  rcases h with ⟨h1, h2, h3⟩ | ⟨h1, h2, h3, h4⟩ | ⟨h1, h2, h3, h4, h5⟩
  · rw [h1, h2, h3]
    unfold dayOfYear
    omega
  · have hle := hb.month.2
    have := month_end (y := a.year) ha.month
    rw [if_neg (by omega)] at this
    rw [h1, h2, h4, h3]
    omega
  · have := month_end (y := a.year) ha.month
    rw [if_pos h2, h2, show daysIn 12 a.year = 31 from rfl] at this
    rw [h1, h2, h3, h4, h5, yearNumber_succ]
    have h0 : dayOfYear (a.year + 1) 1 1 = 0 := by unfold dayOfYear daysBefore; simp
    omega

theorem dayNumber_earlier {a b : Civil} (ha : ValidCivil a) (hb : ValidCivil b) (h : EarlierDate a b) : dayNumber a.year a.month a.day < dayNumber b.year b.month b.day := by
  rw [dayNumber_split, dayNumber_split]
  have h1 := dayOfYear_range ha.month ha.day
  have h2 := dayOfYear_range hb.month hb.day
  rcases h with h | ⟨hy, h | ⟨hm, h⟩⟩
  · have := yearNumber_mono h
    omega
  · rw [hy] at h1 ⊢
    have h3 := dayOfYear_month (y := b.year) ha.month.1 h hb.month.2
    have h4 : dayOfYear b.year a.month a.day ≤ dayOfYear b.year a.month (daysIn a.month b.year) := by
      have := ha.day.2
      rw [hy] at this
      unfold dayOfYear
      omega
    have h5 : dayOfYear b.year b.month 1 ≤ dayOfYear b.year b.month b.day := by
      have := hb.day.1
      unfold dayOfYear
      omega
    omega
  · rw [hy, hm]
    unfold dayOfYear
    omega

/-- Later on the calendar and the clock is later. -/
theorem instant_earlier {a b : Civil} (ha : ValidCivil a) (hb : ValidCivil b) (ho : a.offset = b.offset) (h : Earlier a b) : instantOf a < instantOf b := by
  have h1 := ha.hour; have h2 := ha.minute; have h3 := ha.second; have h4 := ha.nano
  have h5 := hb.hour; have h6 := hb.minute; have h7 := hb.second; have h8 := hb.nano
  unfold instantOf
  rw [ho]
  rcases h with h | ⟨⟨hy, hm, hd⟩, h⟩
  · have := dayNumber_earlier ha hb h
    generalize dayNumber a.year a.month a.day = x at *
    generalize dayNumber b.year b.month b.day = y at *
    omega
  · rw [hy, hm, hd]
    generalize dayNumber b.year b.month b.day = y at *
    unfold EarlierClock at h
    omega

theorem earlier_total (a b : Civil) : Earlier a b ∨ Earlier b a ∨ (SameDate a b ∧ a.hour = b.hour ∧ a.minute = b.minute ∧ a.second = b.second ∧ a.nano = b.nano) := by
  unfold Earlier EarlierDate EarlierClock SameDate
  omega

theorem instant_same {a b : Civil} (ho : a.offset = b.offset) (h : SameDate a b ∧ a.hour = b.hour ∧ a.minute = b.minute ∧ a.second = b.second ∧ a.nano = b.nano) :
    instantOf a = instantOf b := by
  obtain ⟨⟨h1, h2, h3⟩, h4, h5, h6, h7⟩ := h
  unfold instantOf
  rw [ho, h1, h2, h3, h4, h5, h6, h7]

theorem instant_lt_iff {a b : Civil} (ha : ValidCivil a) (hb : ValidCivil b) (ho : a.offset = b.offset) : instantOf a < instantOf b ↔ Earlier a b := by
  constructor
  · intro h
    rcases earlier_total a b with h' | h' | h'
    · exact h'
    · have := instant_earlier hb ha ho.symm h'
      omega
    · have := instant_same ho h'
      omega
  · exact instant_earlier ha hb ho

/-! ## Order of the texts -/

theorem cons_lt {a b : UInt8} {x y : Bytes} : a :: x < b :: y ↔ a.toNat < b.toNat ∨ (a = b ∧ x < y) := by
  rw [List.cons_lt_cons_iff, UInt8.lt_iff_toNat_lt]

theorem pad_lt {w a b : Nat} (ha : a < 10 ^ w) (hb : b < 10 ^ w) (x y : Bytes) : pad w a ++ x < pad w b ++ y ↔ a < b ∨ (a = b ∧ x < y) := by
  induction w generalizing a b x y with
  | zero =>
    simp at ha hb
    subst ha hb
    simp [pad]
  | succ w ih =>
    rw [Nat.pow_succ] at ha hb
    rw [pad, pad, List.append_assoc, List.append_assoc, ih (by omega) (by omega), List.cons_append, List.cons_append, List.nil_append, List.nil_append, cons_lt,
      toNat_ofNat (n := 48 + a % 10) (by omega), toNat_ofNat (n := 48 + b % 10) (by omega)]
    have : UInt8.ofNat (48 + a % 10) = UInt8.ofNat (48 + b % 10) ↔ a % 10 = b % 10 := by
      rw [← UInt8.toNat_inj, toNat_ofNat (n := 48 + a % 10) (by omega), toNat_ofNat (n := 48 + b % 10) (by omega)]
      omega
    rw [this]
    by_cases hp : x < y
    · simp only [hp, and_true]
      omega
    · simp only [hp, and_false, or_false]
      omega

theorem sep_lt (c : UInt8) (x y : Bytes) : c :: x < c :: y ↔ x < y := by
  rw [cons_lt]
  simp

/-- In UTC and without fractions of a second the texts are ordered as the times are. -/
theorem text_lt_iff {a b : Civil} (ha : ValidCivil a) (hb : ValidCivil b) (hoa : a.offset = 0) (hob : b.offset = 0) (hna : a.nano = 0) (hnb : b.nano = 0) :
    formatTime a < formatTime b ↔ instantOf a < instantOf b := by
  rw [instant_lt_iff ha hb (by rw [hoa, hob])]
  have d1 := daysIn_le a.month a.year
  have d2 := daysIn_le b.month b.year
  obtain ⟨a1, a2, a3, a4, a5, a6, a7, a8⟩ := ha
  obtain ⟨b1, b2, b3, b4, b5, b6, b7, b8⟩ := hb
  unfold formatTime
  rw [hoa, hob, hna, hnb, pad_lt (by omega) (by omega), sep_lt, pad_lt (by omega) (by omega), sep_lt, pad_lt (by omega) (by omega), sep_lt, pad_lt (by omega) (by omega), sep_lt,
    pad_lt (by omega) (by omega), sep_lt, pad_lt (by omega) (by omega)]
  have : ¬ (fractionText 0 ++ offsetText 0 < fractionText 0 ++ offsetText 0) := List.lt_irrefl _
  unfold Earlier EarlierDate EarlierClock SameDate
  rw [hna, hnb]
  simp only [this, and_false, or_false, Nat.lt_irrefl]
  omega

end Tuf.Std
