import Verif.Spec.Std.JsonText
import Verif.Proofs.Digits

/-! # Strings of JSON texts -/

namespace Tuf.Std
open Tuf Tuf.Spec

/-! ## Characters -/

theorem toNat_ofNat {n : Nat} (h : n < 256) : (UInt8.ofNat n).toNat = n := by
  simp [UInt8.toNat_ofNat']
  omega

theorem isCont_of {c : UInt8} (h1 : 128 ≤ c.toNat) (h2 : c.toNat ≤ 191) : isCont c = true := by simp [isCont, h1, h2]

/-- What comes out of `encodeRune` is recognised as one character. -/
theorem charLen_encode {n : Nat} (h : Scalar n) (r : Bytes) : charLen (encodeRune n ++ r) = (encodeRune n).length := by
  unfold Scalar at h
  unfold encodeRune
  split
  · have ha := toNat_ofNat (n := n) (by omega)
    generalize UInt8.ofNat n = a at *
    simp only [List.cons_append, List.nil_append, charLen]
    rw [if_pos (by omega)]
    rfl
  · split
    · have ha := toNat_ofNat (n := 0xC0 + n / 64) (by omega)
      have hb := toNat_ofNat (n := 0x80 + n % 64) (by omega)
      generalize UInt8.ofNat (0xC0 + n / 64) = a at *
      generalize UInt8.ofNat (0x80 + n % 64) = b at *
      simp only [List.cons_append, List.nil_append, charLen]
      rw [if_neg (by omega), if_pos (by omega), isCont_of (by omega) (by omega)]
      rfl
    · split
      · omega
      · split
        · have ha := toNat_ofNat (n := 0xE0 + n / 4096) (by omega)
          have hb := toNat_ofNat (n := 0x80 + n / 64 % 64) (by omega)
          have hc := toNat_ofNat (n := 0x80 + n % 64) (by omega)
          generalize UInt8.ofNat (0xE0 + n / 4096) = a at *
          generalize UInt8.ofNat (0x80 + n / 64 % 64) = b at *
          generalize UInt8.ofNat (0x80 + n % 64) = c at *
          simp only [List.cons_append, List.nil_append, charLen]
          rw [if_neg (by omega), if_neg (by omega), if_pos (by omega), isCont_of (c := b) (by omega) (by omega), isCont_of (c := c) (by omega) (by omega), if_pos]
          · rfl
          · simp only [Bool.and_self, Bool.true_and, Bool.and_eq_true, Bool.or_eq_true, bne_iff_ne, decide_eq_true_eq]
            omega
        · have ha := toNat_ofNat (n := 0xF0 + n / 262144) (by omega)
          have hb := toNat_ofNat (n := 0x80 + n / 4096 % 64) (by omega)
          have hc := toNat_ofNat (n := 0x80 + n / 64 % 64) (by omega)
          have hd := toNat_ofNat (n := 0x80 + n % 64) (by omega)
          generalize UInt8.ofNat (0xF0 + n / 262144) = a at *
          generalize UInt8.ofNat (0x80 + n / 4096 % 64) = b at *
          generalize UInt8.ofNat (0x80 + n / 64 % 64) = c at *
          generalize UInt8.ofNat (0x80 + n % 64) = d at *
          simp only [List.cons_append, List.nil_append, charLen]
          rw [if_neg (by omega), if_neg (by omega), if_neg (by omega), if_pos (by omega), isCont_of (c := b) (by omega) (by omega), isCont_of (c := c) (by omega) (by omega),
            isCont_of (c := d) (by omega) (by omega), if_pos]
          · rfl
          · simp only [Bool.and_self, Bool.true_and, Bool.and_eq_true, Bool.or_eq_true, bne_iff_ne, decide_eq_true_eq]
            omega

theorem encode_ascii {n : Nat} (h : n < 128) : encodeRune n = [UInt8.ofNat n] := by
  unfold encodeRune
  rw [if_pos (by omega)]

/-- Other characters begin with a byte above ASCII. -/
theorem encode_head {n : Nat} (h : 128 ≤ n) : ∃ c t, encodeRune n = c :: t ∧ 128 ≤ c.toNat := by
  unfold encodeRune
  rw [if_neg (by omega)]
  split
  · exact ⟨_, _, rfl, by rw [toNat_ofNat (by omega)]; omega⟩
  · split
    · exact ⟨_, _, rfl, by decide⟩
    · split
      · exact ⟨_, _, rfl, by rw [toNat_ofNat (by omega)]; omega⟩
      · exact ⟨_, _, rfl, by rw [toNat_ofNat (by omega)]; omega⟩

theorem hexVal_digitChar : ∀ d, d < 16 → hexVal (digitChar d) = some d := by decide

theorem hex4_escU (c : UInt8) (r : Bytes) : hex4 (48 :: 48 :: digitChar (c.toNat / 16) :: digitChar (c.toNat % 16) :: r) = some (c.toNat, r) := by
  have h := c.toNat_lt
  simp only [hex4]
  rw [hexVal_digitChar _ (by omega), hexVal_digitChar _ (by omega), show hexVal 48 = some 0 by decide]
  simp
  omega

/-- An ASCII character stands for itself or is written as an escape sequence for it. -/
theorem escAscii_cases {c : UInt8} (h : c.toNat < 128) :
    (escAscii c = [c] ∧ c ≠ 34 ∧ c ≠ 92 ∧ ¬ c.toNat < 32) ∨ (∃ t, escAscii c = 92 :: t ∧ ∀ r, escape (t ++ r) = some ([c], r)) := by
  unfold escAscii
  split
  · next h1 =>
    right
    rcases h1 with rfl | rfl
    · exact ⟨[34], rfl, fun r => rfl⟩
    · exact ⟨[92], rfl, fun r => rfl⟩
  · next h1 =>
    split
    · next h2 => subst h2; exact .inr ⟨[110], rfl, fun r => rfl⟩
    · split
      · next h2 => subst h2; exact .inr ⟨[114], rfl, fun r => rfl⟩
      · split
        · next h2 => subst h2; exact .inr ⟨[116], rfl, fun r => rfl⟩
        · split
          · right
            refine ⟨_, rfl, ?_⟩
            intro r
            show (match hex4 (48 :: 48 :: digitChar (c.toNat / 16) :: digitChar (c.toNat % 16) :: r) with
              | none => none
              | some (n, r') => if 0xD800 ≤ n ∧ n ≤ 0xDBFF then
                  match lowSurrogate r' with
                  | some (m, r'') => some (encodeRune ((n - 0xD800) * 1024 + (m - 0xDC00) + 0x10000), r'')
                  | none => some ([0xEF, 0xBF, 0xBD], r')
                else some (encodeRune n, r')) = _
            rw [hex4_escU]
            dsimp only
            rw [if_neg (by omega), encode_ascii h]
            simp
          · next h2 => exact .inl ⟨rfl, by simp at h1; exact h1.1, by simp at h1; exact h1.2, fun h3 => h2 (.inl h3)⟩

/-! ## Strings -/

theorem stringRest_plain {c : UInt8} {n : Nat} {r : Bytes} (h : c.toNat < 128) (h1 : c ≠ 34) (h2 : c ≠ 92) (h3 : ¬ c.toNat < 32) :
    stringRest (n + 1) (c :: r) = (stringRest n r).map (fun x => (c :: x.1, x.2)) := by
  rw [stringRest, if_neg h1, if_neg h2, if_neg h3, if_pos h]

theorem stringRest_escape {n : Nat} {r r' b : Bytes} (h : escape r = some (b, r')) :
    stringRest (n + 1) (92 :: r) = (stringRest n r').map (fun x => (b ++ x.1, x.2)) := by
  rw [stringRest, if_neg (by decide), if_pos rfl, h]

theorem stringRest_char {k : Nat} (hk : 128 ≤ k) (hs : Scalar k) (n : Nat) (r : Bytes) :
    stringRest (n + 1) (encodeRune k ++ r) = (stringRest n r).map (fun x => (encodeRune k ++ x.1, x.2)) := by
  obtain ⟨c, t, he, hc⟩ := encode_head hk
  have hl := charLen_encode hs r
  rw [he] at hl ⊢
  rw [List.cons_append] at hl ⊢
  have h34 : c ≠ 34 := by rintro rfl; exact absurd hc (by decide)
  have h92 : c ≠ 92 := by rintro rfl; exact absurd hc (by decide)
  rw [stringRest, if_neg h34, if_neg h92, if_neg (by omega), if_neg (by omega), hl]
  simp

theorem escBody_char {k : Nat} (hk : 128 ≤ k) (hs : Scalar k) (n : Nat) (r : Bytes) :
    escBody (n + 1) (encodeRune k ++ r) =
      (if encodeRune k = [0xE2, 0x80, 0xA8] then b!"\\u2028" else if encodeRune k = [0xE2, 0x80, 0xA9] then b!"\\u2029" else encodeRune k) ++ escBody n r := by
  obtain ⟨c, t, he, hc⟩ := encode_head hk
  have hl := charLen_encode hs r
  rw [he] at hl ⊢
  rw [List.cons_append] at hl ⊢
  rw [escBody, if_neg (by omega), hl]
  simp

theorem escBody_ascii {c : UInt8} (hc : c.toNat < 128) (n : Nat) (r : Bytes) : escBody (n + 1) (c :: r) = escAscii c ++ escBody n r := by
  rw [escBody, if_pos hc]

theorem escape_sep8 (r : Bytes) : escape ([117, 50, 48, 50, 56] ++ r) = some ([0xE2, 0x80, 0xA8], r) := by
  have h : hex4 (50 :: 48 :: 50 :: 56 :: r) = some (0x2028, r) := by simp [hex4, hexVal]
  have h2 : encodeRune 0x2028 = [0xE2, 0x80, 0xA8] := by decide
  simp only [List.cons_append, List.nil_append, escape, h]
  rw [if_neg (by decide), h2]

theorem escape_sep9 (r : Bytes) : escape ([117, 50, 48, 50, 57] ++ r) = some ([0xE2, 0x80, 0xA9], r) := by
  have h : hex4 (50 :: 48 :: 50 :: 57 :: r) = some (0x2029, r) := by simp [hex4, hexVal]
  have h2 : encodeRune 0x2029 = [0xE2, 0x80, 0xA9] := by decide
  simp only [List.cons_append, List.nil_append, escape, h]
  rw [if_neg (by decide), h2]

theorem escBody_parsed {runes : List Nat} (h : ∀ k ∈ runes, Scalar k) (rest : Bytes) (m n : Nat) (hm : (runes.flatMap encodeRune).length ≤ m)
    (hn : (escBody m (runes.flatMap encodeRune)).length < n) :
    stringRest n (escBody m (runes.flatMap encodeRune) ++ 34 :: rest) = some (runes.flatMap encodeRune, rest) := by
  induction runes generalizing m n with
  | nil =>
    cases n with
    | zero => omega
    | succ n =>
      have : escBody m [] = [] := by cases m <;> rfl
      simp [this, stringRest]
  | cons k runes ih =>
    have hk := h k (by simp)
    have ih' := ih (fun k hk => h k (by simp [hk]))
    rw [List.flatMap_cons] at hm hn ⊢
    by_cases ha : k < 128
    · rw [encode_ascii ha] at hm hn ⊢
      have hc : (UInt8.ofNat k).toNat < 128 := by rw [toNat_ofNat (by omega)]; exact ha
      generalize UInt8.ofNat k = c at *
      cases m with
      | zero => simp at hm
      | succ m =>
        rw [List.cons_append, List.nil_append] at hm hn ⊢
        rw [escBody_ascii hc] at hn ⊢
        have hm' : (runes.flatMap encodeRune).length ≤ m := by simpa using hm
        rcases escAscii_cases hc with ⟨e1, e2, e3, e4⟩ | ⟨t, e1, e2⟩
        · rw [e1] at hn ⊢
          cases n with
          | zero => omega
          | succ n =>
            rw [List.cons_append, List.nil_append, List.cons_append, stringRest_plain hc e2 e3 e4, ih' m n hm' (by simp at hn; omega)]
            rfl
        · rw [e1] at hn ⊢
          cases n with
          | zero => omega
          | succ n =>
            rw [List.cons_append, List.cons_append, List.append_assoc, stringRest_escape (e2 _), ih' m n hm' (by simp at hn; omega)]
            rfl
    · have hk' : 128 ≤ k := by omega
      cases m with
      | zero =>
        obtain ⟨c, t, he, _⟩ := encode_head hk'
        rw [he] at hm
        simp at hm
      | succ m =>
        have hm' : (runes.flatMap encodeRune).length ≤ m := by
          obtain ⟨c, t, he, _⟩ := encode_head hk'
          rw [he, List.length_append, List.length_cons] at hm
          omega
        rw [escBody_char hk' hk] at hn ⊢
        cases n with
        | zero => omega
        | succ n =>
          split at hn
          · next he =>
            rw [if_pos he, he]
            rw [List.append_assoc]
            show stringRest (n + 1) (92 :: ([117, 50, 48, 50, 56] ++ (escBody m (runes.flatMap encodeRune) ++ 34 :: rest))) = _
            rw [stringRest_escape (b := [0xE2, 0x80, 0xA8]) (r' := escBody m (runes.flatMap encodeRune) ++ 34 :: rest) (escape_sep8 _), ih' m n hm' (by simp at hn; omega)]
            rfl
          · next he =>
            rw [if_neg he]
            split at hn
            · next he2 =>
              rw [if_pos he2, he2]
              rw [List.append_assoc]
              show stringRest (n + 1) (92 :: ([117, 50, 48, 50, 57] ++ (escBody m (runes.flatMap encodeRune) ++ 34 :: rest))) = _
              rw [stringRest_escape (b := [0xE2, 0x80, 0xA9]) (r' := escBody m (runes.flatMap encodeRune) ++ 34 :: rest) (escape_sep9 _), ih' m n hm' (by simp at hn; omega)]
              rfl
            · next he2 =>
              rw [if_neg he2, List.append_assoc, stringRest_char hk' hk, ih' m n hm' ?_]
              · rfl
              · obtain ⟨c, t, he, _⟩ := encode_head hk'
                rw [he] at hn
                simp at hn
                omega

theorem printStr_parsed {s : Bytes} (h : Utf8 s) (rest : Bytes) (n : Nat) (hn : (escBody s.length s).length < n) :
    stringRest n (escBody s.length s ++ 34 :: rest) = some (s, rest) := by
  obtain ⟨runes, h1, rfl⟩ := h
  exact escBody_parsed h1 rest _ n (Nat.le_refl _) hn

/-! ## UTF-8 -/

theorem utf8_nil : Utf8 [] := ⟨[], by simp, rfl⟩

theorem utf8_append {a b : Bytes} (ha : Utf8 a) (hb : Utf8 b) : Utf8 (a ++ b) := by
  obtain ⟨ra, ha, rfl⟩ := ha
  obtain ⟨rb, hb, rfl⟩ := hb
  refine ⟨ra ++ rb, ?_, by simp⟩
  intro n hn
  rcases List.mem_append.1 hn with h | h
  · exact ha n h
  · exact hb n h

theorem utf8_scalar {n : Nat} (h : Scalar n) : Utf8 (encodeRune n) := ⟨[n], by simpa using h, by simp⟩

theorem utf8_replacement : Utf8 [0xEF, 0xBF, 0xBD] := by
  have := utf8_scalar (n := 0xFFFD) (by unfold Scalar; omega)
  exact this

theorem utf8_rune (n : Nat) : Utf8 (encodeRune n) := by
  by_cases h : Scalar n
  · exact utf8_scalar h
  · unfold Scalar at h
    unfold encodeRune
    rw [if_neg (by omega), if_neg (by omega), if_pos (by omega)]
    exact utf8_replacement

theorem utf8_byte {c : UInt8} (h : c.toNat < 128) : Utf8 [c] := by
  have := utf8_rune c.toNat
  rw [encode_ascii h, UInt8.ofNat_toNat] at this
  exact this

theorem utf8_ascii {s : Bytes} (h : ∀ c ∈ s, c.toNat < 128) : Utf8 s := by
  induction s with
  | nil => exact utf8_nil
  | cons c s ih => exact utf8_append (a := [c]) (utf8_byte (h c (by simp))) (ih (fun c hc => h c (by simp [hc])))

theorem ofNat_eq {n : Nat} {c : UInt8} (h : n = c.toNat) : UInt8.ofNat n = c := by rw [h, UInt8.ofNat_toNat]

theorem isCont_bounds {c : UInt8} (h : isCont c = true) : 128 ≤ c.toNat ∧ c.toNat ≤ 191 := by simpa [isCont] using h

/-- A recognised character is an encoded scalar value. -/
theorem charLen_utf8 {s : Bytes} (h : charLen s ≠ 0) : Utf8 (s.take (charLen s)) := by
  cases s with
  | nil => exact absurd rfl h
  | cons a r =>
    unfold charLen at h ⊢
    dsimp only at h ⊢
    split at h
    · next h1 => rw [if_pos h1]; exact utf8_byte h1
    · next h1 =>
      rw [if_neg h1]
      split at h
      · next h2 =>
        rw [if_pos h2]
        split at h
        · next b t =>
          split at h
          · next hb =>
            rw [if_pos hb]
            obtain ⟨hb1, hb2⟩ := isCont_bounds hb
            have hn := utf8_rune ((a.toNat - 0xC0) * 64 + (b.toNat - 0x80))
            unfold encodeRune at hn
            rw [if_neg (by omega), if_pos (by omega), ofNat_eq (c := a) (by omega), ofNat_eq (c := b) (by omega)] at hn
            exact hn
          · exact absurd rfl h
        · exact absurd rfl h
      · next h2 =>
        rw [if_neg h2]
        split at h
        · next h3 =>
          rw [if_pos h3]
          split at h
          · next b c t =>
            split at h
            · next hb =>
              rw [if_pos hb]
              simp only [Bool.and_eq_true, Bool.or_eq_true, bne_iff_ne, decide_eq_true_eq] at hb
              obtain ⟨⟨⟨hb, hc⟩, h4⟩, h5⟩ := hb
              obtain ⟨hb1, hb2⟩ := isCont_bounds hb
              obtain ⟨hc1, hc2⟩ := isCont_bounds hc
              have hn := utf8_rune ((a.toNat - 0xE0) * 4096 + (b.toNat - 0x80) * 64 + (c.toNat - 0x80))
              unfold encodeRune at hn
              rw [if_neg (by omega), if_neg (by omega), if_neg (by omega), if_pos (by omega), ofNat_eq (c := a) (by omega), ofNat_eq (c := b) (by omega), ofNat_eq (c := c) (by omega)] at hn
              exact hn
            · exact absurd rfl h
          · exact absurd rfl h
        · next h3 =>
          rw [if_neg h3]
          split at h
          · next h4 =>
            rw [if_pos h4]
            split at h
            · next b c d t =>
              split at h
              · next hb =>
                rw [if_pos hb]
                simp only [Bool.and_eq_true, Bool.or_eq_true, bne_iff_ne, decide_eq_true_eq] at hb
                obtain ⟨⟨⟨⟨hb, hc⟩, hd⟩, h5⟩, h6⟩ := hb
                obtain ⟨hb1, hb2⟩ := isCont_bounds hb
                obtain ⟨hc1, hc2⟩ := isCont_bounds hc
                obtain ⟨hd1, hd2⟩ := isCont_bounds hd
                have hn := utf8_rune ((a.toNat - 0xF0) * 262144 + (b.toNat - 0x80) * 4096 + (c.toNat - 0x80) * 64 + (d.toNat - 0x80))
                unfold encodeRune at hn
                rw [if_neg (by omega), if_neg (by omega), if_neg (by omega), if_neg (by omega), ofNat_eq (c := a) (by omega), ofNat_eq (c := b) (by omega), ofNat_eq (c := c) (by omega),
                  ofNat_eq (c := d) (by omega)] at hn
                exact hn
              · exact absurd rfl h
            · exact absurd rfl h
          · exact absurd rfl h

theorem escape_utf8 {s b r : Bytes} (h : escape s = some (b, r)) : Utf8 b := by
  unfold escape at h
  split at h
  · cases h; exact utf8_byte (by decide)
  · cases h; exact utf8_byte (by decide)
  · cases h; exact utf8_byte (by decide)
  · cases h; exact utf8_byte (by decide)
  · cases h; exact utf8_byte (by decide)
  · cases h; exact utf8_byte (by decide)
  · cases h; exact utf8_byte (by decide)
  · cases h; exact utf8_byte (by decide)
  · split at h
    · cases h
    · split at h
      · split at h
        · rw [← (Prod.mk.inj (Option.some.inj h)).1]; exact utf8_rune _
        · cases h; exact utf8_replacement
      · rw [← (Prod.mk.inj (Option.some.inj h)).1]; exact utf8_rune _
  · cases h

theorem stringRest_utf8 {n : Nat} {s b r : Bytes} (h : stringRest n s = some (b, r)) : Utf8 b := by
  induction n generalizing s b r with
  | zero => cases s <;> simp [stringRest] at h
  | succ n ih =>
    cases s with
    | nil => simp [stringRest] at h
    | cons c s =>
      rw [stringRest] at h
      split at h
      · cases h; exact utf8_nil
      · split at h
        · split at h
          · cases h
          · next he =>
            obtain ⟨⟨b', r'⟩, h1, h2⟩ := Option.map_eq_some_iff.1 h
            cases h2
            exact utf8_append (escape_utf8 he) (ih h1)
        · split at h
          · cases h
          · split at h
            · next hc =>
              obtain ⟨⟨b', r'⟩, h1, h2⟩ := Option.map_eq_some_iff.1 h
              cases h2
              exact utf8_append (a := [c]) (utf8_byte hc) (ih h1)
            · split at h
              · obtain ⟨⟨b', r'⟩, h1, h2⟩ := Option.map_eq_some_iff.1 h
                cases h2
                exact utf8_append utf8_replacement (ih h1)
              · next hk =>
                obtain ⟨⟨b', r'⟩, h1, h2⟩ := Option.map_eq_some_iff.1 h
                cases h2
                exact utf8_append (charLen_utf8 hk) (ih h1)


/-! ## Grammar -/

theorem utf8Char_iff (n : Nat) (b : Bytes) : Utf8Char n b ↔ Scalar n ∧ b = encodeRune n := by
  constructor
  · intro h
    cases h with
    | one h1 h2 =>
      refine ⟨.inl (by omega), ?_⟩
      rw [encode_ascii h1, ofNat_eq h2.symm]
    | two h1 h2 h3 h4 =>
      refine ⟨.inl (by omega), ?_⟩
      unfold encodeRune
      rw [if_neg (by omega), if_pos (by omega), ofNat_eq h3.symm, ofNat_eq h4.symm]
    | three h1 h2 h3 h4 h5 h6 =>
      refine ⟨?_, ?_⟩
      · unfold Scalar; omega
      unfold encodeRune
      rw [if_neg (by omega), if_neg (by omega), if_neg (by omega), if_pos (by omega), ofNat_eq h4.symm, ofNat_eq h5.symm, ofNat_eq h6.symm]
    | four h1 h2 h3 h4 h5 h6 =>
      refine ⟨.inr (by omega), ?_⟩
      unfold encodeRune
      rw [if_neg (by omega), if_neg (by omega), if_neg (by omega), if_neg (by omega), ofNat_eq h3.symm, ofNat_eq h4.symm, ofNat_eq h5.symm, ofNat_eq h6.symm]
  · rintro ⟨h, rfl⟩
    unfold Scalar at h
    unfold encodeRune
    split
    · next h1 => exact .one h1 (toNat_ofNat (by omega))
    · split
      · next h1 h2 => exact .two (by omega) h2 (toNat_ofNat (by omega)) (toNat_ofNat (by omega))
      · split
        · omega
        · split
          · next h1 h2 h3 h4 => exact .three (by omega) h4 (by omega) (toNat_ofNat (by omega)) (toNat_ofNat (by omega)) (toNat_ofNat (by omega))
          · next h1 h2 h3 h4 => exact .four (by omega) (by omega) (toNat_ofNat (by omega)) (toNat_ofNat (by omega)) (toNat_ofNat (by omega)) (toNat_ofNat (by omega))

theorem char_encode {n : Nat} (h : Scalar n) : Utf8Char n (encodeRune n) := (utf8Char_iff n _).2 ⟨h, rfl⟩

theorem utf8Char_ne {n : Nat} {b : Bytes} (h : Utf8Char n b) : b ≠ [] := by cases h <;> simp

/-- The bytes of characters above U+007F are above 127. -/
theorem utf8Char_high {n : Nat} {b : Bytes} (h : Utf8Char n b) (hn : 128 ≤ n) : ∀ c ∈ b, 128 ≤ c.toNat := by
  cases h with
  | one => omega
  | two => intro x hx; simp at hx; rcases hx with rfl | rfl <;> omega
  | three => intro x hx; simp at hx; rcases hx with rfl | rfl | rfl <;> omega
  | four => intro x hx; simp at hx; rcases hx with rfl | rfl | rfl | rfl <;> omega

/-- A recognised character is one. -/
theorem charLen_char {a : UInt8} {r : Bytes} (h : charLen (a :: r) ≠ 0) (ha : 128 ≤ a.toNat) : ∃ n, 128 ≤ n ∧ Utf8Char n ((a :: r).take (charLen (a :: r))) := by
  have hk := charLen_utf8 h
  obtain ⟨runes, hs, he⟩ := hk
  cases runes with
  | nil =>
    cases hc : charLen (a :: r) with
    | zero => exact absurd hc h
    | succ k => rw [hc] at he; simp at he
  | cons n runes =>
    have hn : Scalar n := hs n (by simp)
    rw [List.flatMap_cons] at he
    have hsplit : a :: r = encodeRune n ++ (runes.flatMap encodeRune ++ (a :: r).drop (charLen (a :: r))) := by
      rw [← List.append_assoc, ← he, List.take_append_drop]
    have hlen : charLen (a :: r) = (encodeRune n).length := by rw [hsplit]; exact charLen_encode hn _
    refine ⟨n, ?_, ?_⟩
    · refine Classical.byContradiction fun hlt => ?_
      rw [encode_ascii (by omega)] at hsplit
      simp at hsplit
      have := congrArg UInt8.toNat hsplit.1
      rw [toNat_ofNat (by omega)] at this
      omega
    · rw [utf8Char_iff]
      refine ⟨hn, ?_⟩
      rw [hlen]
      conv => lhs; rw [hsplit]
      simp

/-- A text that does not contain a byte and is a prefix of something followed by this byte is a prefix of that. -/
theorem prefix_before {b t x r : Bytes} {q : UInt8} (h : t ++ q :: r = b ++ x) (hq : q ∉ b) : ∃ y, t = b ++ y := by
  rcases List.append_eq_append_iff.1 h with ⟨y, h1, h2⟩ | ⟨y, h1, _⟩
  · cases y with
    | nil => exact ⟨[], by simpa using h1.symm⟩
    | cons c y =>
      simp at h2
      rw [h1] at hq
      exact absurd (by simp [h2.1]) hq
  · exact ⟨y, h1⟩

/-! ## Strings -/

theorem hexVal_iff (c : UInt8) (v : Nat) : hexVal c = some v ↔ HexValue c v := by
  unfold hexVal HexValue
  split
  · simp; omega
  · split
    · simp; omega
    · split
      · simp; omega
      · simp; omega

theorem hex4_sound {s r : Bytes} {n : Nat} (h : hex4 s = some (n, r)) : ∃ u, UEscape (92 :: 117 :: u) n ∧ s = u ++ r := by
  unfold hex4 at h
  split at h
  · next a b c d t =>
    split at h
    · next w x y z h1 h2 h3 h4 =>
      cases h
      exact ⟨[a, b, c, d], .mk ((hexVal_iff _ _).1 h1) ((hexVal_iff _ _).1 h2) ((hexVal_iff _ _).1 h3) ((hexVal_iff _ _).1 h4), rfl⟩
    · cases h
  · cases h

theorem hex4_complete {u : Bytes} {n : Nat} (h : UEscape u n) : ∃ a b c d, u = [92, 117, a, b, c, d] ∧ ∀ r, hex4 (a :: b :: c :: d :: r) = some (n, r) := by
  cases h with
  | mk h1 h2 h3 h4 =>
    refine ⟨_, _, _, _, rfl, fun r => ?_⟩
    rw [hex4, (hexVal_iff _ _).2 h1, (hexVal_iff _ _).2 h2, (hexVal_iff _ _).2 h3, (hexVal_iff _ _).2 h4]

theorem uescape_bound {u : Bytes} {n : Nat} (h : UEscape u n) : n < 65536 ∧ 34 ∉ u ∧ u.length = 6 := by
  cases h with
  | mk h1 h2 h3 h4 =>
    have bound : ∀ {c v}, HexValue c v → v < 16 ∧ c ≠ 34 := by
      rintro c v (⟨h1, h2⟩ | ⟨h1, h2, h3⟩) <;> refine ⟨by omega, ?_⟩ <;> rintro rfl
      · have : (34 : UInt8).toNat = 34 := rfl
        omega
      · have : (34 : UInt8).toNat = 34 := rfl
        omega
    obtain ⟨b1, n1⟩ := bound h1
    obtain ⟨b2, n2⟩ := bound h2
    obtain ⟨b3, n3⟩ := bound h3
    obtain ⟨b4, n4⟩ := bound h4
    refine ⟨by omega, ?_, rfl⟩
    simp [Ne.symm n1, Ne.symm n2, Ne.symm n3, Ne.symm n4]

theorem lowSurrogate_iff (s : Bytes) (l : Nat) (r : Bytes) : lowSurrogate s = some (l, r) ↔ ∃ u, UEscape u l ∧ LowSurrogate l ∧ s = u ++ r := by
  constructor
  · intro h
    unfold lowSurrogate at h
    split at h
    · split at h
      · next hx =>
        split at h
        · next hl =>
          cases h
          obtain ⟨u, hu, rfl⟩ := hex4_sound hx
          exact ⟨_, hu, hl, rfl⟩
        · cases h
      · cases h
    · cases h
  · rintro ⟨u, hu, hl, rfl⟩
    obtain ⟨a, b, c, d, rfl, hx⟩ := hex4_complete hu
    show (match hex4 (a :: b :: c :: d :: r) with
      | some (n, r') => if 0xDC00 ≤ n ∧ n ≤ 0xDFFF then some (n, r') else none
      | none => none) = _
    rw [hx r]
    exact if_pos hl

theorem pair_scalar {h l : Nat} (h1 : HighSurrogate h) (h2 : LowSurrogate l) : Scalar (0x10000 + (h - 0xD800) * 1024 + (l - 0xDC00)) := by
  obtain ⟨_, _⟩ := h1
  obtain ⟨_, _⟩ := h2
  exact .inr ⟨by omega, by omega⟩

theorem encode_surrogate {n : Nat} (h : 0xD800 ≤ n ∧ n ≤ 0xDFFF) : encodeRune n = replacement := by
  unfold encodeRune
  rw [if_neg (by omega), if_neg (by omega), if_pos (.inl h)]
  rfl

theorem escape_u {r r' : Bytes} {n : Nat} (h : hex4 r = some (n, r')) :
    escape (117 :: r) = if 0xD800 ≤ n ∧ n ≤ 0xDBFF then
        match lowSurrogate r' with
        | some (m, r'') => some (encodeRune ((n - 0xD800) * 1024 + (m - 0xDC00) + 0x10000), r'')
        | none => some ([0xEF, 0xBF, 0xBD], r')
      else some (encodeRune n, r') := by
  show (match hex4 r with
    | none => none
    | some (n, r') =>
      if 0xD800 ≤ n ∧ n ≤ 0xDBFF then
        match lowSurrogate r' with
        | some (m, r'') => some (encodeRune ((n - 0xD800) * 1024 + (m - 0xDC00) + 0x10000), r'')
        | none => some ([0xEF, 0xBF, 0xBD], r')
      else some (encodeRune n, r')) = _
  rw [h]

/-- An escape sequence continues a string. -/
theorem escape_sound {s b r : Bytes} (h : escape s = some (b, r)) :
    ∃ e, s = e ++ r ∧ ∀ t v q, r = t ++ 34 :: q → StringBody t v → StringBody (92 :: e ++ t) (b ++ v) := by
  have one : ∀ (x y : UInt8) (r : Bytes), (x, y) ∈ letterEscapes →
      ∃ e, x :: r = e ++ r ∧ ∀ t v q, r = t ++ 34 :: q → StringBody t v → StringBody (92 :: e ++ t) ([y] ++ v) :=
    fun x y r hm => ⟨[x], rfl, fun t v q _ hb => .letter hm hb⟩
  unfold escape at h
  split at h
  · cases h; exact one _ _ _ (by decide)
  · cases h; exact one _ _ _ (by decide)
  · cases h; exact one _ _ _ (by decide)
  · cases h; exact one _ _ _ (by decide)
  · cases h; exact one _ _ _ (by decide)
  · cases h; exact one _ _ _ (by decide)
  · cases h; exact one _ _ _ (by decide)
  · cases h; exact one _ _ _ (by decide)
  · split at h
    · cases h
    · next n r' hx =>
      obtain ⟨u, hu, rfl⟩ := hex4_sound hx
      split at h
      · next hh =>
        split at h
        · next m r'' hl =>
          obtain ⟨u', hu', hlow, rfl⟩ := (lowSurrogate_iff _ _ _).1 hl
          have h' := Prod.mk.inj (Option.some.inj h)
          obtain ⟨rfl, rfl⟩ := h'
          refine ⟨117 :: u ++ u', by simp, fun t v q _ hb => ?_⟩
          have := StringBody.pair hu hu' hh hlow (char_encode (pair_scalar hh hlow)) hb
          have he : (n - 0xD800) * 1024 + (m - 0xDC00) + 0x10000 = 0x10000 + (n - 0xD800) * 1024 + (m - 0xDC00) := by omega
          rw [he]
          simpa using this
        · next hl =>
          cases h
          refine ⟨117 :: u, by simp, fun t v q hr hb => ?_⟩
          exact StringBody.lone hu (.inl hh) (fun _ u' l t' hu' hlow ht => by
            have : lowSurrogate r = some (l, t' ++ 34 :: q) := (lowSurrogate_iff _ _ _).2 ⟨u', hu', hlow, by rw [hr, ht]; simp⟩
            rw [hl] at this
            cases this) hb
      · next hh =>
        have h' := Prod.mk.inj (Option.some.inj h)
        obtain ⟨rfl, rfl⟩ := h'
        refine ⟨117 :: u, by simp, fun t v q _ hb => ?_⟩
        by_cases hs : 0xD800 ≤ n ∧ n ≤ 0xDFFF
        · rw [encode_surrogate hs]
          exact StringBody.lone hu (.inr ⟨by omega, by omega⟩) (fun hx => absurd hx hh) hb
        · have hb' := (uescape_bound hu).1
          exact StringBody.unicode hu (char_encode (show Scalar n by unfold Scalar; omega)) hb
  · cases h

theorem stringRest_sound {n : Nat} {s v r : Bytes} (h : stringRest n s = some (v, r)) : ∃ t, s = t ++ 34 :: r ∧ StringBody t v := by
  induction n generalizing s v r with
  | zero => cases s <;> simp [stringRest] at h
  | succ n ih =>
    cases s with
    | nil => simp [stringRest] at h
    | cons c s =>
      rw [stringRest] at h
      split at h
      · next hc => cases h; subst hc; exact ⟨[], rfl, .nil⟩
      · next hq =>
        split at h
        · next hbs =>
          subst hbs
          split at h
          · cases h
          · next b r' he =>
            obtain ⟨⟨v', r1⟩, h1, h2⟩ := Option.map_eq_some_iff.1 h
            cases h2
            obtain ⟨t, rfl, hb⟩ := ih h1
            obtain ⟨e, rfl, hcont⟩ := escape_sound he
            exact ⟨92 :: e ++ t, by simp, hcont t v' _ rfl hb⟩
        · next hbs =>
          split at h
          · cases h
          · next h32 =>
            split at h
            · next h128 =>
              obtain ⟨⟨v', r1⟩, h1, h2⟩ := Option.map_eq_some_iff.1 h
              cases h2
              obtain ⟨t, rfl, hb⟩ := ih h1
              refine ⟨c :: t, rfl, ?_⟩
              exact StringBody.char (c := [c]) (.one h128 rfl) (by omega) (fun h => hq (UInt8.toNat.inj h)) (fun h => hbs (UInt8.toNat.inj h)) hb
            · next h128 =>
              split at h
              · next hz =>
                obtain ⟨⟨v', r1⟩, h1, h2⟩ := Option.map_eq_some_iff.1 h
                cases h2
                obtain ⟨t, rfl, hb⟩ := ih h1
                refine ⟨c :: t, rfl, StringBody.bad (fun m b t' hm he => ?_) hb⟩
                obtain ⟨hs, rfl⟩ := (utf8Char_iff _ _).1 hm
                have := charLen_encode hs (t' ++ 34 :: r1)
                rw [← List.append_assoc, ← he] at this
                rw [List.cons_append, hz] at this
                exact utf8Char_ne hm (List.eq_nil_of_length_eq_zero this.symm)
              · next hk =>
                obtain ⟨⟨v', r1⟩, h1, h2⟩ := Option.map_eq_some_iff.1 h
                cases h2
                obtain ⟨t, ht, hb⟩ := ih h1
                obtain ⟨m, hm, hch⟩ := charLen_char (fun hz => hk hz) (by omega)
                refine ⟨(c :: s).take (charLen (c :: s)) ++ t, ?_, StringBody.char hch (by omega) (by omega) (by omega) hb⟩
                rw [List.append_assoc, ← ht, List.take_append_drop]

theorem stringRest_complete {t v : Bytes} (h : StringBody t v) (n : Nat) (r : Bytes) (hn : t.length < n) : stringRest n (t ++ 34 :: r) = some (v, r) := by
  induction h generalizing n with
  | nil =>
    cases n with
    | zero => omega
    | succ n => rfl
  | @char m c t v hc h1 h2 h3 _ ih =>
    have hne := utf8Char_ne hc
    obtain ⟨hs, rfl⟩ := (utf8Char_iff _ _).1 hc
    cases n with
    | zero => omega
    | succ n =>
      rw [List.length_append] at hn
      have hl : 0 < (encodeRune m).length := List.length_pos_iff.2 hne
      by_cases hm : m < 128
      · rw [encode_ascii hm] at hn ⊢
        have hm' : (UInt8.ofNat m).toNat = m := toNat_ofNat (by omega)
        show stringRest (n + 1) (UInt8.ofNat m :: (t ++ 34 :: r)) = _
        rw [stringRest_plain (by omega) (fun h => h2 (by rw [← hm', h]; rfl)) (fun h => h3 (by rw [← hm', h]; rfl)) (by omega), ih n (by simp at hn; omega)]
        rfl
      · rw [List.append_assoc, stringRest_char (by omega) hs, ih n (by omega)]
        rfl
  | @letter e t v he _ ih =>
    cases n with
    | zero => omega
    | succ n =>
      rw [List.length_cons, List.length_cons] at hn
      have hesc : escape (e.1 :: (t ++ 34 :: r)) = some ([e.2], t ++ 34 :: r) := by
        simp only [letterEscapes, List.mem_cons, List.not_mem_nil, or_false] at he
        rcases he with rfl | rfl | rfl | rfl | rfl | rfl | rfl | rfl <;> rfl
      rw [List.cons_append, List.cons_append, stringRest_escape hesc, ih n (by omega)]
      rfl
  | @unicode m u c t v hu hc _ ih =>
    obtain ⟨hs, rfl⟩ := (utf8Char_iff _ _).1 hc
    have hlen := (uescape_bound hu).2.2
    obtain ⟨a, b, c, d, rfl, hx⟩ := hex4_complete hu
    cases n with
    | zero => omega
    | succ n =>
      rw [List.length_append] at hn
      have hesc : escape (117 :: a :: b :: c :: d :: (t ++ 34 :: r)) = some (encodeRune m, t ++ 34 :: r) := by
        rw [escape_u (hx _)]
        rw [if_neg (by unfold Scalar at hs; omega)]
      show stringRest (n + 1) (92 :: 117 :: a :: b :: c :: d :: (t ++ 34 :: r)) = _
      rw [stringRest_escape hesc, ih n (by omega)]
      rfl
  | @pair hi lo u u' ch t v hu hu' hh hl hc _ ih =>
    have hcs := ((utf8Char_iff _ _).1 hc).2
    have hsum : some (encodeRune ((hi - 0xD800) * 1024 + (lo - 0xDC00) + 0x10000), t ++ 34 :: r) = some (ch, t ++ 34 :: r) := by
      rw [hcs, show (hi - 0xD800) * 1024 + (lo - 0xDC00) + 0x10000 = 0x10000 + (hi - 0xD800) * 1024 + (lo - 0xDC00) from by omega]
    clear hc hcs
    have hlen := (uescape_bound hu).2.2
    have hlen' := (uescape_bound hu').2.2
    have hlow : lowSurrogate (u' ++ (t ++ 34 :: r)) = some (lo, t ++ 34 :: r) := (lowSurrogate_iff _ _ _).2 ⟨u', hu', hl, rfl⟩
    obtain ⟨a, b, c, d, rfl, hx⟩ := hex4_complete hu
    cases n with
    | zero => omega
    | succ n =>
      rw [List.length_append, List.length_append] at hn
      have hesc : escape (117 :: a :: b :: c :: d :: (u' ++ (t ++ 34 :: r))) = some (ch, t ++ 34 :: r) := by
        rw [escape_u (hx _), if_pos (show 0xD800 ≤ hi ∧ hi ≤ 0xDBFF from hh), hlow, ← hsum]
      have heq : [92, 117, a, b, c, d] ++ u' ++ t ++ 34 :: r = 92 :: 117 :: a :: b :: c :: d :: (u' ++ (t ++ 34 :: r)) := by simp
      rw [heq, stringRest_escape hesc, ih n (by omega)]
      rfl
  | @lone m u t v hu hm hno _ ih =>
    have hlen := (uescape_bound hu).2.2
    obtain ⟨a, b, c, d, rfl, hx⟩ := hex4_complete hu
    cases n with
    | zero => omega
    | succ n =>
      rw [List.length_append] at hn
      have hesc : escape (117 :: a :: b :: c :: d :: (t ++ 34 :: r)) = some (replacement, t ++ 34 :: r) := by
        rw [escape_u (hx _)]
        split
        · next hh =>
          cases hl : lowSurrogate (t ++ 34 :: r) with
          | none => rfl
          | some x =>
            obtain ⟨l, r'⟩ := x
            obtain ⟨u', hu', hlow, he⟩ := (lowSurrogate_iff _ _ _).1 hl
            obtain ⟨y, hy⟩ := prefix_before he (uescape_bound hu').2.1
            exact absurd hy (hno hh u' l y hu' hlow)
        · rw [encode_surrogate (by unfold HighSurrogate LowSurrogate at hm; omega)]
      show stringRest (n + 1) (92 :: 117 :: a :: b :: c :: d :: (t ++ 34 :: r)) = _
      rw [stringRest_escape hesc, ih n (by omega)]
      rfl
  | @bad c t v hno _ ih =>
    cases n with
    | zero => omega
    | succ n =>
      rw [List.length_cons] at hn
      have hc : ¬ c.toNat < 128 := fun h => hno c.toNat [c] t (.one h rfl) rfl
      have hz : charLen (c :: (t ++ 34 :: r)) = 0 := by
        refine Classical.byContradiction fun hk => ?_
        obtain ⟨m, hm, hch⟩ := charLen_char hk (by omega)
        have he : (c :: t) ++ 34 :: r = (c :: (t ++ 34 :: r)).take (charLen (c :: (t ++ 34 :: r))) ++ (c :: (t ++ 34 :: r)).drop (charLen (c :: (t ++ 34 :: r))) := by
          rw [List.take_append_drop]; rfl
        obtain ⟨y, hy⟩ := prefix_before he (fun hmem => by
          have := utf8Char_high hch hm 34 hmem
          have h34 : (34 : UInt8).toNat = 34 := rfl
          omega)
        exact hno m _ y hch hy
      rw [List.cons_append, stringRest, if_neg (by rintro rfl; exact hc (by decide)), if_neg (by rintro rfl; exact hc (by decide)), if_neg (by omega), if_neg hc, hz]
      show Option.map _ (stringRest n (t ++ 34 :: r)) = _
      rw [ih n (by omega)]
      rfl

/-! ## Strings with their texts -/

theorem raw_take (t r : Bytes) : (t ++ 34 :: r).take ((t ++ 34 :: r).length - r.length - 1) = t := by
  rw [show (t ++ 34 :: r).length - r.length - 1 = t.length by simp; omega, List.take_left]

theorem stringJson_str {t s : Bytes} (h : t = s ∨ ¬ Verbatim s) : stringJson t s = .str s := by
  unfold stringJson
  exact if_pos h

theorem stringJson_esc {t s : Bytes} (h : t ≠ s) (hv : Verbatim s) : stringJson t s = .esc t s := by
  unfold stringJson
  exact if_neg (fun hc => hc.elim h (fun hn => hn hv))

theorem string_value {t s : Bytes} (h : StringBody t s) (n d : Nat) (r : Bytes) : value (n + 1) d (34 :: (t ++ 34 :: r)) = some (stringJson t s, r) := by
  have hk : skipSpace (34 :: (t ++ 34 :: r)) = 34 :: (t ++ 34 :: r) := by
    rw [skipSpace, if_neg (by decide)]
  rw [value, hk]
  show (stringRest _ _).map _ = _
  rw [stringRest_complete h _ r (by simp)]
  simp only [Option.map_some, raw_take]

end Tuf.Std
