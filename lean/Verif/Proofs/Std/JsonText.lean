import Verif.Proofs.Std.JsonString

/-! # JSON texts: what was printed is parsed -/

namespace Tuf.Std
open Tuf Tuf.Spec

/-! ## Numbers -/

/-- What may follow a number. -/
def Delim (rest : Bytes) : Prop := ∀ c ∈ rest.head?, isDigit c = false ∧ c ≠ 46 ∧ c ≠ 101 ∧ c ≠ 69 ∧ c ≠ 43 ∧ c ≠ 45

theorem takeDigits_all {ds : Bytes} (h : ∀ c ∈ ds, isDigit c = true) {r : Bytes} (hr : ∀ c ∈ r.head?, isDigit c = false) : takeDigits (ds ++ r) = (ds, r) := by
  induction ds with
  | nil =>
    cases r with
    | nil => rfl
    | cons c r => simp [takeDigits, hr c (by simp)]
  | cons c ds ih =>
    rw [List.cons_append, takeDigits, if_pos (h c (by simp)), ih (fun c hc => h c (by simp [hc]))]

theorem isDigit_ne {c : UInt8} (h : isDigit c = true) : c ≠ 46 ∧ c ≠ 101 ∧ c ≠ 69 ∧ c ≠ 43 ∧ c ≠ 45 := by
  refine ⟨?_, ?_, ?_, ?_, ?_⟩ <;> (rintro rfl; revert h; decide)

theorem exponent_parsed {e : Bytes} (h : Exponent e) {rest : Bytes} (hd : Delim rest) : exponent (e ++ rest) = some (e, rest) := by
  rcases h with rfl | ⟨c, sign, ds, hc, hs, ⟨hne, hds⟩, rfl⟩
  · cases rest with
    | nil => rfl
    | cons c r =>
      obtain ⟨_, _, h1, h2, _⟩ := hd c (by simp)
      rw [List.nil_append, exponent, if_neg (by simp [h1, h2])]
  · have hsign : expSign (sign ++ ds ++ rest) = (sign, ds ++ rest) := by
      rcases hs with rfl | rfl | rfl
      · cases ds with
        | nil => exact absurd rfl hne
        | cons d ds =>
          obtain ⟨_, _, _, h1, h2⟩ := isDigit_ne (hds d (by simp))
          unfold expSign
          split
          · next heq => injection heq with heq; exact absurd heq h1
          · next heq => injection heq with heq; exact absurd heq h2
          · simp
      · rfl
      · rfl
    have : c :: sign ++ ds ++ rest = c :: (sign ++ ds ++ rest) := by simp
    rw [this, exponent, if_pos hc, hsign]
    dsimp only
    rw [takeDigits_all hds (fun c hc => (hd c hc).1)]
    cases ds with
    | nil => exact absurd rfl hne
    | cons d ds => rfl

theorem fraction_parsed {f : Bytes} (h : Fraction f) {rest : Bytes} (hd : ∀ c ∈ rest.head?, isDigit c = false ∧ c ≠ 46) : fraction (f ++ rest) = some (f, rest) := by
  rcases h with rfl | ⟨ds, ⟨hne, hds⟩, rfl⟩
  · unfold fraction
    split
    · next heq => rw [List.nil_append] at heq; subst heq; exact absurd rfl (hd 46 (by simp)).2
    · simp
  · show (match takeDigits (ds ++ rest) with
      | ([], _) => none
      | (ds, r') => some (46 :: ds, r')) = _
    rw [takeDigits_all hds (fun c hc => (hd c hc).1)]
    cases ds with
    | nil => exact absurd rfl hne
    | cons d ds => rfl

theorem unsigned_parsed {ds f e : Bytes} (h1 : IntDigits ds) (h2 : Fraction f) (h3 : Exponent e) {rest : Bytes} (hd : Delim rest) :
    unsigned (ds ++ f ++ e ++ rest) = some (ds, f ++ e, rest) := by
  have hexp : ∀ c ∈ (e ++ rest).head?, isDigit c = false ∧ c ≠ 46 := by
    rcases h3 with rfl | ⟨c, sign, es, hc, hs, _, rfl⟩
    · exact fun c hc => ⟨(hd c hc).1, (hd c hc).2.1⟩
    · intro c' hc'
      simp at hc'
      subst hc'
      rcases hc with rfl | rfl <;> decide
  have hfr : ∀ c ∈ (f ++ (e ++ rest)).head?, isDigit c = false := by
    rcases h2 with rfl | ⟨fs, _, rfl⟩
    · exact fun c hc => (hexp c hc).1
    · intro c' hc'
      simp at hc'
      subst hc'
      decide
  unfold unsigned
  rw [List.append_assoc, List.append_assoc, takeDigits_all h1.1.2 hfr]
  split
  · next heq => injection heq with heq; exact absurd heq h1.1.1
  · next heq =>
    injection heq with heq
    subst heq
    have := h1.2 rfl
    simp at this
  · next heq =>
    cases heq
    rw [fraction_parsed h2 hexp]
    dsimp only
    rw [exponent_parsed h3 hd]

theorem digitChar_digit {d : Nat} (h : d < 10) : isDigit (digitChar d) = true ∧ (digitChar d).toNat - 48 = d := by
  revert d
  decide

theorem digitsVal_digits {l : List Nat} (h : ∀ d ∈ l, d < 10) : digitsVal (l.map digitChar) = ofDigits 10 l := by
  unfold digitsVal
  have : ∀ (l : List Nat) (acc : Nat), (∀ d ∈ l, d < 10) → (l.map digitChar).foldl (fun n c => n * 10 + (c.toNat - 48)) acc = l.foldl (fun n d => n * 10 + d) acc := by
    intro l
    induction l with
    | nil => intro acc _; rfl
    | cons d l ih =>
      intro acc h
      rw [List.map_cons, List.foldl_cons, List.foldl_cons, (digitChar_digit (h d (by simp))).2]
      exact ih _ (fun d hd => h d (by simp [hd]))
  exact this l 0 h

theorem digits_head (b : Nat) (hb : 2 ≤ b) (n : Nat) (h : (digits b n).head? = some 0) : digits b n = [0] := by
  unfold digits at h ⊢
  have : ∀ f n, n < f → (digitsAux b f n).head? = some 0 → n = 0 := by
    intro f
    induction f with
    | zero => intro n h; omega
    | succ f ih =>
      intro n hn h
      unfold digitsAux at h
      split at h
      · simpa using h
      · next hlt =>
        have hdiv : n / b < n := Nat.div_lt_self (by omega) (by omega)
        have hne := (digitsAux_spec hb f (n / b) (by omega)).2.2.1
        have h' : (digitsAux b f (n / b)).head? = some 0 := by
          cases hd : digitsAux b f (n / b) with
          | nil => exact absurd hd hne
          | cons x l => rw [hd] at h; simpa using h
        have := ih (n / b) (by omega) h'
        have : n < b := by
          rcases Nat.lt_or_ge n b with h | h
          · exact h
          · have := Nat.div_pos h (by omega); omega
        omega
  have h0 := this _ n (by omega) h
  subst h0
  simp [digitsAux]
  <;> omega

theorem formatNat_int (n : Nat) : IntDigits (formatNat 10 n) := by
  refine ⟨⟨?_, ?_⟩, ?_⟩
  · simp [formatNat, digits_ne_nil]
  · intro c hc
    obtain ⟨d, hd, rfl⟩ := List.mem_map.1 hc
    exact (digitChar_digit (digits_lt (by omega) n d hd)).1
  · intro h
    have : (digits 10 n).head? = some 0 := by
      rw [formatNat, List.head?_map] at h
      cases hd : digits 10 n with
      | nil => rw [hd] at h; simp at h
      | cons d l =>
        rw [hd] at h
        have hlt := digits_lt (b := 10) (by omega) n d (by simp [hd])
        simp only [List.head?_cons, Option.map_some, Option.some.injEq] at h
        have := (digitChar_digit hlt).2
        rw [h] at this
        simp at this
        simp [this]
    rw [formatNat, digits_head 10 (by omega) n this]
    rfl

theorem digitsVal_format (n : Nat) : digitsVal (formatNat 10 n) = n := by
  rw [formatNat, digitsVal_digits (digits_lt (by omega) n), digits_value (by omega)]

theorem head_int {ds : Bytes} (h : IntDigits ds) : ∃ c t, ds = c :: t ∧ isDigit c = true := by
  cases ds with
  | nil => exact absurd rfl h.1.1
  | cons c t => exact ⟨c, t, rfl, h.1.2 c (by simp)⟩

theorem number_pos {ds f e : Bytes} (h1 : IntDigits ds) (h2 : Fraction f) (h3 : Exponent e) {rest : Bytes} (hd : Delim rest) :
    number (ds ++ f ++ e ++ rest) = some (if f ++ e = [] then .num (digitsVal ds) else .frac (ds ++ (f ++ e)), rest) := by
  unfold number
  split
  · next heq =>
    obtain ⟨c, t, rfl, hc⟩ := head_int h1
    injection heq with heq
    exact absurd heq (isDigit_ne hc).2.2.2.2
  · rw [unsigned_parsed h1 h2 h3 hd]
    cases hf : f ++ e with
    | nil => rfl
    | cons c t => rfl

theorem number_neg {ds f e : Bytes} (h1 : IntDigits ds) (h2 : Fraction f) (h3 : Exponent e) {rest : Bytes} (hd : Delim rest) :
    number (45 :: (ds ++ f ++ e ++ rest)) = some (if f ++ e = [] ∧ ds ≠ [48] then .num (-(digitsVal ds : Int)) else .frac (45 :: ds ++ (f ++ e)), rest) := by
  show (match unsigned (ds ++ f ++ e ++ rest) with
    | none => none
    | some (ds, [], r') => some (if ds = [48] then Json.frac [45, 48] else Json.num (-(digitsVal ds : Int)), r')
    | some (ds, l, r') => some (Json.frac (45 :: ds ++ l), r')) = _
  rw [unsigned_parsed h1 h2 h3 hd]
  cases hf : f ++ e with
  | nil =>
    by_cases hz : ds = [48]
    · simp [hz]
    · simp [hz]
  | cons c t => simp

theorem number_int (n : Int) {rest : Bytes} (hd : Delim rest) : number (formatInt 10 n ++ rest) = some (.num n, rest) := by
  unfold formatInt
  split
  · have hz : formatNat 10 n.natAbs ≠ [48] := by
      intro h
      have := congrArg digitsVal h
      rw [digitsVal_format] at this
      have h0 : digitsVal [48] = 0 := by decide
      omega
    have := number_neg (formatNat_int n.natAbs) (.inl rfl) (.inl rfl) hd
    simp only [List.append_nil, hz, ne_eq, not_false_eq_true, and_self, if_true, digitsVal_format] at this
    rw [List.cons_append, this]
    congr 3
    omega
  · have := number_pos (formatNat_int n.natAbs) (.inl rfl) (.inl rfl) hd
    simp only [List.append_nil, if_true, digitsVal_format] at this
    rw [this]
    congr 3
    omega

theorem number_lit {l : Bytes} (h : FracLit l) {rest : Bytes} (hd : Delim rest) : number (l ++ rest) = some (.frac l, rest) := by
  obtain ⟨sign, ds, f, e, hs, h1, h2, h3, hne, rfl⟩ := h
  rcases hs with rfl | rfl
  · have := number_pos h1 h2 h3 hd
    rw [if_neg (by
      intro h
      rw [List.append_eq_nil_iff] at h
      rcases hne with h' | h' | ⟨h', _⟩
      · exact h' h.1
      · exact h' h.2
      · cases h')] at this
    simpa using this
  · have := number_neg h1 h2 h3 hd
    rw [if_neg (by
      rintro ⟨h, hz⟩
      rw [List.append_eq_nil_iff] at h
      rcases hne with h' | h' | ⟨_, h'⟩
      · exact h' h.1
      · exact h' h.2
      · exact hz h')] at this
    simpa using this

/-! ## Values -/

theorem numeric_cases {c : UInt8} (h : c = 45 ∨ isDigit c = true) :
    c = 45 ∨ c = 48 ∨ c = 49 ∨ c = 50 ∨ c = 51 ∨ c = 52 ∨ c = 53 ∨ c = 54 ∨ c = 55 ∨ c = 56 ∨ c = 57 := by
  have key : ∀ n, n < 256 → (UInt8.ofNat n = 45 ∨ isDigit (UInt8.ofNat n) = true) →
      UInt8.ofNat n = 45 ∨ UInt8.ofNat n = 48 ∨ UInt8.ofNat n = 49 ∨ UInt8.ofNat n = 50 ∨ UInt8.ofNat n = 51 ∨ UInt8.ofNat n = 52 ∨ UInt8.ofNat n = 53 ∨
        UInt8.ofNat n = 54 ∨ UInt8.ofNat n = 55 ∨ UInt8.ofNat n = 56 ∨ UInt8.ofNat n = 57 := by
    decide +kernel
  have := key c.toNat c.toNat_lt
  rw [UInt8.ofNat_toNat] at this
  exact this h

theorem value_number {c : UInt8} (h : c = 45 ∨ isDigit c = true) (n d : Nat) (r : Bytes) : value (n + 1) d (c :: r) = number (c :: r) := by
  rcases numeric_cases h with rfl | rfl | rfl | rfl | rfl | rfl | rfl | rfl | rfl | rfl | rfl <;> simp [value, skipSpace, isSpace]

theorem skipSpace_newline (p : Bool) (k : Nat) (s : Bytes) : skipSpace (newline p k ++ s) = skipSpace s := by
  cases p
  · rfl
  · simp only [newline, if_true]
    rw [List.cons_append, skipSpace, if_pos (by decide)]
    induction k with
    | zero => rfl
    | succ k ih => rw [List.replicate_succ, List.cons_append, skipSpace, if_pos (by decide), ih]

theorem value_skip {n d : Nat} {s t : Bytes} (h : skipSpace s = skipSpace t) : value n d s = value n d t := by
  cases n with
  | zero => rfl
  | succ n => rw [value, value, h]

theorem delim_cons {c : UInt8} (h : c = 44 ∨ c = 10 ∨ c = 93 ∨ c = 125) (r : Bytes) : Delim (c :: r) := by
  intro c' hc'
  simp at hc'
  subst hc'
  rcases h with rfl | rfl | rfl | rfl <;> decide

theorem delim_newline (p : Bool) (k : Nat) {r : Bytes} (h : Delim r) : Delim (newline p k ++ r) := by
  cases p
  · exact h
  · exact delim_cons (.inr (.inl rfl)) _

theorem delim_nil : Delim [] := by
  intro c hc
  simp at hc

/-- The first byte of a value. -/
theorem print_head {d : Nat} {j : Json} (h : Writable d j) (p : Bool) (k : Nat) : ∃ c t, printAt p k j = c :: t ∧ isSpace c = false ∧ c ≠ 93 := by
  have digit : ∀ c : UInt8, isDigit c = true → isSpace c = false ∧ c ≠ 93 := by
    intro c hc
    rcases numeric_cases (.inr hc) with rfl | rfl | rfl | rfl | rfl | rfl | rfl | rfl | rfl | rfl | rfl <;> decide
  cases h with
  | null => exact ⟨110, [117, 108, 108], by rw [printAt], by decide, by decide⟩
  | bool =>
    next b =>
    cases b
    · exact ⟨102, [97, 108, 115, 101], by rw [printAt], by decide, by decide⟩
    · exact ⟨116, [114, 117, 101], by rw [printAt], by decide, by decide⟩
  | num =>
    next n =>
    rw [printAt, formatInt]
    split
    · exact ⟨45, _, rfl, by decide, by decide⟩
    · obtain ⟨c, t, hc, hd⟩ := head_int (formatNat_int n.natAbs)
      exact ⟨c, t, hc, digit c hd⟩
  | frac h =>
    obtain ⟨sign, ds, f, e, hs, h1, _, _, _, rfl⟩ := h
    rw [printAt]
    rcases hs with rfl | rfl
    · obtain ⟨c, t, rfl, hd⟩ := head_int h1
      exact ⟨c, _, rfl, digit c hd⟩
    · exact ⟨45, _, rfl, by decide, by decide⟩
  | str h => exact ⟨34, _, by rw [printAt, printStr]; rfl, by decide, by decide⟩
  | esc h => exact ⟨34, _, by rw [printAt]; rfl, by decide, by decide⟩
  | arr h =>
    next l =>
    cases l with
    | nil => exact ⟨91, [93], by rw [printAt], by decide, by decide⟩
    | cons j l => exact ⟨91, _, by rw [printAt]; rfl, by decide, by decide⟩
  | obj h h' =>
    next l =>
    cases l with
    | nil => exact ⟨123, [125], by rw [printAt], by decide, by decide⟩
    | cons e l => exact ⟨123, _, by rw [printAt]; rfl, by decide, by decide⟩

/-- What is to be proved of a value. -/
def Parses (d : Nat) (j : Json) : Prop :=
  ∀ p k n rest, Delim rest → (printAt p k j).length < n → value n d (printAt p k j ++ rest) = some (j, rest)

theorem elements_comma {n d : Nat} {s r r' : Bytes} {j : Json} (h : value n d s = some (j, r)) (hr : skipSpace r = 44 :: r') :
    elements (n + 1) d s = (elements n d r').map (fun x => (j :: x.1, x.2)) := by
  rw [elements, h]
  dsimp only
  rw [hr]
  rfl

theorem elements_end {n d : Nat} {s r r' : Bytes} {j : Json} (h : value n d s = some (j, r)) (hr : skipSpace r = 93 :: r') :
    elements (n + 1) d s = some ([j], r') := by
  rw [elements, h]
  dsimp only
  rw [hr]
  rfl

theorem skipSpace_stay {c : UInt8} {r : Bytes} (h : isSpace c = false) : skipSpace (c :: r) = c :: r := by
  rw [skipSpace, if_neg (by simp [h])]

theorem elements_parsed {d : Nat} {l : List Json} {j : Json} (hj : Parses d j) (hl : ∀ j ∈ l, Parses d j) (hne : ∀ j' ∈ j :: l, ∀ p k, (printAt p k j').length ≠ 0) (p : Bool) (k m n : Nat) (rest s : Bytes)
    (hs : skipSpace s = skipSpace (printAt p k j ++ (printMore p k l ++ (newline p m ++ 93 :: rest))))
    (hn : (printAt p k j).length + (printMore p k l).length + 1 < n) : elements n d s = some (j :: l, rest) := by
  induction l generalizing j n s with
  | nil =>
    cases n with
    | zero => omega
    | succ n =>
      rw [printMore, List.nil_append] at hs
      exact elements_end ((value_skip hs).trans (hj p k n _ (delim_newline p m (delim_cons (by simp) _)) (by omega))) (by rw [skipSpace_newline, skipSpace_stay (by decide)])
  | cons j' l ih =>
    cases n with
    | zero => omega
    | succ n =>
      have hlen := hne j (by simp) p k
      have hlen' := hne j' (by simp) p k
      rw [printMore] at hs hn
      simp only [List.length_append, List.length_cons] at hn
      rw [List.cons_append, List.cons_append, List.cons_append] at hs
      rw [elements_comma ((value_skip hs).trans (hj p k n _ (delim_cons (.inl rfl) _) (by omega))) (skipSpace_stay (by decide)),
        ih (hl j' (by simp)) (fun j hj => hl j (by simp [hj])) (fun j hj => hne j (by simp at hj ⊢; exact .inr hj)) n _ ?_ (by omega)]
      · rfl
      · simp only [List.append_assoc, skipSpace_newline]

theorem printStr_eq (s : Bytes) : printStr s = 34 :: (escBody s.length s ++ [34]) := by simp [printStr]

theorem members_member {n d : Nat} {s r r1 r2 r3 : Bytes} {k : Str} {j : Json} (h1 : skipSpace s = 34 :: r) (h2 : stringRest r.length r = some (k, r1))
    (h3 : skipSpace r1 = 58 :: r2) (h4 : value n d r2 = some (j, r3)) :
    (∀ r', skipSpace r3 = 44 :: r' → members (n + 1) d s = (members n d r').map (fun x => ((k, j) :: x.1, x.2))) ∧
    (∀ r', skipSpace r3 = 125 :: r' → members (n + 1) d s = some ([(k, j)], r')) := by
  have : members (n + 1) d s = match skipSpace r3 with
            | 44 :: r' => (members n d r').map (fun (x : List (Str × Json) × Bytes) => ((k, j) :: x.1, x.2))
            | 125 :: r' => some ([(k, j)], r')
            | _ => none := by
    rw [members, h1]
    show (match stringRest r.length r with
      | none => none
      | some (k, r1) => match skipSpace r1 with
        | 58 :: r2 => match value n d r2 with
          | none => none
          | some (j, r3) => match skipSpace r3 with
            | 44 :: r' => (members n d r').map (fun (x : List (Str × Json) × Bytes) => ((k, j) :: x.1, x.2))
            | 125 :: r' => some ([(k, j)], r')
            | _ => none
        | _ => none) = _
    rw [h2]
    dsimp only
    rw [h3]
    show (match value n d r2 with
          | none => none
          | some (j, r3) => match skipSpace r3 with
            | 44 :: r' => (members n d r').map (fun (x : List (Str × Json) × Bytes) => ((k, j) :: x.1, x.2))
            | 125 :: r' => some ([(k, j)], r')
            | _ => none) = _
    rw [h4]
  constructor
  · intro r' h; rw [this, h]; rfl
  · intro r' h; rw [this, h]; rfl

theorem members_parsed {d : Nat} {l : List (Str × Json)} {e : Str × Json} (he : Utf8 e.1 ∧ Parses d e.2) (hl : ∀ e ∈ l, Utf8 e.1 ∧ Parses d e.2) (p : Bool) (k m n : Nat) (rest s : Bytes)
    (hs : skipSpace s = skipSpace (printStr e.1 ++ 58 :: ((if p then [32] else []) ++ (printAt p k e.2 ++ (printMembers p k l ++ (newline p m ++ 125 :: rest))))))
    (hn : (printStr e.1).length + (printAt p k e.2).length + (printMembers p k l).length + 1 < n) : members n d s = some (e :: l, rest) := by
  have first : ∀ (e : Str × Json) (n : Nat) (s rest' : Bytes), Utf8 e.1 → Parses d e.2 → Delim rest' → (printAt p k e.2).length < n →
      skipSpace s = skipSpace (printStr e.1 ++ 58 :: ((if p then [32] else []) ++ (printAt p k e.2 ++ rest'))) →
      (∀ r', skipSpace rest' = 44 :: r' → members (n + 1) d s = (members n d r').map (fun x => (e :: x.1, x.2))) ∧
      (∀ r', skipSpace rest' = 125 :: r' → members (n + 1) d s = some ([e], r')) := by
    intro e n s rest' h1 h2 hd hlt hs
    rw [printStr_eq, List.cons_append, skipSpace_stay (by decide), List.append_assoc, List.cons_append, List.nil_append] at hs
    have hstr := printStr_parsed h1 (58 :: ((if p then [32] else []) ++ (printAt p k e.2 ++ rest'))) (escBody e.1.length e.1 ++ 34 :: 58 :: ((if p then [32] else []) ++ (printAt p k e.2 ++ rest'))).length (by simp <;> omega)
    have hcol : skipSpace (58 :: ((if p then [32] else []) ++ (printAt p k e.2 ++ rest'))) = 58 :: ((if p then [32] else []) ++ (printAt p k e.2 ++ rest')) := skipSpace_stay (by decide)
    have hval : value n d ((if p then [32] else []) ++ (printAt p k e.2 ++ rest')) = some (e.2, rest') := by
      rw [value_skip (t := printAt p k e.2 ++ rest'), h2 p k n rest' hd hlt]
      cases p
      · rfl
      · show skipSpace (32 :: _) = _
        rw [skipSpace, if_pos (by decide)]
        rfl
    have step := members_member hs hstr hcol hval
    exact ⟨fun r' hr => step.1 r' hr, fun r' hr => step.2 r' hr⟩
  induction l generalizing e n s with
  | nil =>
    cases n with
    | zero => omega
    | succ n =>
      rw [printMembers, List.nil_append] at hs
      exact (first e n s _ he.1 he.2 (delim_newline p m (delim_cons (by simp) _)) (by omega) hs).2 _ (by rw [skipSpace_newline, skipSpace_stay (by decide)])
  | cons e' l ih =>
    cases n with
    | zero => omega
    | succ n =>
      obtain ⟨k', j'⟩ := e'
      rw [printMembers] at hs hn
      simp only [List.length_append, List.length_cons] at hn
      rw [List.cons_append, List.cons_append, List.cons_append, List.cons_append, List.cons_append] at hs
      rw [(first e n s _ he.1 he.2 (delim_cons (.inl rfl) _) (by omega) hs).1 _ (skipSpace_stay (by decide)),
        ih (hl (k', j') (by simp)) (fun j hj => hl j (by simp [hj])) n _ ?_ ?_]
      · rfl
      · simp only [List.append_assoc, skipSpace_newline, List.cons_append]
      · simp only [printStr_eq, List.length_append, List.length_cons] at hn ⊢
        omega

theorem value_parsed {d : Nat} {j : Json} (h : Writable d j) : Parses d j := by
  induction h with
  | null =>
    intro p k n rest hd hn
    cases n with
    | zero => omega
    | succ n => rw [printAt]; rfl
  | bool =>
    next b =>
    intro p k n rest hd hn
    cases n with
    | zero => omega
    | succ n => cases b <;> (rw [printAt]; rfl)
  | num =>
    next m =>
    intro p k n rest hd hn
    cases n with
    | zero => omega
    | succ n =>
      rw [printAt, ← number_int m hd]
      have : ∃ c t, formatInt 10 m = c :: t ∧ (c = 45 ∨ isDigit c = true) := by
        unfold formatInt
        split
        · exact ⟨45, _, rfl, .inl rfl⟩
        · obtain ⟨c, t, hc, hd⟩ := head_int (formatNat_int m.natAbs)
          exact ⟨c, t, hc, .inr hd⟩
      obtain ⟨c, t, he, hc⟩ := this
      rw [he, List.cons_append, value_number hc]
  | frac hl =>
    next l =>
    intro p k n rest hd hn
    cases n with
    | zero => omega
    | succ n =>
      rw [printAt, ← number_lit hl hd]
      have : ∃ c t, l = c :: t ∧ (c = 45 ∨ isDigit c = true) := by
        obtain ⟨sign, ds, f, e, hs, h1, _, _, _, rfl⟩ := hl
        rcases hs with rfl | rfl
        · obtain ⟨c, t, rfl, hd⟩ := head_int h1
          exact ⟨c, _, rfl, .inr hd⟩
        · exact ⟨45, _, rfl, .inl rfl⟩
      obtain ⟨c, t, he, hc⟩ := this
      rw [he, List.cons_append, value_number hc]
  | str hu =>
    next s =>
    intro p k n rest hd hn
    cases n with
    | zero => omega
    | succ n =>
      rw [printAt, printStr_eq, List.cons_append, List.append_assoc, List.cons_append, List.nil_append, value, skipSpace_stay (by decide)]
      show (stringRest _ _).map _ = _
      rw [printStr_parsed hu _ _ (by simp <;> omega)]
      simp only [Option.map_some, raw_take]
      rw [stringJson_str]
      by_cases hv : escBody s.length s = s
      · exact .inl hv
      · exact .inr hv
  | esc hb hne hv =>
    intro p k n rest hd hn
    cases n with
    | zero => omega
    | succ n =>
      rw [printAt, List.append_assoc, List.cons_append]
      exact (string_value hb n _ rest).trans (by rw [stringJson_esc hne hv])
  | arr hl ih =>
    next d l =>
    intro p k n rest hd hn
    cases n with
    | zero => omega
    | succ n =>
      cases l with
      | nil => rw [printAt]; rfl
      | cons j r =>
        rw [printAt] at hn ⊢
        simp only [List.length_append, List.length_cons] at hn
        simp only [List.append_assoc, List.cons_append, List.nil_append]
        obtain ⟨c, t, hc, hsp, h93⟩ := print_head (hl j (by simp)) p (k + 1)
        have hlen : ∀ j' ∈ j :: r, ∀ p k, (printAt p k j').length ≠ 0 := by
          intro j' hj' p k
          obtain ⟨c, t, hc, _⟩ := print_head (hl j' hj') p k
          simp [hc]
        have key := elements_parsed (ih j (by simp)) (fun j hj => ih j (by simp [hj])) hlen p (k + 1) k n rest _ rfl (by omega)
        rw [value, skipSpace_stay (by decide)]
        show (match skipSpace _ with
          | 93 :: r' => some (Json.arr [], r')
          | r' => (elements n d r').map (fun (x : List Json × Bytes) => (Json.arr x.1, x.2))) = _
        rw [skipSpace_newline]
        rw [hc, List.cons_append] at key ⊢
        rw [skipSpace_stay hsp]
        split
        · next heq => injection heq with heq; exact absurd heq h93
        · rw [key]; rfl
  | obj hk hl ih =>
    next d l =>
    intro p k n rest hd hn
    cases n with
    | zero => omega
    | succ n =>
      cases l with
      | nil => rw [printAt]; rfl
      | cons e r =>
        obtain ⟨key, j⟩ := e
        rw [printAt] at hn ⊢
        simp only [List.length_append, List.length_cons] at hn
        simp only [List.append_assoc, List.cons_append, List.nil_append]
        have hkey := members_parsed (d := d) (l := r) (e := (key, j)) ⟨hk _ (by simp), ih _ (by simp)⟩ (fun e he => ⟨hk e (by simp [he]), ih e (by simp [he])⟩) p (k + 1) k n rest _ rfl (by simp only; omega)
        rw [value, skipSpace_stay (by decide)]
        show (match skipSpace _ with
          | 125 :: r' => some (Json.obj [], r')
          | r' => (members n d r').map (fun (x : List (Str × Json) × Bytes) => (Json.obj x.1, x.2))) = _
        rw [skipSpace_newline]
        simp only [printStr_eq, List.cons_append] at hkey ⊢
        rw [skipSpace_stay (by decide)]
        show (members n d (34 :: _)).map _ = _
        rw [hkey]; rfl

theorem json_round_trip (p : Bool) {j : Json} (h : Writable 10000 j) : parseJson (printJson p j) = some j := by
  unfold parseJson printJson
  have := value_parsed h p 0 ((printAt p 0 j).length + 1) [] delim_nil (by omega)
  rw [List.append_nil] at this
  rw [this]
  rfl

end Tuf.Std
