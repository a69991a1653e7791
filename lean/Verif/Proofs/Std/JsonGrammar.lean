import Verif.Spec.Std.JsonGrammar
import Verif.Proofs.Std.JsonParse

/-! # The parser reads the grammar -/

namespace Tuf.Std
open Tuf Tuf.Spec

/-! ## Numbers -/

theorem digitsVal_acc (ds : Bytes) (a : Nat) : ds.foldl (fun n c => n * 10 + (c.toNat - 48)) a = a * 10 ^ ds.length + digitsNumber ds := by
  induction ds generalizing a with
  | nil => simp [digitsNumber]
  | cons c ds ih =>
    rw [List.foldl_cons, ih, digitsNumber, List.length_cons, Nat.pow_succ, Nat.add_mul, Nat.mul_assoc, Nat.mul_comm 10, Nat.add_assoc]

theorem digitsVal_eq (ds : Bytes) : digitsVal ds = digitsNumber ds := by
  rw [digitsVal, digitsVal_acc]
  simp

theorem takeDigits_append (s : Bytes) : (takeDigits s).1 ++ (takeDigits s).2 = s := by
  induction s with
  | nil => rfl
  | cons c s ih =>
    rw [takeDigits]
    split
    · show c :: ((takeDigits s).1 ++ (takeDigits s).2) = _
      rw [ih]
    · rfl

theorem takeDigits_eq {s ds r : Bytes} (h : takeDigits s = (ds, r)) : s = ds ++ r := by
  have := takeDigits_append s
  rw [h] at this
  exact this.symm

theorem fraction_eq {s f r : Bytes} (h : fraction s = some (f, r)) : s = f ++ r := by
  unfold fraction at h
  split at h
  · split at h
    · cases h
    · next heq =>
      cases h
      rw [takeDigits_eq heq]
      rfl
  · cases h; rfl

theorem expSign_eq (s : Bytes) : s = (expSign s).1 ++ (expSign s).2 := by
  unfold expSign
  split <;> rfl

theorem exponent_eq {s e r : Bytes} (h : exponent s = some (e, r)) : s = e ++ r := by
  cases s with
  | nil => cases h; rfl
  | cons c s =>
    rw [exponent] at h
    split at h
    · split at h
      · cases h
      · next heq =>
        cases h
        have := takeDigits_eq heq
        conv => lhs; rw [expSign_eq s, this]
        simp
    · cases h; rfl

theorem unsigned_eq {s ds l r : Bytes} (h : unsigned s = some (ds, l, r)) : s = ds ++ l ++ r := by
  unfold unsigned at h
  split at h
  · cases h
  · cases h
  · next heq =>
    split at h
    · cases h
    · next hf =>
      split at h
      · cases h
      · next he =>
        cases h
        rw [takeDigits_eq heq, fraction_eq hf, exponent_eq he]
        simp

theorem number_sound {s r : Bytes} {j : Json} (h : number s = some (j, r)) : ∃ t, s = t ++ r ∧ ∀ d, ValueText d t j := by
  have lit : ∀ {sign ds f e : Bytes}, (sign = [] ∨ sign = [45]) → IntDigits ds → Fraction f → Exponent e → f ++ e ≠ [] → ∀ d, ValueText d (sign ++ ds ++ (f ++ e)) (.frac (sign ++ ds ++ (f ++ e))) := by
    intro sign ds f e hs h1 h2 h3 hne d
    refine .frac ⟨sign, ds, f, e, hs, h1, h2, h3, ?_, by simp⟩
    cases f with
    | nil => exact .inr (.inl (by simpa using hne))
    | cons c t => exact .inl (by simp)
  unfold number at h
  split at h
  · split at h
    · cases h
    · next ds r' heq =>
      cases h
      have := unsigned_eq heq
      refine ⟨45 :: ds, by rw [this]; simp, fun d => ?_⟩
      split
      · next hz =>
        subst hz
        exact .frac negZero_lit
      · next hz =>
        rw [digitsVal_eq]
        exact .neg (unsigned_spec heq).1 hz
    · next ds l r' hne heq =>
      cases h
      have hs := unsigned_eq heq
      obtain ⟨h1, f, e, h2, h3, rfl⟩ := unsigned_spec heq
      exact ⟨_, by rw [hs]; simp, lit (.inr rfl) h1 h2 h3 (fun h => by simp [h] at hne)⟩
  · split at h
    · cases h
    · next ds r' heq =>
      cases h
      have := unsigned_eq heq
      refine ⟨ds, by rw [this]; simp, fun d => ?_⟩
      rw [digitsVal_eq]
      exact .nat (unsigned_spec heq).1
    · next ds l r' hne heq =>
      cases h
      have hs := unsigned_eq heq
      obtain ⟨h1, f, e, h2, h3, rfl⟩ := unsigned_spec heq
      exact ⟨_, by rw [hs]; rfl, lit (sign := []) (.inl rfl) h1 h2 h3 (fun h => by simp [h] at hne)⟩

/-! ## Values -/

theorem isSpace_iff (c : UInt8) : isSpace c = true ↔ c = 32 ∨ c = 9 ∨ c = 10 ∨ c = 13 := by simp [isSpace, or_assoc]

theorem skipSpace_split (s : Bytes) : ∃ w, Space w ∧ s = w ++ skipSpace s := by
  induction s with
  | nil => exact ⟨[], by simp [Space], rfl⟩
  | cons c s ih =>
    rw [skipSpace]
    split
    · next hc =>
      obtain ⟨w, hw, he⟩ := ih
      refine ⟨c :: w, ?_, ?_⟩
      · intro x hx
        rcases List.mem_cons.1 hx with rfl | hx
        · exact (isSpace_iff _).1 hc
        · exact hw x hx
      · rw [List.cons_append, ← he]
    · exact ⟨[], by simp [Space], rfl⟩

theorem skipSpace_eq {s r : Bytes} (h : skipSpace s = r) : ∃ w, Space w ∧ s = w ++ r := by
  obtain ⟨w, hw, he⟩ := skipSpace_split s
  exact ⟨w, hw, by rw [he, h]⟩

theorem skipSpace_append {w : Bytes} (h : Space w) (s : Bytes) : skipSpace (w ++ s) = skipSpace s := by
  induction w with
  | nil => rfl
  | cons c w ih =>
    rw [List.cons_append, skipSpace, if_pos ((isSpace_iff c).2 (h c (by simp)))]
    exact ih (fun x hx => h x (by simp [hx]))

theorem space_nil : Space [] := by simp [Space]

theorem value_sound (n : Nat) :
    (∀ d s j r, value n d s = some (j, r) → ∃ w t, s = w ++ t ++ r ∧ Space w ∧ ValueText d t j) ∧
    (∀ d s l r, elements n d s = some (l, r) → ∃ t, s = t ++ 93 :: r ∧ ElementsText d t l) ∧
    (∀ d s m r, members n d s = some (m, r) → ∃ t, s = t ++ 125 :: r ∧ MembersText d t m) := by
  induction n with
  | zero =>
    refine ⟨?_, ?_, ?_⟩
    · intro d s j r h; simp [value] at h
    · intro d s j r h; simp [elements] at h
    · intro d s j r h; simp [members] at h
  | succ n ih =>
    obtain ⟨ih1, ih2, ih3⟩ := ih
    refine ⟨?_, ?_, ?_⟩
    · intro d s j r h
      rw [value] at h
      obtain ⟨w, hw, hs⟩ := skipSpace_split s
      suffices ∃ t, skipSpace s = t ++ r ∧ ValueText d t j by
        obtain ⟨t, ht, hv⟩ := this
        exact ⟨w, t, by rw [List.append_assoc, ← ht]; exact hs, hw, hv⟩
      split at h
      · cases h
      · next heq =>
        rw [heq]
        obtain ⟨⟨b, r'⟩, h1, h2⟩ := Option.map_eq_some_iff.1 h
        cases h2
        obtain ⟨t, rfl, hb⟩ := stringRest_sound h1
        rw [raw_take]
        refine ⟨34 :: t ++ [34], by simp, ?_⟩
        unfold stringJson
        split
        · next hn => exact .str hb hn
        · next hn =>
          simp only [not_or, Classical.not_not] at hn
          exact .esc hb hn.1 hn.2
      · next heq => rw [heq]; cases h; exact ⟨b!"true", rfl, .true⟩
      · next heq => rw [heq]; cases h; exact ⟨b!"false", rfl, .false⟩
      · next heq => rw [heq]; cases h; exact ⟨b!"null", rfl, .null⟩
      · next r0 heq =>
        rw [heq]
        split at h
        · cases h
        · split at h
          · next hsk =>
            cases h
            obtain ⟨w', hw', rfl⟩ := skipSpace_eq hsk
            exact ⟨91 :: w' ++ [93], by simp, .noElements hw'⟩
          · obtain ⟨⟨b, r'⟩, h1, h2⟩ := Option.map_eq_some_iff.1 h
            cases h2
            obtain ⟨w', hw', hr0⟩ := skipSpace_split r0
            obtain ⟨t, ht, hel⟩ := ih2 _ _ _ _ h1
            refine ⟨91 :: (w' ++ t) ++ [93], by rw [hr0, ht]; simp, .arr ?_⟩
            cases hel with
            | one ha hv hb => rw [← List.append_assoc, ← List.append_assoc]; exact .one (fun x hx => by rcases List.mem_append.1 hx with hx | hx; exact hw' x hx; exact ha x hx) hv hb
            | more ha hv hb hr =>
              have := ElementsText.more (a := w' ++ _) (fun x hx => by rcases List.mem_append.1 hx with hx | hx; exact hw' x hx; exact ha x hx) hv hb hr
              simpa using this
      · next r0 heq =>
        rw [heq]
        split at h
        · cases h
        · split at h
          · next hsk =>
            cases h
            obtain ⟨w', hw', rfl⟩ := skipSpace_eq hsk
            exact ⟨123 :: w' ++ [125], by simp, .noMembers hw'⟩
          · obtain ⟨⟨b, r'⟩, h1, h2⟩ := Option.map_eq_some_iff.1 h
            cases h2
            obtain ⟨w', hw', hr0⟩ := skipSpace_split r0
            obtain ⟨t, ht, hel⟩ := ih3 _ _ _ _ h1
            refine ⟨123 :: (w' ++ t) ++ [125], by rw [hr0, ht]; simp, .obj ?_⟩
            cases hel with
            | one ha hk hb hc hv he =>
              have := MembersText.one (a := w' ++ _) (fun x hx => by rcases List.mem_append.1 hx with hx | hx; exact hw' x hx; exact ha x hx) hk hb hc hv he
              simpa using this
            | more ha hk hb hc hv he hr =>
              have := MembersText.more (a := w' ++ _) (fun x hx => by rcases List.mem_append.1 hx with hx | hx; exact hw' x hx; exact ha x hx) hk hb hc hv he hr
              simpa using this
      · next heq =>
        rw [heq]
        obtain ⟨t, ht, hv⟩ := number_sound h
        exact ⟨t, ht, hv d⟩
    · intro d s l r h
      rw [elements] at h
      split at h
      · cases h
      · next j r1 hv =>
        obtain ⟨w, t, rfl, hw, ht⟩ := ih1 _ _ _ _ hv
        split at h
        · next hsk =>
          obtain ⟨w', hw', rfl⟩ := skipSpace_eq hsk
          obtain ⟨⟨b, r'⟩, h1, h2⟩ := Option.map_eq_some_iff.1 h
          cases h2
          obtain ⟨t', rfl, hel⟩ := ih2 _ _ _ _ h1
          exact ⟨w ++ t ++ w' ++ 44 :: t', by simp, .more hw ht hw' hel⟩
        · next hsk =>
          obtain ⟨w', hw', rfl⟩ := skipSpace_eq hsk
          cases h
          exact ⟨w ++ t ++ w', by simp, .one hw ht hw'⟩
        · cases h
    · intro d s m r h
      rw [members] at h
      split at h
      · next r0 hsk =>
        obtain ⟨a, ha, rfl⟩ := skipSpace_eq hsk
        split at h
        · cases h
        · next k r1 hk =>
          obtain ⟨t, rfl, hb⟩ := stringRest_sound hk
          split at h
          · next r2 hsk2 =>
            obtain ⟨b, hb', rfl⟩ := skipSpace_eq hsk2
            split at h
            · cases h
            · next j r3 hv =>
              obtain ⟨c, u, rfl, hc, hu⟩ := ih1 _ _ _ _ hv
              split at h
              · next hsk3 =>
                obtain ⟨e, he, rfl⟩ := skipSpace_eq hsk3
                obtain ⟨⟨b1, r'⟩, h1, h2⟩ := Option.map_eq_some_iff.1 h
                cases h2
                obtain ⟨t', rfl, hel⟩ := ih3 _ _ _ _ h1
                exact ⟨a ++ 34 :: t ++ 34 :: b ++ 58 :: c ++ u ++ e ++ 44 :: t', by simp, .more ha hb hb' hc hu he hel⟩
              · next hsk3 =>
                obtain ⟨e, he, rfl⟩ := skipSpace_eq hsk3
                cases h
                exact ⟨a ++ 34 :: t ++ 34 :: b ++ 58 :: c ++ u ++ e, by simp, .one ha hb hb' hc hu he⟩
              · cases h
          · cases h
      · cases h

theorem delim_space {w r : Bytes} (h : Space w) (hr : Delim r) : Delim (w ++ r) := by
  cases w with
  | nil => exact hr
  | cons c w =>
    intro c' hc'
    simp at hc'
    subst hc'
    rcases h c (by simp) with rfl | rfl | rfl | rfl <;> decide

/-- No value begins with white space or with a closing bracket. -/
theorem value_head {d : Nat} {t : Bytes} {j : Json} (h : ValueText d t j) : ∃ c r, t = c :: r ∧ isSpace c = false ∧ c ≠ 93 ∧ c ≠ 125 := by
  have digit : ∀ {c : UInt8}, (c = 45 ∨ isDigit c = true) → isSpace c = false ∧ c ≠ 93 ∧ c ≠ 125 := by
    intro c hc
    rcases numeric_cases hc with rfl | rfl | rfl | rfl | rfl | rfl | rfl | rfl | rfl | rfl | rfl <;> decide
  cases h with
  | null => exact ⟨_, _, rfl, by decide, by decide, by decide⟩
  | true => exact ⟨_, _, rfl, by decide, by decide, by decide⟩
  | false => exact ⟨_, _, rfl, by decide, by decide, by decide⟩
  | nat h => obtain ⟨c, r, rfl, hc⟩ := head_int h; exact ⟨c, r, rfl, digit (.inr hc)⟩
  | neg h => exact ⟨_, _, rfl, by decide, by decide, by decide⟩
  | frac h =>
    obtain ⟨sign, ds, f, e, hs, h1, _, _, _, rfl⟩ := h
    rcases hs with rfl | rfl
    · obtain ⟨c, t, rfl, hd⟩ := head_int h1
      exact ⟨c, _, rfl, digit (.inr hd)⟩
    · exact ⟨45, _, rfl, digit (.inl rfl)⟩
  | str => exact ⟨_, _, rfl, by decide, by decide, by decide⟩
  | esc => exact ⟨_, _, rfl, by decide, by decide, by decide⟩
  | noElements => exact ⟨_, _, rfl, by decide, by decide, by decide⟩
  | arr => exact ⟨_, _, rfl, by decide, by decide, by decide⟩
  | noMembers => exact ⟨_, _, rfl, by decide, by decide, by decide⟩
  | obj => exact ⟨_, _, rfl, by decide, by decide, by decide⟩

theorem value_arr (n d : Nat) (s r : Bytes) (h : ∃ c t, skipSpace s = c :: t ∧ c ≠ 93) (l : List Json) (hl : elements n d (skipSpace s) = some (l, r)) :
    value (n + 1) (d + 1) (91 :: s) = some (.arr l, r) := by
  rw [value, skipSpace_stay (by decide)]
  show (match skipSpace s with
    | 93 :: r' => some (Json.arr [], r')
    | r' => (elements n d r').map (fun (x : List Json × Bytes) => (Json.arr x.1, x.2))) = _
  obtain ⟨c, t, hs, hc⟩ := h
  rw [hs] at hl ⊢
  split
  · next heq => injection heq with heq; exact absurd heq hc
  · rw [hl]; rfl

theorem value_obj (n d : Nat) (s r : Bytes) (h : ∃ c t, skipSpace s = c :: t ∧ c ≠ 125) (l : List (Str × Json)) (hl : members n d (skipSpace s) = some (l, r)) :
    value (n + 1) (d + 1) (123 :: s) = some (.obj l, r) := by
  rw [value, skipSpace_stay (by decide)]
  show (match skipSpace s with
    | 125 :: r' => some (Json.obj [], r')
    | r' => (members n d r').map (fun (x : List (Str × Json) × Bytes) => (Json.obj x.1, x.2))) = _
  obtain ⟨c, t, hs, hc⟩ := h
  rw [hs] at hl ⊢
  split
  · next heq => injection heq with heq; exact absurd heq hc
  · rw [hl]; rfl

theorem skipSpace_skip (s : Bytes) : skipSpace (skipSpace s) = skipSpace s := by
  obtain ⟨w, hw, h⟩ := skipSpace_split s
  have := skipSpace_append hw (skipSpace s)
  rw [← h] at this
  exact this.symm

theorem elements_skip {n d : Nat} {s t : Bytes} (h : skipSpace s = skipSpace t) : elements n d s = elements n d t := by
  cases n with
  | zero => simp [elements]
  | succ n => rw [elements, elements, value_skip h]

theorem members_skip {n d : Nat} {s t : Bytes} (h : skipSpace s = skipSpace t) : members n d s = members n d t := by
  cases n with
  | zero => simp [members]
  | succ n => rw [members, members, h]

theorem value_complete {d : Nat} {t : Bytes} {j : Json} (h : ValueText d t j) :
    ∀ n rest, ((∃ m, j = .obj m) ∨ Delim rest) → t.length < n → value n d (t ++ rest) = some (j, rest) := by
  refine ValueText.rec (motive_1 := fun d t j _ => ∀ n rest, ((∃ m, j = .obj m) ∨ Delim rest) → t.length < n → value n d (t ++ rest) = some (j, rest))
    (motive_2 := fun d t l _ => ∀ n rest, t.length + 1 < n → elements n d (t ++ 93 :: rest) = some (l, rest) ∧ ∃ c r, skipSpace (t ++ 93 :: rest) = c :: r ∧ c ≠ 93)
    (motive_3 := fun d t m _ => ∀ n rest, t.length + 1 < n → members n d (t ++ 125 :: rest) = some (m, rest) ∧ ∃ c r, skipSpace (t ++ 125 :: rest) = c :: r ∧ c ≠ 125)
    ?_ ?_ ?_ ?_ ?_ ?_ ?_ ?_ ?_ ?_ ?_ ?_ ?_ ?_ ?_ ?_ h
  · intro d n rest hd hn
    cases n with
    | zero => omega
    | succ n => rfl
  · intro d n rest hd hn
    cases n with
    | zero => omega
    | succ n => rfl
  · intro d n rest hd hn
    cases n with
    | zero => omega
    | succ n => rfl
  · intro d ds hds n rest hd hn
    replace hd := hd.resolve_left (by rintro ⟨m, h⟩; cases h)
    cases n with
    | zero => omega
    | succ n =>
      have := number_pos hds (.inl rfl) (.inl rfl) hd
      simp only [List.append_nil, if_true] at this
      obtain ⟨c, t, rfl, hc⟩ := head_int hds
      rw [List.cons_append] at this ⊢
      rw [value_number (.inr hc), this, digitsVal_eq]
  · intro d ds hds hz n rest hd hn
    replace hd := hd.resolve_left (by rintro ⟨m, h⟩; cases h)
    cases n with
    | zero => omega
    | succ n =>
      have := number_neg hds (.inl rfl) (.inl rfl) hd
      simp only [List.append_nil, true_and, if_pos hz] at this
      rw [List.cons_append, value_number (.inl rfl), this, digitsVal_eq]
  · intro d l hl n rest hd hn
    replace hd := hd.resolve_left (by rintro ⟨m, h⟩; cases h)
    cases n with
    | zero => omega
    | succ n =>
      rw [← number_lit hl hd]
      have : ∃ c t, l = c :: t ∧ (c = 45 ∨ isDigit c = true) := by
        obtain ⟨sign, ds, f, e, hs, h1, _, _, _, rfl⟩ := hl
        rcases hs with rfl | rfl
        · obtain ⟨c, t, rfl, hd⟩ := head_int h1
          exact ⟨c, _, rfl, .inr hd⟩
        · exact ⟨45, _, rfl, .inl rfl⟩
      obtain ⟨c, t, he, hc⟩ := this
      rw [he, List.cons_append, value_number hc]
  · intro d t s hs hv n rest hd hn
    cases n with
    | zero => omega
    | succ n =>
      rw [List.cons_append, List.cons_append, List.append_assoc, List.cons_append, List.nil_append, string_value hs, stringJson_str hv]
  · intro d t s hs hne hv n rest hd hn
    cases n with
    | zero => omega
    | succ n =>
      rw [List.cons_append, List.cons_append, List.append_assoc, List.cons_append, List.nil_append, string_value hs, stringJson_esc hne hv]
  · intro d w hw n rest hd hn
    cases n with
    | zero => omega
    | succ n =>
      rw [List.cons_append, List.cons_append, List.append_assoc, List.cons_append, List.nil_append, value, skipSpace_stay (by decide)]
      show (match skipSpace (w ++ 93 :: rest) with
        | 93 :: r' => some (Json.arr [], r')
        | r' => (elements n d r').map (fun (x : List Json × Bytes) => (Json.arr x.1, x.2))) = _
      rw [skipSpace_append hw, skipSpace_stay (by decide)]
      rfl
  · intro d t l _ ih n rest hd hn
    cases n with
    | zero => omega
    | succ n =>
      simp only [List.length_cons, List.length_append, List.length_nil] at hn
      obtain ⟨h1, h2⟩ := ih n rest (by omega)
      rw [List.cons_append, List.cons_append, List.append_assoc, List.cons_append, List.nil_append]
      exact value_arr n d _ _ h2 l (by rw [elements_skip (skipSpace_skip _)]; exact h1)
  · intro d w hw n rest hd hn
    cases n with
    | zero => omega
    | succ n =>
      rw [List.cons_append, List.cons_append, List.append_assoc, List.cons_append, List.nil_append, value, skipSpace_stay (by decide)]
      show (match skipSpace (w ++ 125 :: rest) with
        | 125 :: r' => some (Json.obj [], r')
        | r' => (members n d r').map (fun (x : List (Str × Json) × Bytes) => (Json.obj x.1, x.2))) = _
      rw [skipSpace_append hw, skipSpace_stay (by decide)]
      rfl
  · intro d t l _ ih n rest hd hn
    cases n with
    | zero => omega
    | succ n =>
      simp only [List.length_cons, List.length_append, List.length_nil] at hn
      obtain ⟨h1, h2⟩ := ih n rest (by omega)
      rw [List.cons_append, List.cons_append, List.append_assoc, List.cons_append, List.nil_append]
      exact value_obj n d _ _ h2 l (by rw [members_skip (skipSpace_skip _)]; exact h1)
  · intro d a t b j ha hv hb ih n rest hn
    obtain ⟨c, r, rfl, hsp, h93, _⟩ := value_head hv
    cases n with
    | zero => omega
    | succ n =>
      simp only [List.length_append] at hn
      have hsk : skipSpace (a ++ c :: r ++ b ++ 93 :: rest) = skipSpace (c :: r ++ (b ++ 93 :: rest)) := by simp only [List.append_assoc, skipSpace_append ha]
      refine ⟨elements_end ((value_skip hsk).trans (ih n _ (.inr <| delim_space hb (delim_cons (by simp) _)) (by omega))) (by rw [skipSpace_append hb, skipSpace_stay (by decide)]), c, r ++ (b ++ 93 :: rest), ?_, h93⟩
      rw [hsk, List.cons_append, skipSpace_stay hsp]
  · intro d a t b r' j l ha hv hb _ ih ih' n rest hn
    obtain ⟨c, r, rfl, hsp, h93, _⟩ := value_head hv
    cases n with
    | zero => omega
    | succ n =>
      simp only [List.length_append, List.length_cons] at hn
      have hsk : skipSpace (a ++ c :: r ++ b ++ 44 :: r' ++ 93 :: rest) = skipSpace (c :: r ++ (b ++ 44 :: (r' ++ 93 :: rest))) := by simp only [List.append_assoc, skipSpace_append ha, List.cons_append]
      refine ⟨?_, c, r ++ (b ++ 44 :: (r' ++ 93 :: rest)), ?_, h93⟩
      · rw [elements_comma ((value_skip hsk).trans (ih n _ (.inr <| delim_space hb (delim_cons (.inl rfl) _)) (by simp; omega))) (by rw [skipSpace_append hb, skipSpace_stay (by decide)]),
          (ih' n rest (by omega)).1]
        rfl
      · rw [hsk, List.cons_append, skipSpace_stay hsp]
  · intro d a t b c u e k j ha hk hb hc hv he ih n rest hn
    cases n with
    | zero => omega
    | succ n =>
      simp only [List.length_append, List.length_cons] at hn
      have hsk : skipSpace (a ++ 34 :: t ++ 34 :: b ++ 58 :: c ++ u ++ e ++ 125 :: rest) = 34 :: (t ++ 34 :: (b ++ 58 :: (c ++ (u ++ (e ++ 125 :: rest))))) := by
        simp only [List.append_assoc, skipSpace_append ha, List.cons_append]
        exact skipSpace_stay (by decide)
      refine ⟨?_, _, _, hsk, by decide⟩
      have hval : value n d (c ++ (u ++ (e ++ 125 :: rest))) = some (j, e ++ 125 :: rest) := by
        rw [value_skip (skipSpace_append hc _)]
        exact ih n _ (.inr <| delim_space he (delim_cons (by simp) _)) (by omega)
      exact (members_member hsk (stringRest_complete hk _ _ (by simp <;> omega)) (by rw [skipSpace_append hb, skipSpace_stay (by decide)]) hval).2 _ (by rw [skipSpace_append he, skipSpace_stay (by decide)])
  · intro d a t b c u e r' k j m ha hk hb hc hv he _ ih ih' n rest hn
    cases n with
    | zero => omega
    | succ n =>
      simp only [List.length_append, List.length_cons] at hn
      have hsk : skipSpace (a ++ 34 :: t ++ 34 :: b ++ 58 :: c ++ u ++ e ++ 44 :: r' ++ 125 :: rest) = 34 :: (t ++ 34 :: (b ++ 58 :: (c ++ (u ++ (e ++ 44 :: (r' ++ 125 :: rest)))))) := by
        simp only [List.append_assoc, skipSpace_append ha, List.cons_append]
        exact skipSpace_stay (by decide)
      refine ⟨?_, _, _, hsk, by decide⟩
      have hval : value n d (c ++ (u ++ (e ++ 44 :: (r' ++ 125 :: rest)))) = some (j, e ++ 44 :: (r' ++ 125 :: rest)) := by
        rw [value_skip (skipSpace_append hc _)]
        exact ih n _ (.inr <| delim_space he (delim_cons (by simp) _)) (by omega)
      rw [(members_member hsk (stringRest_complete hk _ _ (by simp <;> omega)) (by rw [skipSpace_append hb, skipSpace_stay (by decide)]) hval).1 _ (by rw [skipSpace_append he, skipSpace_stay (by decide)]),
        (ih' n rest (by omega)).1]
      rfl

theorem parseJson_iff (s : Bytes) (j : Json) : parseJson s = some j ↔ JsonText s j := by
  constructor
  · intro h
    unfold parseJson at h
    split at h
    · cases h
    · next r hv =>
      split at h
      · next hr =>
        cases h
        obtain ⟨a, t, rfl, ha, ht⟩ := (value_sound _).1 _ _ _ _ hv
        obtain ⟨b, hb, hr⟩ := skipSpace_eq hr
        exact ⟨a, t, b, ha, ht, hb, by rw [hr]; simp⟩
      · cases h
  · rintro ⟨a, t, b, ha, ht, hb, rfl⟩
    unfold parseJson
    have hd : Delim b := by
      have := delim_space hb delim_nil
      rwa [List.append_nil] at this
    rw [List.append_assoc, value_skip (skipSpace_append ha _), value_complete ht _ b (.inr hd) (by simp; omega)]
    have : skipSpace b = [] := by
      have := skipSpace_append hb []
      rwa [List.append_nil] at this
    dsimp only
    rw [if_pos this]

end Tuf.Std
