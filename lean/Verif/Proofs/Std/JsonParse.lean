import Verif.Proofs.Std.JsonText

/-! What the parser returns can be written. -/

namespace Tuf.Std
open Tuf Tuf.Spec

/-! ## Numbers -/

theorem takeDigits_digit (s : Bytes) : ∀ c ∈ (takeDigits s).1, isDigit c = true := by
  induction s with
  | nil => simp [takeDigits]
  | cons c s ih =>
    rw [takeDigits]
    split
    · next hc =>
      intro c' hc'
      rcases List.mem_cons.1 hc' with rfl | h
      · exact hc
      · exact ih c' h
    · simp

theorem takeDigits_spec {s ds r : Bytes} (h : takeDigits s = (ds, r)) (hne : ds ≠ []) : Digits ds := by
  have := takeDigits_digit s
  rw [h] at this
  exact ⟨hne, this⟩

theorem fraction_spec {s f r : Bytes} (h : fraction s = some (f, r)) : Fraction f := by
  unfold fraction at h
  split at h
  · split at h
    · cases h
    · next hne heq =>
      cases h
      exact .inr ⟨_, takeDigits_spec heq (by rintro rfl; exact hne rfl), rfl⟩
  · cases h; exact .inl rfl

theorem exponent_spec {s e r : Bytes} (h : exponent s = some (e, r)) : Exponent e := by
  cases s with
  | nil => cases h; exact .inl rfl
  | cons c s =>
    rw [exponent] at h
    split at h
    · next hc =>
      split at h
      · cases h
      · next hne heq =>
        cases h
        refine .inr ⟨c, (expSign s).1, _, hc, ?_, takeDigits_spec heq (by rintro rfl; exact hne rfl), rfl⟩
        unfold expSign
        split
        · exact .inr (.inl rfl)
        · exact .inr (.inr rfl)
        · exact .inl rfl
    · cases h; exact .inl rfl

theorem unsigned_spec {s ds l r : Bytes} (h : unsigned s = some (ds, l, r)) : IntDigits ds ∧ ∃ f e, Fraction f ∧ Exponent e ∧ l = f ++ e := by
  unfold unsigned at h
  split at h
  · cases h
  · cases h
  · next h1 h2 heq =>
    split at h
    · cases h
    · next hf =>
      split at h
      · cases h
      · next he =>
        cases h
        refine ⟨⟨takeDigits_spec heq (by rintro rfl; exact h1 rfl), ?_⟩, _, _, fraction_spec hf, exponent_spec he, rfl⟩
        intro h0
        cases ds with
        | nil => cases h0
        | cons c t =>
          simp at h0
          subst h0
          cases t with
          | nil => rfl
          | cons c' t => exact (h2 _ _ rfl).elim

theorem negZero_lit : FracLit [45, 48] :=
  ⟨[45], [48], [], [], .inr rfl, ⟨⟨by simp, by decide⟩, by decide⟩, .inl rfl, .inl rfl, .inr (.inr ⟨rfl, rfl⟩), rfl⟩

theorem number_writable {s r : Bytes} {j : Json} (h : number s = some (j, r)) (d : Nat) : Writable d j := by
  have lit : ∀ {sign ds f e : Bytes}, (sign = [] ∨ sign = [45]) → IntDigits ds → Fraction f → Exponent e → f ++ e ≠ [] → Writable d (.frac (sign ++ ds ++ (f ++ e))) := by
    intro sign ds f e hs h1 h2 h3 hne
    refine .frac ⟨sign, ds, f, e, hs, h1, h2, h3, ?_, by simp⟩
    cases f with
    | nil => exact .inr (.inl (by simpa using hne))
    | cons c t => exact .inl (by simp)
  unfold number at h
  split at h
  · split at h
    · cases h
    · cases h
      split
      · exact .frac negZero_lit
      · exact .num
    · next hne heq =>
      cases h
      obtain ⟨h1, f, e, h2, h3, rfl⟩ := unsigned_spec heq
      exact lit (.inr rfl) h1 h2 h3 (fun h => by simp [h] at hne)
  · split at h
    · cases h
    · cases h; exact .num
    · next hne heq =>
      cases h
      obtain ⟨h1, f, e, h2, h3, rfl⟩ := unsigned_spec heq
      exact lit (.inl rfl) h1 h2 h3 (fun h => by simp [h] at hne)

/-! ## Values -/

theorem parsed_writable (n : Nat) :
    (∀ d s j r, value n d s = some (j, r) → Writable d j) ∧
    (∀ d s l r, elements n d s = some (l, r) → ∀ j ∈ l, Writable d j) ∧
    (∀ d s m r, members n d s = some (m, r) → (∀ e ∈ m, Utf8 e.1) ∧ ∀ e ∈ m, Writable d e.2) := by
  induction n with
  | zero =>
    refine ⟨?_, ?_, ?_⟩
    · intro d s j r h; simp [value] at h
    · intro d s j r h; simp [elements] at h
    · intro d s j r h; simp [members] at h
  | succ n ih =>
    obtain ⟨ih1, ih2, ih3⟩ := ih
    refine ⟨?_, ?_, ?_⟩
    · intro d s j r h
      rw [value] at h
      split at h
      · cases h
      · obtain ⟨⟨b, r'⟩, h1, h2⟩ := Option.map_eq_some_iff.1 h
        cases h2
        obtain ⟨t, rfl, hb⟩ := stringRest_sound h1
        rw [raw_take]
        unfold stringJson
        split
        · exact .str (stringRest_utf8 h1)
        · next hn =>
          simp only [not_or, Classical.not_not] at hn
          exact .esc hb hn.1 hn.2
      · cases h; exact .bool
      · cases h; exact .bool
      · cases h; exact .null
      · split at h
        · cases h
        · split at h
          · cases h; exact .arr (by simp)
          · obtain ⟨⟨b, r'⟩, h1, h2⟩ := Option.map_eq_some_iff.1 h
            cases h2
            exact .arr (ih2 _ _ _ _ h1)
      · split at h
        · cases h
        · split at h
          · cases h; exact .obj (by simp) (by simp)
          · obtain ⟨⟨b, r'⟩, h1, h2⟩ := Option.map_eq_some_iff.1 h
            cases h2
            exact .obj (ih3 _ _ _ _ h1).1 (ih3 _ _ _ _ h1).2
      · exact number_writable h d
    · intro d s l r h
      rw [elements] at h
      split at h
      · cases h
      · next hv =>
        split at h
        · obtain ⟨⟨b, r'⟩, h1, h2⟩ := Option.map_eq_some_iff.1 h
          cases h2
          intro j hj
          rcases List.mem_cons.1 hj with rfl | hj
          · exact ih1 _ _ _ _ hv
          · exact ih2 _ _ _ _ h1 j hj
        · cases h
          intro j hj
          rw [List.mem_singleton.1 hj]
          exact ih1 _ _ _ _ hv
        · cases h
    · intro d s m r h
      rw [members] at h
      split at h
      · split at h
        · cases h
        · next hk =>
          split at h
          · split at h
            · cases h
            · next hv =>
              split at h
              · obtain ⟨⟨b, r'⟩, h1, h2⟩ := Option.map_eq_some_iff.1 h
                cases h2
                obtain ⟨hu, hw⟩ := ih3 _ _ _ _ h1
                constructor
                · intro e he
                  rcases List.mem_cons.1 he with rfl | he
                  · exact stringRest_utf8 hk
                  · exact hu e he
                · intro e he
                  rcases List.mem_cons.1 he with rfl | he
                  · exact ih1 _ _ _ _ hv
                  · exact hw e he
              · cases h
                constructor
                · intro e he
                  rw [List.mem_singleton.1 he]
                  exact stringRest_utf8 hk
                · intro e he
                  rw [List.mem_singleton.1 he]
                  exact ih1 _ _ _ _ hv
              · cases h
          · cases h
      · cases h

theorem parseJson_writable {s : Bytes} {j : Json} (h : parseJson s = some j) : Writable 10000 j := by
  unfold parseJson at h
  split at h
  · cases h
  · next hv =>
    split at h
    · cases h; exact (parsed_writable _).1 _ _ _ _ hv
    · cases h

end Tuf.Std
