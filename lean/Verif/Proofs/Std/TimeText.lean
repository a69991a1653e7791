import Verif.Spec.Std.TimeText
import Verif.Proofs.Std.Time
import Verif.Proofs.Std.JsonGrammar

/-! The parser of times reads exactly the texts of times. -/

namespace Tuf.Std
open Tuf Tuf.Spec

theorem lit_iff {c : UInt8} {s r : Bytes} : lit c s = some r ↔ s = c :: r := by
  cases s with
  | nil => simp [lit]
  | cons a t =>
    rw [lit]
    split
    · next h => subst h; simp
    · next h => simp [h]

theorem two_iff {s r : Bytes} {n : Nat} : two s = some (n, r) ↔ ∃ ds, NumberText 2 ds n ∧ s = ds ++ r := by
  constructor
  · intro h
    unfold two at h
    split at h
    · next a b t =>
      split at h
      · next hd =>
        cases h
        simp only [Bool.and_eq_true] at hd
        refine ⟨[a, b], ?_, rfl⟩
        have := NumberText.mk (width := 2) (ds := [a, b]) rfl (by simp [hd.1, hd.2])
        simpa [digitsNumber] using this
      · cases h
    · cases h
  · rintro ⟨ds, ⟨h1, h2⟩, rfl⟩
    match ds, h1, h2 with
    | [a, b], _, h2 =>
      have ha := h2 a (by simp)
      have hb := h2 b (by simp)
      simp [two, ha, hb, digitsNumber]

theorem four_iff {s r : Bytes} {n : Nat} : four s = some (n, r) ↔ ∃ ds, NumberText 4 ds n ∧ s = ds ++ r := by
  constructor
  · intro h
    unfold four at h
    split at h
    · next a b c d t =>
      split at h
      · next hd =>
        cases h
        simp only [Bool.and_eq_true] at hd
        refine ⟨[a, b, c, d], ?_, rfl⟩
        rw [digitsVal_eq]
        exact NumberText.mk (width := 4) rfl (by simp [hd])
      · cases h
    · cases h
  · rintro ⟨ds, ⟨h1, h2⟩, rfl⟩
    match ds, h1, h2 with
    | [a, b, c, d], _, h2 =>
      have ha := h2 a (by simp)
      have hb := h2 b (by simp)
      have hc := h2 c (by simp)
      have hd := h2 d (by simp)
      simp [four, ha, hb, hc, hd, digitsVal_eq]

theorem below_iff {n m : Nat} {x : Option (Nat × Bytes)} {r : Bytes} : below n x = some (m, r) ↔ x = some (m, r) ∧ m < n :=
  ⟨below_eq, fun ⟨h1, h2⟩ => by rw [h1, below_some h2]⟩

/-- An hour is followed by a colon, so it is clear how many digits it has. -/
theorem hour_iff {s r : Bytes} {n : Nat} : oneOrTwo s = some (n, 58 :: r) ↔ ∃ ds, HourText ds n ∧ s = ds ++ 58 :: r := by
  constructor
  · intro h
    unfold oneOrTwo at h
    split at h
    · next ht =>
      cases h
      obtain ⟨ds, h1, h2⟩ := two_iff.1 ht
      exact ⟨ds, .two h1, h2⟩
    · cases s with
      | nil => cases h
      | cons a t =>
        dsimp only at h
        split at h
        · next hd =>
          cases h
          refine ⟨[a], .one ?_, rfl⟩
          have := NumberText.mk (width := 1) (ds := [a]) rfl (by simp [hd])
          simpa [digitsNumber] using this
        · cases h
  · rintro ⟨ds, h | h, rfl⟩
    · unfold oneOrTwo
      rw [two_iff.2 ⟨ds, h, rfl⟩]
    · obtain ⟨h1, h2⟩ := h
      match ds, h1, h2 with
      | [a], _, h2 =>
        have ha := h2 a (by simp)
        have : two (a :: 58 :: r) = none := by
          have : isDigit 58 = false := by decide
          simp [two, this]
        show oneOrTwo (a :: 58 :: r) = _
        unfold oneOrTwo
        rw [this]
        simp [ha, digitsNumber]

theorem date_iff {s r : Bytes} {y m d : Nat} : date s = some ((y, m, d), r) ↔
    (1 ≤ m ∧ m ≤ 12) ∧ (1 ≤ d ∧ d ≤ daysIn m y) ∧ ∃ ys ms ds, NumberText 4 ys y ∧ NumberText 2 ms m ∧ NumberText 2 ds d ∧ s = ys ++ 45 :: (ms ++ 45 :: (ds ++ r)) := by
  constructor
  · intro h
    unfold date at h
    split at h
    · cases h
    · next hy =>
      split at h
      · cases h
      · next h1 =>
        split at h
        · cases h
        · next hm =>
          split at h
          · cases h
          · next h2 =>
            split at h
            · cases h
            · next hd =>
              split at h
              · next hv =>
                cases h
                obtain ⟨hm, hm'⟩ := below_iff.1 hm
                obtain ⟨ys, k1, rfl⟩ := four_iff.1 hy
                obtain ⟨ms, k2, k3⟩ := two_iff.1 hm
                obtain ⟨ds, k4, k5⟩ := two_iff.1 hd
                rw [lit_iff] at h1 h2
                exact ⟨⟨hv.1, by omega⟩, hv.2, ys, ms, ds, k1, k2, k4, by rw [h1, k3, h2, k5]⟩
              · cases h
  · rintro ⟨h1, h2, ys, ms, ds, k1, k2, k3, rfl⟩
    unfold date
    rw [four_iff.2 ⟨ys, k1, rfl⟩]
    dsimp only
    rw [lit_cons]
    dsimp only
    rw [two_iff.2 ⟨ms, k2, rfl⟩, below_some (by omega)]
    dsimp only
    rw [lit_cons]
    dsimp only
    rw [two_iff.2 ⟨ds, k3, rfl⟩]
    dsimp only
    rw [if_pos ⟨h1.1, h2.1, h2.2⟩]

theorem clock_iff {s r : Bytes} {h m x : Nat} : clock s = some ((h, m, x), r) ↔
    h ≤ 23 ∧ m ≤ 59 ∧ x ≤ 59 ∧ ∃ hs ms xs, HourText hs h ∧ NumberText 2 ms m ∧ NumberText 2 xs x ∧ s = hs ++ 58 :: (ms ++ 58 :: (xs ++ r)) := by
  constructor
  · intro hc
    unfold clock at hc
    split at hc
    · cases hc
    · next h1 =>
      split at hc
      · cases hc
      · next h2 =>
        split at hc
        · cases hc
        · next h3 =>
          split at hc
          · cases hc
          · next h4 =>
            split at hc
            · cases hc
            · next h5 =>
              cases hc
              obtain ⟨h1, k1⟩ := below_iff.1 h1
              obtain ⟨h3, k2⟩ := below_iff.1 h3
              obtain ⟨h5, k3⟩ := below_iff.1 h5
              rw [lit_iff] at h2 h4
              subst h2
              subst h4
              obtain ⟨hs, k4, rfl⟩ := hour_iff.1 h1
              obtain ⟨ms, k5, rfl⟩ := two_iff.1 h3
              obtain ⟨xs, k6, rfl⟩ := two_iff.1 h5
              exact ⟨by omega, by omega, by omega, hs, ms, xs, k4, k5, k6, rfl⟩
  · rintro ⟨h1, h2, h3, hs, ms, xs, k1, k2, k3, rfl⟩
    unfold clock
    rw [hour_iff.2 ⟨hs, k1, rfl⟩, below_some (by omega)]
    dsimp only
    rw [lit_cons]
    dsimp only
    rw [two_iff.2 ⟨ms, k2, rfl⟩, below_some (by omega)]
    dsimp only
    rw [lit_cons]
    dsimp only
    rw [two_iff.2 ⟨xs, k3, rfl⟩, below_some (by omega)]

theorem offset_iff {s : Bytes} {o : Int} : offset s = some o ↔ ZoneText s o := by
  constructor
  · intro h
    cases s with
    | nil => cases h
    | cons c r =>
      rw [offset] at h
      split at h
      · next hc =>
        split at h
        · next hr => cases h; subst hc; subst hr; exact .utc
        · cases h
      · split at h
        · next hc =>
          split at h
          · cases h
          · next h1 =>
            split at h
            · cases h
            · next h2 =>
              split at h
              · next h3 =>
                split at h
                · next hv =>
                  obtain ⟨hs, k1, rfl⟩ := two_iff.1 h1
                  obtain rfl := lit_iff.1 h2
                  obtain ⟨ms, k2, k3⟩ := two_iff.1 h3
                  rw [List.append_nil] at k3
                  subst k3
                  simp only [Option.some.injEq] at h
                  rcases hc with rfl | rfl
                  · rw [if_neg (by decide), Nat.mul_comm] at h
                    rw [← h]
                    exact .east k1 k2 hv.2.1 (by omega)
                  · rw [if_pos rfl, Nat.mul_comm] at h
                    rw [← h]
                    exact .west k1 k2 hv.2.1 (by omega)
                · cases h
              · cases h
        · cases h
  · intro h
    cases h with
    | utc => rfl
    | @east hs ms h m k1 k2 k3 k4 =>
      rw [offset, if_neg (by decide), if_pos (.inl rfl), two_iff.2 ⟨hs, k1, rfl⟩]
      dsimp only
      rw [lit_cons]
      dsimp only
      rw [two_iff.2 ⟨ms, k2, (List.append_nil _).symm⟩]
      dsimp only
      rw [if_pos ⟨by omega, k3, by omega⟩, if_neg (by decide), Nat.mul_comm]
    | @west hs ms h m k1 k2 k3 k4 =>
      rw [offset, if_neg (by decide), if_pos (.inr rfl), two_iff.2 ⟨hs, k1, rfl⟩]
      dsimp only
      rw [lit_cons]
      dsimp only
      rw [two_iff.2 ⟨ms, k2, (List.append_nil _).symm⟩]
      dsimp only
      rw [if_pos ⟨by omega, k3, by omega⟩, if_pos rfl, Nat.mul_comm]

theorem fill_nine (ds : Bytes) : digitsVal (ds.take 9) * 10 ^ (9 - (ds.take 9).length) = digitsNumber ((ds ++ List.replicate 9 48).take 9) := by
  rw [← digitsVal_eq, List.take_append, List.take_replicate, digitsVal_append, digitsVal_zeros]
  simp only [List.length_take, List.length_replicate, Nat.add_zero]
  congr 2
  omega

theorem zone_head {z : Bytes} {o : Int} (h : ZoneText z o) : ∃ c r, z = c :: r ∧ (c = 90 ∨ c = 43 ∨ c = 45) := by
  cases h with
  | utc => exact ⟨_, _, rfl, .inl rfl⟩
  | east => exact ⟨_, _, rfl, .inr (.inl rfl)⟩
  | west => exact ⟨_, _, rfl, .inr (.inr rfl)⟩

theorem nanos_iff {s : Bytes} {n : Nat} {o : Int} : (∃ z, nanos s = (n, z) ∧ ZoneText z o) ↔ ∃ f z, NanoText f n ∧ ZoneText z o ∧ s = f ++ z := by
  constructor
  · rintro ⟨z, h, hz⟩
    cases s with
    | nil => cases h; exact ⟨[], [], .none, hz, rfl⟩
    | cons c r =>
      rw [nanos] at h
      split at h
      · next hc =>
        split at h
        · cases h; exact ⟨[], _, .none, hz, rfl⟩
        · next ds r' hne heq =>
          obtain ⟨h1, h2⟩ := Prod.mk.inj h
          have hds : ds ≠ [] := fun h => hne h
          rw [← h1, fill_nine]
          exact ⟨c :: ds, z, .some hc (takeDigits_spec heq hds), hz, by rw [takeDigits_eq heq, h2]; rfl⟩
      · cases h; exact ⟨[], _, .none, hz, rfl⟩
  · rintro ⟨f, z, hf, hz, rfl⟩
    refine ⟨z, ?_, hz⟩
    obtain ⟨c, r, rfl, hc⟩ := zone_head hz
    cases hf with
    | none =>
      show nanos (c :: r) = _
      rw [nanos, if_neg (by rcases hc with rfl | rfl | rfl <;> decide)]
    | @some a ds ha hd =>
      show nanos (a :: (ds ++ c :: r)) = _
      rw [nanos, if_pos ha, takeDigits_all hd.2 (by intro x hx; cases hx; rcases hc with rfl | rfl | rfl <;> decide)]
      obtain ⟨d, ds, rfl⟩ : ∃ d t, ds = d :: t := by
        cases ds with
        | nil => exact absurd rfl hd.1
        | cons d t => exact ⟨d, t, rfl⟩
      dsimp only
      rw [fill_nine]

/-- The parser of times reads exactly the texts of times. -/
theorem parseCivil_iff {s : Bytes} {c : Civil} : parseCivil s = some c ↔ TimeText s c := by
  constructor
  · intro hp
    have hv := parseCivil_valid hp
    unfold parseCivil at hp
    split at hp
    · cases hp
    · next hd =>
      split at hp
      · cases hp
      · next hl =>
        split at hp
        · cases hp
        · next hc =>
          split at hp
          · cases hp
          · next ho =>
            cases hp
            obtain ⟨_, _, ys, ms, ds, k1, k2, k3, rfl⟩ := date_iff.1 hd
            obtain rfl := lit_iff.1 hl
            obtain ⟨_, _, _, hs, is, xs, k4, k5, k6, rfl⟩ := clock_iff.1 hc
            obtain ⟨f, z, k7, k8, k9⟩ := nanos_iff.1 ⟨_, rfl, offset_iff.1 ho⟩
            have := TimeText.mk hv k1 k2 k3 k4 k5 k6 k7 k8
            rwa [← k9] at this
  · rintro ⟨hv, k1, k2, k3, k4, k5, k6, k7, k8⟩
    unfold parseCivil
    rw [date_iff.2 ⟨hv.month, hv.day, _, _, _, k1, k2, k3, rfl⟩]
    dsimp only
    rw [lit_cons]
    dsimp only
    rw [clock_iff.2 ⟨hv.hour, hv.minute, hv.second, _, _, _, k4, k5, k6, rfl⟩]
    dsimp only
    obtain ⟨z, h1, h2⟩ := nanos_iff.2 ⟨_, _, k7, k8, rfl⟩
    rw [h1]
    dsimp only
    rw [offset_iff.2 h2]

end Tuf.Std
