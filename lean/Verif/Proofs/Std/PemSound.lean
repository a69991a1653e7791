import Verif.Proofs.Std.Pem

/-! # What is read as PEM is PEM -/

namespace Tuf.Std
open Tuf Spec

/-! ## Base64 -/

set_option maxRecDepth 100000 in
theorem std64Val_sign {c : UInt8} {n : Nat} (h : std64Val c = some n) : Sign64 c n ∧ n < 64 := by
  have key : ∀ i : Fin 256, ∀ n, std64Val (UInt8.ofNat i) = some n → alphabet64[n]? = some (UInt8.ofNat i) ∧ n < 64 := by
    have : ∀ i : Fin 256, (std64Val (UInt8.ofNat i)).all (fun n => alphabet64[n]? == some (UInt8.ofNat i) && decide (n < 64)) = true := by decide
    intro i n hn
    have := this i
    rw [hn] at this
    simpa using this
  have := key ⟨c.toNat, c.toNat_lt⟩ n
  simp only [UInt8.ofNat_toNat] at this
  exact this h

theorem quad_ofNat {x y z w : Nat} (hx : x < 64) (hy : y < 64) (hz : z < 64) (hw : w < 64) :
    Quad64 x y z w (UInt8.ofNat (x * 4 + y / 16)) (UInt8.ofNat (y % 16 * 16 + z / 4)) (UInt8.ofNat (z % 4 * 64 + w)) := by
  unfold Quad64
  simp only [UInt8.toNat_ofNat']
  rw [Nat.mod_eq_of_lt (show x * 4 + y / 16 < 2 ^ 8 by omega), Nat.mod_eq_of_lt (show y % 16 * 16 + z / 4 < 2 ^ 8 by omega), Nat.mod_eq_of_lt (show z % 4 * 64 + w < 2 ^ 8 by omega)]
  omega

theorem std64Quanta_sound (s : Str) : ∀ b, std64Quanta s = some b → Base64 s b := by
  match s with
  | [] => intro b h; cases h; exact .nil
  | [_] => intro b h; simp [std64Quanta] at h
  | [_, _] => intro b h; simp [std64Quanta] at h
  | [_, _, _] => intro b h; simp [std64Quanta] at h
  | p :: q :: r :: t :: rest =>
    intro b h
    have ih := std64Quanta_sound rest
    simp only [std64Quanta] at h
    split at h
    · next x y hx hy =>
      have hx := std64Val_sign hx
      have hy := std64Val_sign hy
      split at h
      · next z hz =>
        have hz := std64Val_sign hz
        split at h
        · next w hw =>
          have hw := std64Val_sign hw
          obtain ⟨d, hd, rfl⟩ := Option.map_eq_some_iff.1 h
          exact .quad hx.1 hy.1 hz.1 hw.1 (quad_ofNat hx.2 hy.2 hz.2 hw.2) (ih d hd)
        · split at h
          · next hc =>
            cases h
            obtain ⟨rfl, rfl⟩ := hc
            exact .two hx.1 hy.1 hz.1 (quad_ofNat (w := 0) hx.2 hy.2 hz.2 (by omega))
          · cases h
      · split at h
        · next hc =>
          cases h
          obtain ⟨rfl, rfl, rfl⟩ := hc
          exact .one hx.1 hy.1 (quad_ofNat (z := 0) (w := 0) hx.2 hy.2 (by omega) (by omega))
        · cases h
    · cases h

/-! ## Lines -/

theorem cutAt_sound {sep s a b : Str} (h : cutAt sep s = some (a, b)) : s = a ++ sep ++ b := by
  induction s generalizing a b with
  | nil =>
    simp only [cutAt] at h
    split at h
    · next hs => cases h; simp [hs]
    · cases h
  | cons c r ih =>
    rw [cutAt] at h
    split at h
    · next hp =>
      cases h
      obtain ⟨u, hu⟩ := List.isPrefixOf_iff_prefix.1 hp
      rw [← hu, List.drop_left]
      simp
    · obtain ⟨⟨a', b'⟩, h1, h2⟩ := Option.map_eq_some_iff.1 h
      cases h2
      rw [ih h1]
      simp

theorem cutAt_first {s a b : Str} (h : cutAt [10] s = some (a, b)) : 10 ∉ a := by
  induction s generalizing a b with
  | nil => simp [cutAt] at h
  | cons c r ih =>
    rw [cutAt] at h
    split at h
    · cases h; simp
    · next hp =>
      obtain ⟨⟨a', b'⟩, h1, h2⟩ := Option.map_eq_some_iff.1 h
      cases h2
      have hc : c ≠ 10 := by rintro rfl; exact hp rfl
      simp [ih h1, hc.symm]

theorem trimBlanks_sound (s : Str) : ∃ bl, s = trimBlanks s ++ bl ∧ ∀ c ∈ bl, Blank c := by
  refine ⟨(s.reverse.takeWhile (fun c => c == 32 || c == 9)).reverse, ?_, ?_⟩
  · unfold trimBlanks
    rw [← List.reverse_append, List.takeWhile_append_dropWhile, List.reverse_reverse]
  · intro c hc
    have := List.all_takeWhile (p := fun c => c == 32 || c == 9) (l := s.reverse)
    rw [List.all_eq_true] at this
    simpa [Blank] using this c (List.mem_reverse.1 hc)

theorem dropLast_last {l : Str} {c : UInt8} (h : l.getLast? = some c) : l = l.dropLast ++ [c] := by
  rw [List.getLast?_eq_some_iff] at h
  obtain ⟨ys, rfl⟩ := h
  simp

theorem getLine_sound (s : Str) : ∃ e, s = (getLine s).1 ++ e ++ (getLine s).2 ∧ ((LineEnd e ∧ 10 ∉ (getLine s).1) ∨ ((∀ c ∈ e, Blank c) ∧ (getLine s).2 = [])) := by
  unfold getLine
  cases h : cutAt [10] s with
  | none =>
    obtain ⟨bl, h1, h2⟩ := trimBlanks_sound s
    exact ⟨bl, by simp only [List.append_nil]; exact h1, .inr ⟨h2, rfl⟩⟩
  | some p =>
    obtain ⟨l, r⟩ := p
    have h1 := cutAt_sound h
    have h3 := cutAt_first h
    simp only []
    by_cases hl : l.getLast? = some 13
    · rw [if_pos hl]
      obtain ⟨bl, g1, g2⟩ := trimBlanks_sound l.dropLast
      refine ⟨bl ++ [13, 10], ?_, .inl ⟨⟨bl, g2, .inr rfl⟩, fun hm => h3 (List.dropLast_subset _ (mem_trimBlanks hm))⟩⟩
      rw [h1, dropLast_last hl]
      conv => lhs; rw [g1]
      simp
    · rw [if_neg hl]
      obtain ⟨bl, g1, g2⟩ := trimBlanks_sound l
      refine ⟨bl ++ [10], ?_, .inl ⟨⟨bl, g2, .inl rfl⟩, fun hm => h3 (mem_trimBlanks hm)⟩⟩
      rw [h1]
      conv => lhs; rw [g1]
      simp

theorem lineEnd_last {e : Str} (h : LineEnd e) : ∃ f, e = f ++ [10] ∧ 10 ∉ f := by
  obtain ⟨bl, h1, rfl | rfl⟩ := h
  · exact ⟨bl, rfl, fun hm => by rcases h1 _ hm with h | h <;> exact absurd h (by decide)⟩
  · refine ⟨bl ++ [13], by simp, fun hm => ?_⟩
    rw [List.mem_append] at hm
    rcases hm with hm | hm
    · rcases h1 _ hm with h | h <;> exact absurd h (by decide)
    · simp at hm

theorem skipHeaders_sound {n : Nat} {any any' : Bool} {rest rest' : Str} (h : skipHeaders n any rest = some (any', rest')) :
    rest ≠ [] ∧ ∃ hd, rest = hd ++ rest' ∧ HeaderLines hd ∧ (hd = [] ∨ hd.getLast? = some 10) := by
  induction n generalizing any rest with
  | zero => cases h
  | succ n ih =>
    unfold skipHeaders at h
    split at h
    · cases h
    · next hne =>
      refine ⟨hne, ?_⟩
      split at h
      · next hc =>
        obtain ⟨h1, hd, h2, h3, h4⟩ := ih h
        obtain ⟨e, g1, ⟨g2, g3⟩ | ⟨_, g2⟩⟩ := getLine_sound rest
        · obtain ⟨f, rfl, hf⟩ := lineEnd_last g2
          refine ⟨(getLine rest).1 ++ f ++ 10 :: hd, ?_, .cons (by simp [hc]) (by simp [g3, hf]) h3, .inr ?_⟩
          · conv => lhs; rw [g1]
            rw [h2]
            simp
          · rcases h4 with rfl | h4
            · simp
            · rw [List.getLast?_append, List.getLast?_cons, h4]
              rfl
        · exact absurd g2 h1
      · cases h
        exact ⟨[], rfl, .nil, .inl rfl⟩

theorem pemBody_sound {type : Str} {any : Bool} {rest : Str} {b : Bytes} (h : pemBody type any rest = some b) :
    ∃ body sep tail, rest = body ++ sep ++ b!"-----END " ++ type ++ b!"-----" ++ tail ∧ (sep = [10] ∨ (sep = [] ∧ body = [])) ∧
      Base64 (body.filter (fun c => c != 32 && c != 9 && c != 10 && c != 13)) b ∧ ((∃ e r, tail = e ++ r ∧ LineEnd e) ∨ ∀ c ∈ tail, Blank c) := by
  have key : ∀ body trailer : Str, ((type ++ pemDashes).isPrefixOf trailer = true ∧ (getLine (trailer.drop (type ++ pemDashes).length)).1 = []) →
      std64Decode (body.filter (fun c => c != 32 && c != 9)) = some b → ∃ tail, trailer = type ++ b!"-----" ++ tail ∧
      Base64 (body.filter (fun c => c != 32 && c != 9 && c != 10 && c != 13)) b ∧ ((∃ e r, tail = e ++ r ∧ LineEnd e) ∨ ∀ c ∈ tail, Blank c) := by
    rintro body trailer ⟨h1, h2⟩ h3
    obtain ⟨tail, rfl⟩ := List.isPrefixOf_iff_prefix.1 h1
    rw [List.drop_left] at h2
    refine ⟨tail, rfl, ?_, ?_⟩
    · have := std64Quanta_sound _ _ h3
      rw [List.filter_filter] at this
      rw [List.filter_congr (q := fun c => (c != 10 && c != 13) && (c != 32 && c != 9))]
      · exact this
      · intro c _
        cases c != 32 <;> cases c != 9 <;> cases c != 10 <;> cases c != 13 <;> rfl
    · obtain ⟨e, g1, ⟨g2, _⟩ | ⟨g2, g3⟩⟩ := getLine_sound tail
      · rw [h2] at g1
        exact .inl ⟨e, _, by simpa using g1, g2⟩
      · rw [h2, g3] at g1
        refine .inr ?_
        rw [g1]
        simpa using g2
  unfold pemBody at h
  split at h
  · cases h
  · next body trailer hm =>
    split at h
    · next hc =>
      obtain ⟨tail, k1, k2, k3⟩ := key body trailer hc h
      split at hm
      · next hp =>
        cases hm
        obtain ⟨u, hu⟩ := List.isPrefixOf_iff_prefix.1 hp.2
        rw [← hu, List.drop_left] at k1
        refine ⟨[], [], tail, ?_, .inr ⟨rfl, rfl⟩, k2, k3⟩
        rw [← hu, k1]
        simp [pemEnd]
      · refine ⟨body, [10], tail, ?_, .inl rfl, k2, k3⟩
        rw [cutAt_sound hm, k1]
        simp [pemEnd]
    · cases h

theorem pemDecodeFrom_nil (n : Nat) : pemDecodeFrom n [] = none := by
  cases n with
  | zero => rfl
  | succ n => simp [pemDecodeFrom, pemStart, cutAt, List.isPrefixOf]

theorem pemDecodeFrom_sound {n : Nat} {rest type : Str} {b : Bytes} (pre : Str) (hpre : pre = [] ∨ pre.getLast? = some 10) (h : pemDecodeFrom n rest = some (type, b)) :
    PemBlock (pre ++ rest) type b := by
  induction n generalizing rest pre with
  | zero => cases h
  | succ n ih =>
    unfold pemDecodeFrom at h
    split at h
    · cases h
    · next R hR =>
      have hstart : ∃ pre', pre ++ rest = pre' ++ pemStart ++ R ∧ (pre' = [] ∨ pre'.getLast? = some 10) := by
        split at hR
        · next hp =>
          cases hR
          obtain ⟨u, hu⟩ := List.isPrefixOf_iff_prefix.1 hp
          exact ⟨pre, by rw [← hu, List.drop_left]; simp, hpre⟩
        · obtain ⟨⟨a, c⟩, h1, rfl⟩ := Option.map_eq_some_iff.1 hR
          exact ⟨pre ++ a ++ [10], by rw [cutAt_sound h1]; simp, .inr (by simp)⟩
      obtain ⟨pre', hs, hp'⟩ := hstart
      obtain ⟨e, g1, g2⟩ := getLine_sound R
      simp only [] at h
      have hcont : ∀ hd rest2, (getLine R).2 = hd ++ rest2 → (hd = [] ∨ hd.getLast? = some 10) → pemDecodeFrom n rest2 = some (type, b) → PemBlock (pre ++ rest) type b := by
        intro hd rest2 q1 q2 q3
        rcases g2 with ⟨g2, _⟩ | ⟨_, g2⟩
        · obtain ⟨f, rfl, _⟩ := lineEnd_last g2
          have := ih (pre' ++ pemStart ++ (getLine R).1 ++ f ++ 10 :: hd) (.inr ?_) q3
          · rw [hs]
            conv => arg 1; rw [g1]
            rw [q1]
            have e : pre' ++ pemStart ++ ((getLine R).1 ++ (f ++ [10]) ++ (hd ++ rest2)) = pre' ++ pemStart ++ (getLine R).1 ++ f ++ 10 :: hd ++ rest2 := by simp
            rw [e]
            exact this
          · rcases q2 with rfl | q2
            · simp
            · rw [List.getLast?_append, List.getLast?_cons, q2]
              rfl
        · rw [g2] at q1
          have : rest2 = [] := (List.append_eq_nil_iff.1 q1.symm).2
          rw [this, pemDecodeFrom_nil] at q3
          cases q3
      split at h
      · next hsuf =>
        obtain ⟨ty, hty⟩ := List.isSuffixOf_iff_suffix.1 hsuf
        split at h
        · cases h
        · next any rest2 hsk =>
          obtain ⟨k1, hd, k2, k3, k4⟩ := skipHeaders_sound hsk
          split at h
          · next b' hb =>
            cases h
            obtain ⟨body, sep, tail, m1, m2, m3, m4⟩ := pemBody_sound hb
            rcases g2 with ⟨g2, _⟩ | ⟨_, g2⟩
            · have ht : (getLine R).1.take ((getLine R).1.length - pemDashes.length) = ty := by rw [← hty]; simp
              rw [ht] at m1 ⊢
              refine ⟨pre', e, hd, body, sep, tail, ?_, hp', g2, k3, m2, m3, m4⟩
              rw [hs]
              conv => lhs; rw [g1, ← hty, k2, m1]
              simp [pemStart, pemDashes]
            · exact absurd g2 k1
          · exact hcont hd rest2 k2 k4 h
      · exact hcont [] _ rfl (.inl rfl) h

theorem pemDecode_sound {s type : Str} {b : Bytes} (h : pemDecode s = some (type, b)) : PemBlock s type b := by
  have := pemDecodeFrom_sound [] (.inl rfl) h
  simpa using this

end Tuf.Std
