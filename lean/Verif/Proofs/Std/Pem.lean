import Verif.Spec.Pem

/-! # Base64 and PEM -/

namespace Tuf.Std
open Tuf Spec

/-! ## Base64 -/

theorem std64Val_char {n : Nat} (h : n < 64) : std64Val (std64Char n) = some n :=
  (by decide : ∀ n : Fin 64, std64Val (std64Char n) = some n.1) ⟨n, h⟩

/-- A byte that is none of the signs that mean something in PEM. -/
def Inert (c : UInt8) : Prop := c ≠ 10 ∧ c ≠ 13 ∧ c ≠ 32 ∧ c ≠ 9 ∧ c ≠ 45 ∧ c ≠ 58

instance : DecidablePred Inert := fun c => by unfold Inert; infer_instance

theorem std64Char_inert {n : Nat} (h : n < 64) : Inert (std64Char n) := (by decide : ∀ n : Fin 64, Inert (std64Char n)) ⟨n, h⟩

theorem pad_inert : Inert 61 := by decide

theorem std64Val_61 : std64Val 61 = none := by decide

theorem std64_round (b : Bytes) : std64Quanta (std64Encode b) = some b := by
  match b with
  | [] => rfl
  | [a] =>
    have ha := a.toNat_lt
    simp only [std64Encode, std64Quanta]
    rw [std64Val_char (by omega), std64Val_char (by omega), std64Val_61]
    simp only [and_self, if_true]
    congr 2
    rw [show a.toNat / 4 * 4 + a.toNat % 4 * 16 / 16 = a.toNat from by omega, UInt8.ofNat_toNat]
  | [a, b] =>
    have ha := a.toNat_lt
    have hb := b.toNat_lt
    simp only [std64Encode, std64Quanta]
    rw [std64Val_char (by omega), std64Val_char (by omega), std64Val_char (by omega), std64Val_61]
    simp only [and_self, if_true]
    rw [show a.toNat / 4 * 4 + (a.toNat % 4 * 16 + b.toNat / 16) / 16 = a.toNat from by omega,
      show (a.toNat % 4 * 16 + b.toNat / 16) % 16 * 16 + b.toNat % 16 * 4 / 4 = b.toNat from by omega, UInt8.ofNat_toNat, UInt8.ofNat_toNat]
  | a :: b :: c :: r =>
    have ha := a.toNat_lt
    have hb := b.toNat_lt
    have hc := c.toNat_lt
    simp only [std64Encode, std64Quanta]
    rw [std64Val_char (by omega), std64Val_char (by omega), std64Val_char (by omega), std64Val_char (by omega), std64_round r]
    simp only [Option.map_some]
    rw [show a.toNat / 4 * 4 + (a.toNat % 4 * 16 + b.toNat / 16) / 16 = a.toNat from by omega,
      show (a.toNat % 4 * 16 + b.toNat / 16) % 16 * 16 + (b.toNat % 16 * 4 + c.toNat / 64) / 4 = b.toNat from by omega,
      show (b.toNat % 16 * 4 + c.toNat / 64) % 4 * 64 + c.toNat % 64 = c.toNat from by omega, UInt8.ofNat_toNat, UInt8.ofNat_toNat, UInt8.ofNat_toNat]

theorem std64Encode_inert (b : Bytes) : ∀ c ∈ std64Encode b, Inert c := by
  match b with
  | [] => simp [std64Encode]
  | [a] =>
    have ha := a.toNat_lt
    simp only [std64Encode, List.forall_mem_cons]
    exact ⟨std64Char_inert (by omega), std64Char_inert (by omega), pad_inert, pad_inert, by simp⟩
  | [a, b] =>
    have ha := a.toNat_lt
    have hb := b.toNat_lt
    simp only [std64Encode, List.forall_mem_cons]
    exact ⟨std64Char_inert (by omega), std64Char_inert (by omega), std64Char_inert (by omega), pad_inert, by simp⟩
  | a :: b :: c :: r =>
    have ha := a.toNat_lt
    have hb := b.toNat_lt
    have hc := c.toNat_lt
    simp only [std64Encode, List.forall_mem_cons]
    exact ⟨std64Char_inert (by omega), std64Char_inert (by omega), std64Char_inert (by omega), std64Char_inert (by omega), std64Encode_inert r⟩

/-- The lines of a text that is not empty: the last byte is a line break, and without line breaks they are the text. -/
theorem breakLines_eq {c : UInt8} {r : Str} (h : ∀ x ∈ c :: r, Inert x) (n : Nat) :
    ∃ B, breakLines n (c :: r) = c :: B ++ [10] ∧ (∀ x ∈ c :: B, x = 10 ∨ Inert x) ∧ (c :: B).filter (fun x => x != 10 && x != 13) = c :: r := by
  induction r generalizing c n with
  | nil =>
    have hc := h c (by simp)
    refine ⟨[], ?_, by simp [hc], ?_⟩
    · simp only [breakLines]
      split
      · rfl
      · simp
    · simp [List.filter_cons, hc.1, hc.2.1]
  | cons d r ih =>
    have hc := h c (by simp)
    have hd : ∀ x ∈ d :: r, Inert x := fun x hx => h x (List.mem_cons_of_mem _ hx)
    have hcf : ∀ l : Str, (c :: l).filter (fun x => x != 10 && x != 13) = c :: l.filter (fun x => x != 10 && x != 13) := by
      intro l; simp [List.filter_cons, hc.1, hc.2.1]
    by_cases hn : n = 63
    · obtain ⟨B, h1, h2, h3⟩ := ih hd 0
      refine ⟨10 :: d :: B, by rw [breakLines, if_pos hn, h1]; rfl, ?_, ?_⟩
      · intro x hx
        rcases List.mem_cons.1 hx with rfl | hx
        · exact .inr hc
        · rcases List.mem_cons.1 hx with rfl | hx
          · exact .inl rfl
          · exact h2 x hx
      · rw [hcf]
        congr 1
    · obtain ⟨B, h1, h2, h3⟩ := ih hd (n + 1)
      refine ⟨d :: B, by rw [breakLines, if_neg hn, h1]; rfl, ?_, ?_⟩
      · intro x hx
        rcases List.mem_cons.1 hx with rfl | hx
        · exact .inr hc
        · exact h2 x hx
      · rw [hcf, h3]

/-! ## Searching -/

theorem cutAt_dash {t : Str} {B T : Str} (h : 45 ∉ B) : cutAt (10 :: 45 :: t) (B ++ 10 :: 45 :: t ++ T) = some (B, T) := by
  induction B with
  | nil =>
    have : (10 :: 45 :: t).isPrefixOf ((10 : UInt8) :: (45 :: t ++ T)) = true := List.isPrefixOf_iff_prefix.2 ⟨T, rfl⟩
    show cutAt (10 :: 45 :: t) (10 :: (45 :: t ++ T)) = _
    rw [cutAt, if_pos this]
    simp
  | cons c B ih =>
    have h1 : 45 ∉ B := fun hm => h (List.mem_cons_of_mem _ hm)
    have hn : ¬ (10 :: 45 :: t).isPrefixOf (c :: (B ++ 10 :: 45 :: t ++ T)) = true := by
      intro hp
      obtain ⟨u, hu⟩ := List.isPrefixOf_iff_prefix.1 hp
      cases B with
      | nil => simp at hu
      | cons d B => simp at hu; exact h1 (by simp [hu.2.1])
    show cutAt (10 :: 45 :: t) (c :: (B ++ 10 :: 45 :: t ++ T)) = _
    rw [cutAt, if_neg hn, ih h1]
    rfl

theorem cutAt_nl {A X : Str} (h : 10 ∉ A) : cutAt [10] (A ++ 10 :: X) = some (A, X) := by
  induction A with
  | nil => simp [cutAt, List.isPrefixOf]
  | cons c A ih =>
    have hc : ¬ [10].isPrefixOf (c :: (A ++ 10 :: X)) = true := by
      intro hp
      simp [List.isPrefixOf] at hp
      exact h (by simp [hp])
    show cutAt [10] (c :: (A ++ 10 :: X)) = _
    rw [cutAt, if_neg hc, ih (fun hm => h (List.mem_cons_of_mem _ hm))]
    rfl

/-- The first line of any text with a line break. -/
theorem cutAt_nl_prefix {A X : Str} : ∃ p q, cutAt [10] (A ++ 10 :: X) = some (p, q) ∧ ∀ c ∈ p, c ∈ A := by
  induction A with
  | nil => exact ⟨[], X, by simp [cutAt, List.isPrefixOf], by simp⟩
  | cons c A ih =>
    obtain ⟨p, q, h1, h2⟩ := ih
    show ∃ p q, cutAt [10] (c :: (A ++ 10 :: X)) = some (p, q) ∧ _
    rw [cutAt]
    split
    · exact ⟨[], _, rfl, by simp⟩
    · rw [h1]
      exact ⟨c :: p, q, rfl, by simpa using fun a ha => .inr (h2 a ha)⟩

theorem mem_trimBlanks {s : Str} {c : UInt8} (h : c ∈ trimBlanks s) : c ∈ s := by
  unfold trimBlanks at h
  rw [List.mem_reverse] at h
  exact List.mem_reverse.1 ((List.dropWhile_sublist _).subset h)

theorem trimBlanks_eq {s : Str} {c : UInt8} (h : c ≠ 32 ∧ c ≠ 9) : trimBlanks (s ++ [c]) = s ++ [c] := by
  unfold trimBlanks
  rw [List.reverse_append]
  simp [List.dropWhile_cons, h.1, h.2]

theorem getLine_mem {A X : Str} {c : UInt8} (h : c ∈ (getLine (A ++ 10 :: X)).1) : c ∈ A := by
  obtain ⟨p, q, h1, h2⟩ := @cutAt_nl_prefix A X
  unfold getLine at h
  rw [h1] at h
  have h := mem_trimBlanks h
  split at h
  · exact h2 c ((List.dropLast_subset _) h)
  · exact h2 c h

theorem getLine_dash {A X : Str} (h : 10 ∉ A) : getLine (A ++ 45 :: 10 :: X) = (A ++ [45], X) := by
  unfold getLine
  rw [show A ++ 45 :: 10 :: X = (A ++ [45]) ++ 10 :: X from by simp, cutAt_nl (by simp [h])]
  simp only [List.getLast?_append, List.getLast?_singleton, Option.some_or]
  rw [if_neg (by decide), trimBlanks_eq (by decide)]

theorem getLine_nl (X : Str) : getLine (10 :: X) = ([], X) := by
  have := cutAt_nl (A := []) (X := X) (by simp)
  simp only [List.nil_append] at this
  unfold getLine
  rw [this]
  rfl

/-! ## Reading back what was written -/

theorem isPrefixOf_append (a b : Str) : a.isPrefixOf (a ++ b) = true := List.isPrefixOf_iff_prefix.2 ⟨b, rfl⟩

theorem pemBody_written {type : Str} (data : Bytes) (post : Str) :
    pemBody type false (breakLines 0 (std64Encode data) ++ pemEnd ++ type ++ pemDashes ++ 10 :: post) = some data := by
  have htail : ∀ T, T = type ++ pemDashes ++ 10 :: post → (type ++ pemDashes).isPrefixOf T ∧ (getLine (T.drop (type ++ pemDashes).length)).1 = [] := by
    rintro T rfl
    exact ⟨isPrefixOf_append _ _, by rw [List.drop_left, getLine_nl]⟩
  unfold pemBody
  cases hd : std64Encode data with
  | nil =>
    have hdata : data = [] := by
      match data with
      | [] => rfl
      | [a] => simp [std64Encode] at hd
      | [a, b] => simp [std64Encode] at hd
      | a :: b :: c :: r => simp [std64Encode] at hd
    have e : breakLines 0 [] ++ pemEnd ++ type ++ pemDashes ++ 10 :: post = pemEnd ++ (type ++ pemDashes ++ 10 :: post) := by simp [breakLines]
    rw [e, if_pos ⟨rfl, isPrefixOf_append _ _⟩]
    simp only []
    rw [if_pos (htail _ (by rw [List.drop_left])), hdata]
    rfl
  | cons c r =>
    have hin : ∀ x ∈ c :: r, Inert x := hd ▸ std64Encode_inert data
    obtain ⟨B, h1, h2, h3⟩ := breakLines_eq hin 0
    have e : breakLines 0 (c :: r) ++ pemEnd ++ type ++ pemDashes ++ 10 :: post = (c :: B) ++ 10 :: pemEnd ++ (type ++ pemDashes ++ 10 :: post) := by rw [h1]; simp
    rw [e]
    have hnp : ¬ (false = false ∧ pemEnd.isPrefixOf ((c :: B) ++ 10 :: pemEnd ++ (type ++ pemDashes ++ 10 :: post)) = true) := by
      rintro ⟨_, hp⟩
      have hc := (hin c (by simp)).2.2.2.2.1
      simp only [pemEnd, List.cons_append, List.isPrefixOf, Bool.and_eq_true, beq_iff_eq] at hp
      exact hc hp.1.symm
    rw [if_neg hnp]
    have hcut : cutAt (10 :: pemEnd) ((c :: B) ++ 10 :: pemEnd ++ (type ++ pemDashes ++ 10 :: post)) = some (c :: B, type ++ pemDashes ++ 10 :: post) := by
      refine cutAt_dash ?_
      intro hm
      rcases h2 _ hm with h | h
      · exact absurd h (by decide)
      · exact h.2.2.2.2.1 rfl
    rw [hcut]
    simp only []
    rw [if_pos (htail _ rfl)]
    unfold std64Decode
    have hbl : (c :: B).filter (fun c => c != 32 && c != 9) = c :: B := by
      rw [List.filter_eq_self]
      intro x hx
      rcases h2 x hx with rfl | h
      · rfl
      · simp [h.2.2.1, h.2.2.2.1]
    rw [hbl, h3, ← hd, std64_round]

theorem skipHeaders_none {n : Nat} {any : Bool} {A X : Str} (h : 58 ∉ A) : skipHeaders (n + 1) any (A ++ 10 :: X) = some (any, A ++ 10 :: X) := by
  unfold skipHeaders
  rw [if_neg (by simp), if_neg (fun hm => h (getLine_mem hm))]

theorem pemDecodeFrom_written {type : Str} (ht : 10 ∉ type) (hc : 58 ∉ type) (data : Bytes) (n : Nat) {rest : Str} {post : Str}
    (hstart : (if pemStart.isPrefixOf rest then some (rest.drop pemStart.length) else (cutAt (10 :: pemStart) rest).map Prod.snd) =
      some (type ++ pemDashes ++ 10 :: (breakLines 0 (std64Encode data) ++ pemEnd ++ type ++ pemDashes ++ 10 :: post))) :
    pemDecodeFrom (n + 1) rest = some (type, data) := by
  unfold pemDecodeFrom
  rw [hstart]
  simp only []
  have hl : getLine (type ++ pemDashes ++ 10 :: (breakLines 0 (std64Encode data) ++ pemEnd ++ type ++ pemDashes ++ 10 :: post)) =
      (type ++ pemDashes, breakLines 0 (std64Encode data) ++ pemEnd ++ type ++ pemDashes ++ 10 :: post) := by
    have := getLine_dash (A := type ++ b!"----") (X := breakLines 0 (std64Encode data) ++ pemEnd ++ type ++ pemDashes ++ 10 :: post) (by simp [ht])
    simp only [pemDashes, List.append_assoc, List.cons_append, List.nil_append] at this ⊢
    exact this
  rw [hl]
  simp only []
  rw [if_pos (List.isSuffixOf_iff_suffix.2 ⟨type, rfl⟩)]
  have htake : (type ++ pemDashes).take ((type ++ pemDashes).length - pemDashes.length) = type := by simp
  rw [htake]
  have hsk : skipHeaders ((breakLines 0 (std64Encode data) ++ pemEnd ++ type ++ pemDashes ++ 10 :: post).length + 1) false (breakLines 0 (std64Encode data) ++ pemEnd ++ type ++ pemDashes ++ 10 :: post) =
      some (false, breakLines 0 (std64Encode data) ++ pemEnd ++ type ++ pemDashes ++ 10 :: post) := by
    refine skipHeaders_none ?_
    intro hm
    simp only [List.mem_append] at hm
    rcases hm with ((hm | hm) | hm) | hm
    · cases hd : std64Encode data with
      | nil => rw [hd] at hm; simp [breakLines] at hm
      | cons c r =>
        obtain ⟨B, h1, h2, _⟩ := breakLines_eq (hd ▸ std64Encode_inert data) 0
        rw [hd, h1, List.mem_append] at hm
        rcases hm with hm | hm
        · rcases h2 _ hm with h | h
          · exact absurd h (by decide)
          · exact h.2.2.2.2.2 rfl
        · simp at hm
    · revert hm; decide
    · exact hc hm
    · revert hm; decide
  rw [hsk]
  simp only []
  rw [pemBody_written]

theorem pemDecode_written {type : Str} (ht : 10 ∉ type) (hc : 58 ∉ type) (data : Bytes) (post : Str) : pemDecode (pemEncode type data ++ post) = some (type, data) := by
  unfold pemDecode
  refine pemDecodeFrom_written ht hc data _ (post := post) ?_
  have e : pemEncode type data ++ post = pemStart ++ (type ++ pemDashes ++ 10 :: (breakLines 0 (std64Encode data) ++ pemEnd ++ type ++ pemDashes ++ 10 :: post)) := by simp [pemEncode]
  rw [e, if_pos (isPrefixOf_append _ _), List.drop_left]

/-- Lines without dashes may precede the block. -/
theorem pemDecode_preceded {type : Str} (ht : 10 ∉ type) (hc : 58 ∉ type) (data : Bytes) {pre : Str} (hp : 45 ∉ pre) (post : Str) :
    pemDecode (pre ++ 10 :: pemEncode type data ++ post) = some (type, data) := by
  unfold pemDecode
  refine pemDecodeFrom_written ht hc data _ (post := post) ?_
  have e : pre ++ 10 :: pemEncode type data ++ post = pre ++ 10 :: pemStart ++ (type ++ pemDashes ++ 10 :: (breakLines 0 (std64Encode data) ++ pemEnd ++ type ++ pemDashes ++ 10 :: post)) := by simp [pemEncode]
  have hcut : cutAt (10 :: pemStart) (pre ++ 10 :: pemStart ++ (type ++ pemDashes ++ 10 :: (breakLines 0 (std64Encode data) ++ pemEnd ++ type ++ pemDashes ++ 10 :: post))) = some (pre, _) := cutAt_dash hp
  rw [e, if_neg, hcut]
  · rfl
  · intro h
    cases pre with
    | nil => simp [pemStart, List.isPrefixOf] at h
    | cons c pre =>
      simp only [pemStart, List.cons_append, List.isPrefixOf, Bool.and_eq_true, beq_iff_eq] at h
      exact hp (by simp [← h.1])

end Tuf.Std
