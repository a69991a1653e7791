import Verif.Model.Std.Glob
import Verif.Spec.Std.Glob
import Verif.Proofs.Std.JsonParse

/-! # `filepath.Match` against the meaning of patterns -/

namespace Tuf.Std
open Tuf Tuf.Spec

/-! ## Characters -/

theorem encode_ne_nil (n : Nat) : encodeRune n ≠ [] := by
  unfold encodeRune
  split
  · simp
  · split
    · simp
    · split
      · simp
      · split <;> simp

theorem runeVal_encode {n : Nat} (h : Scalar n) : runeVal (encodeRune n) = n := by
  have hs : n < 0xD800 ∨ (0xDFFF < n ∧ n ≤ 0x10FFFF) := h
  unfold encodeRune
  split
  · unfold runeVal; dsimp only; rw [toNat_ofNat (by omega)]
  · split
    · unfold runeVal; dsimp only; rw [toNat_ofNat (by omega), toNat_ofNat (by omega)]; omega
    · rw [if_neg (by omega)]
      split
      · unfold runeVal; dsimp only; rw [toNat_ofNat (by omega), toNat_ofNat (by omega), toNat_ofNat (by omega)]; omega
      · unfold runeVal; dsimp only; rw [toNat_ofNat (by omega), toNat_ofNat (by omega), toNat_ofNat (by omega), toNat_ofNat (by omega)]; omega

theorem decode_encode {n : Nat} (h : Scalar n) (r : Bytes) : decodeRune (encodeRune n ++ r) = (n, (encodeRune n).length) := by
  unfold decodeRune
  rw [charLen_encode h]
  have : (encodeRune n).length ≠ 0 := by
    intro h0
    exact encode_ne_nil n (List.eq_nil_of_length_eq_zero h0)
  rw [if_neg this, List.take_left, runeVal_encode h]

/-- A recognised character is an encoded scalar value. -/
theorem charLen_rune {s : Bytes} (h : charLen s ≠ 0) : ∃ n, Scalar n ∧ s.take (charLen s) = encodeRune n := by
  cases s with
  | nil => exact absurd rfl h
  | cons a r =>
    unfold charLen at h ⊢
    dsimp only at h ⊢
    have ha := a.toNat_lt
    split at h
    · next h1 =>
      rw [if_pos h1]
      refine ⟨a.toNat, by unfold Scalar; omega, ?_⟩
      rw [encode_ascii h1, UInt8.ofNat_toNat]
      rfl
    · next h1 =>
      rw [if_neg h1]
      split at h
      · next h2 =>
        rw [if_pos h2]
        split at h
        · next b t =>
          split at h
          · next hb =>
            rw [if_pos hb]
            obtain ⟨hb1, hb2⟩ := isCont_bounds hb
            refine ⟨(a.toNat - 0xC0) * 64 + (b.toNat - 0x80), by unfold Scalar; omega, ?_⟩
            unfold encodeRune
            rw [if_neg (by omega), if_pos (by omega), ofNat_eq (c := a) (by omega), ofNat_eq (c := b) (by omega)]
            rfl
          · exact absurd rfl h
        · exact absurd rfl h
      · next h2 =>
        rw [if_neg h2]
        split at h
        · next h3 =>
          rw [if_pos h3]
          split at h
          · next b c t =>
            split at h
            · next hb =>
              rw [if_pos hb]
              simp only [Bool.and_eq_true, Bool.or_eq_true, bne_iff_ne, decide_eq_true_eq] at hb
              obtain ⟨⟨⟨hb, hc⟩, h4⟩, h5⟩ := hb
              obtain ⟨hb1, hb2⟩ := isCont_bounds hb
              obtain ⟨hc1, hc2⟩ := isCont_bounds hc
              refine ⟨(a.toNat - 0xE0) * 4096 + (b.toNat - 0x80) * 64 + (c.toNat - 0x80), by unfold Scalar; omega, ?_⟩
              unfold encodeRune
              rw [if_neg (by omega), if_neg (by omega), if_neg (by omega), if_pos (by omega), ofNat_eq (c := a) (by omega), ofNat_eq (c := b) (by omega), ofNat_eq (c := c) (by omega)]
              rfl
            · exact absurd rfl h
          · exact absurd rfl h
        · next h3 =>
          rw [if_neg h3]
          split at h
          · next h4 =>
            rw [if_pos h4]
            split at h
            · next b c d t =>
              split at h
              · next hb =>
                rw [if_pos hb]
                simp only [Bool.and_eq_true, Bool.or_eq_true, bne_iff_ne, decide_eq_true_eq] at hb
                obtain ⟨⟨⟨⟨hb, hc⟩, hd⟩, h5⟩, h6⟩ := hb
                obtain ⟨hb1, hb2⟩ := isCont_bounds hb
                obtain ⟨hc1, hc2⟩ := isCont_bounds hc
                obtain ⟨hd1, hd2⟩ := isCont_bounds hd
                refine ⟨(a.toNat - 0xF0) * 262144 + (b.toNat - 0x80) * 4096 + (c.toNat - 0x80) * 64 + (d.toNat - 0x80), by unfold Scalar; omega, ?_⟩
                unfold encodeRune
                rw [if_neg (by omega), if_neg (by omega), if_neg (by omega), if_neg (by omega), ofNat_eq (c := a) (by omega), ofNat_eq (c := b) (by omega), ofNat_eq (c := c) (by omega),
                  ofNat_eq (c := d) (by omega)]
                rfl
              · exact absurd rfl h
            · exact absurd rfl h
          · exact absurd rfl h

theorem charLen_split {s : Bytes} (h : charLen s ≠ 0) : ∃ n, Scalar n ∧ s = encodeRune n ++ s.drop (charLen s) ∧ decodeRune s = (n, charLen s) := by
  obtain ⟨n, hn, he⟩ := charLen_rune h
  refine ⟨n, hn, ?_, ?_⟩
  · rw [← he, List.take_append_drop]
  · unfold decodeRune
    rw [if_neg h, he, runeVal_encode hn]

theorem starts_decode {s : Bytes} (h : s ≠ []) : Starts s (decodeRune s).1 (s.drop (decodeRune s).2) := by
  by_cases hc : charLen s = 0
  · cases s with
    | nil => exact absurd rfl h
    | cons c r =>
      have hd : decodeRune (c :: r) = (0xFFFD, 1) := by unfold decodeRune; rw [if_pos hc]
      rw [hd]
      refine .bad ?_
      intro n hn t ht
      rw [ht, charLen_encode hn] at hc
      exact encode_ne_nil n (List.eq_nil_of_length_eq_zero hc)
  · obtain ⟨n, hn, he, hd⟩ := charLen_split hc
    rw [hd]
    have := Starts.char (r := s.drop (charLen s)) hn
    rwa [← he] at this

theorem starts_iff {s r : Bytes} {n : Nat} : Starts s n r ↔ s ≠ [] ∧ n = (decodeRune s).1 ∧ r = s.drop (decodeRune s).2 := by
  constructor
  · intro h
    cases h with
    | char hn =>
      rw [decode_encode hn]
      refine ⟨?_, rfl, by simp⟩
      intro h0
      exact encode_ne_nil n (List.append_eq_nil_iff.1 h0).1
    | @bad c r hb =>
      have hc : charLen (c :: r) = 0 := by
        refine Classical.byContradiction fun hc => ?_
        obtain ⟨n, hn, he, _⟩ := charLen_split hc
        exact hb n hn _ he
      have hd : decodeRune (c :: r) = (0xFFFD, 1) := by unfold decodeRune; rw [if_pos hc]
      rw [hd]
      exact ⟨by simp, rfl, rfl⟩
  · rintro ⟨h, rfl, rfl⟩
    exact starts_decode h

theorem decode_ascii {c : UInt8} (h : c.toNat < 128) (r : Bytes) : decodeRune (c :: r) = (c.toNat, 1) := by
  have := decode_encode (n := c.toNat) (by unfold Scalar; omega) r
  rw [encode_ascii h, UInt8.ofNat_toNat] at this
  exact this

/-! ## Classes -/

theorem classChar_head {t : Bytes} {n : Nat} (h : ClassChar t n) : ∃ c u, t = c :: u ∧ c ≠ 45 ∧ c ≠ 93 := by
  cases h with
  | plain hs h1 h2 h3 =>
    by_cases hl : n < 128
    · rw [encode_ascii hl]
      refine ⟨_, _, rfl, ?_, ?_⟩
      · intro he; have := congrArg UInt8.toNat he; rw [toNat_ofNat (by omega)] at this; exact h1 this
      · intro he; have := congrArg UInt8.toNat he; rw [toNat_ofNat (by omega)] at this; exact h3 this
    · obtain ⟨c, u, he, hc⟩ := encode_head (n := n) (by omega)
      refine ⟨c, u, he, ?_, ?_⟩ <;> (intro h; subst h; revert hc; decide)
  | escaped hs => exact ⟨92, _, rfl, by decide, by decide⟩

theorem after_encode {n : Nat} (hs : Scalar n) {r : Bytes} (hr : r ≠ []) :
    (if encodeRune n ++ r = [] then none else if decodeRune (encodeRune n ++ r) = (0xFFFD, 1) then none
      else if (encodeRune n ++ r).drop (decodeRune (encodeRune n ++ r)).2 = [] then none
      else some ((decodeRune (encodeRune n ++ r)).1, (encodeRune n ++ r).drop (decodeRune (encodeRune n ++ r)).2)) = some (n, r) := by
  rw [decode_encode hs]
  have h1 : encodeRune n ++ r ≠ [] := by
    intro h; exact hr (List.append_eq_nil_iff.1 h).2
  have h2 : ((n, (encodeRune n).length) : Nat × Nat) ≠ (0xFFFD, 1) := by
    intro h
    have h3 := (Prod.mk.inj h).1
    subst h3
    exact absurd (Prod.mk.inj h).2 (by decide)
  rw [if_neg h1, if_neg h2]
  dsimp only
  rw [List.drop_left, if_neg hr]

theorem getEsc_char {t : Bytes} {n : Nat} (h : ClassChar t n) {r : Bytes} (hr : r ≠ []) : getEsc (t ++ r) = some (n, r) := by
  have hh := classChar_head h
  cases h with
  | plain hs h1 h2 h3 =>
    obtain ⟨c, u, he, hc1, hc2⟩ := hh
    have hc3 : c ≠ 92 := by
      intro hc
      by_cases hl : n < 128
      · rw [encode_ascii hl] at he
        have := congrArg UInt8.toNat (List.cons.inj he).1
        rw [toNat_ofNat (by omega), hc] at this
        exact h2 this
      · obtain ⟨c', u', he', hc'⟩ := encode_head (n := n) (by omega)
        rw [he] at he'
        rw [← (List.cons.inj he').1, hc] at hc'
        revert hc'; decide
    have := after_encode hs hr
    rw [he] at this ⊢
    unfold getEsc
    dsimp only [List.cons_append] at this ⊢
    rw [if_neg (by simp [hc1, hc2]), if_neg hc3]
    exact this
  | escaped hs =>
    have := after_encode hs hr
    unfold getEsc
    dsimp only [List.cons_append]
    rw [if_neg (by decide), if_pos rfl]
    exact this

theorem getEsc_spec {s t : Bytes} {n : Nat} (h : getEsc s = some (n, t)) : ∃ u, ClassChar u n ∧ s = u ++ t ∧ t ≠ [] := by
  have after : ∀ s : Bytes, (if s = [] then none else if decodeRune s = (0xFFFD, 1) then none else if s.drop (decodeRune s).2 = [] then none
      else some ((decodeRune s).1, s.drop (decodeRune s).2)) = some (n, t) → Scalar n ∧ s = encodeRune n ++ t ∧ t ≠ [] := by
    intro s h
    split at h
    · cases h
    · split at h
      · cases h
      · next hne =>
        split at h
        · cases h
        · next ht =>
          have e1 := (Prod.mk.inj (Option.some.inj h)).1
          have e2 := (Prod.mk.inj (Option.some.inj h)).2
          have hc : charLen s ≠ 0 := by
            intro hc
            exact hne (by unfold decodeRune; rw [if_pos hc])
          obtain ⟨k, hk, he, hd⟩ := charLen_split hc
          rw [hd] at e1 e2 ht
          dsimp only at e1 e2 ht
          subst e1
          rw [e2] at he ht
          exact ⟨hk, he, ht⟩
  unfold getEsc at h
  dsimp only at h
  split at h
  · cases h
  · next c r =>
    split at h
    · cases h
    · next h1 =>
      split at h
      · next h2 =>
        obtain ⟨a1, a2, a3⟩ := after _ h
        subst h2
        exact ⟨_, .escaped a1, by rw [a2]; rfl, a3⟩
      · next h2 =>
        obtain ⟨a1, a2, a3⟩ := after _ h
        refine ⟨_, .plain a1 ?_ ?_ ?_, a2, a3⟩
        all_goals
          intro hn
          subst hn
          rw [encode_ascii (by omega)] at a2
          have hc := (List.cons.inj a2).1
          subst hc
        · exact h1 (.inl (by decide))
        · exact h2 (by decide)
        · exact h1 (.inr (by decide))

/-- The character is in one of the ranges. -/
def hits (rs : List (Nat × Nat)) (r : Nat) : Bool := rs.any (fun x => x.1 ≤ r && r ≤ x.2)

theorem classRanges_head {b : Bytes} {rs : List (Nat × Nat)} (h : ClassRanges b rs) (p : Bytes) : (b ++ 93 :: p).head? ≠ some 45 ∧ (b ≠ [] → (b ++ 93 :: p).head? ≠ some 93) := by
  cases h with
  | nil => simp
  | one h1 h2 =>
    obtain ⟨c, u, rfl, hc1, hc2⟩ := classChar_head h1
    simp [hc1, hc2]
  | range h1 h2 h3 =>
    obtain ⟨c, u, rfl, hc1, hc2⟩ := classChar_head h1
    simp [hc1, hc2]

theorem ranges_class {b : Bytes} {rs : List (Nat × Nat)} (h : ClassRanges b rs) : ∀ (n r : Nat) (any hit : Bool) (p : Bytes), (any = true ∨ rs ≠ []) → b.length < n →
    ranges n r any hit (b ++ 93 :: p) = some (hit || hits rs r, p) := by
  induction h with
  | nil =>
    intro n r any hit p ha hn
    cases n with
    | zero => omega
    | succ n =>
      have : any = true := by simpa using ha
      unfold ranges
      simp [this, hits]
  | @one t s k rs h1 h2 ih =>
    intro n r any hit p ha hn
    cases n with
    | zero => omega
    | succ n =>
      have hh := classChar_head h1
      have hg := getEsc_char h1 (r := s ++ 93 :: p) (by simp)
      unfold ranges
      rw [if_neg, List.append_assoc, hg]
      · dsimp only
        rw [if_neg (classRanges_head h2 p).1, ih n r true _ p (.inl rfl)]
        · simp only [hits, List.any_cons, Bool.or_assoc]
        · obtain ⟨c, u, rfl, _⟩ := hh
          simp at hn ⊢; omega
      · obtain ⟨c, u, rfl, hc1, hc2⟩ := hh
        simp [hc2]
  | @range t u s lo hi rs h1 h2 h3 ih =>
    intro n r any hit p ha hn
    cases n with
    | zero => omega
    | succ n =>
      have hh := classChar_head h1
      have hg := getEsc_char h1 (r := 45 :: (u ++ (s ++ 93 :: p))) (by simp)
      have hg2 := getEsc_char h2 (r := s ++ 93 :: p) (by simp)
      unfold ranges
      rw [if_neg, show t ++ 45 :: (u ++ s) ++ 93 :: p = t ++ 45 :: (u ++ (s ++ 93 :: p)) by simp, hg]
      · dsimp only
        rw [if_pos (by rfl)]
        rw [List.drop_one, List.tail_cons]
        rw [hg2]
        dsimp only
        rw [ih n r true _ p (.inl rfl)]
        · simp only [hits, List.any_cons, Bool.or_assoc]
        · simp at hn ⊢; omega
      · obtain ⟨c, u, rfl, hc1, hc2⟩ := hh
        simp [hc2]

theorem ranges_spec (n : Nat) : ∀ {r : Nat} {any hit h : Bool} {s p : Bytes}, ranges n r any hit s = some (h, p) →
    ∃ b rs, ClassRanges b rs ∧ s = b ++ 93 :: p ∧ (any = true ∨ rs ≠ []) ∧ h = (hit || hits rs r) := by
  induction n with
  | zero => intro r any hit h s p hr; cases hr
  | succ n ih =>
    intro r any hit h s p hr
    unfold ranges at hr
    split at hr
    · next hc =>
      have e1 := (Prod.mk.inj (Option.some.inj hr)).1
      have e2 := (Prod.mk.inj (Option.some.inj hr)).2
      refine ⟨[], [], .nil, ?_, .inl hc.1, by simp [hits, e1]⟩
      cases s with
      | nil => simp at hc
      | cons c r => simp at hc e2; rw [hc.2, e2]; rfl
    · split at hr
      · cases hr
      · next lo t hg =>
        obtain ⟨u, hu, rfl, ht⟩ := getEsc_spec hg
        split at hr
        · next h45 =>
          split at hr
          · cases hr
          · next hi v hg2 =>
            obtain ⟨u2, hu2, he2, hv⟩ := getEsc_spec hg2
            obtain ⟨b, rs, h1, h2, h3, h4⟩ := ih hr
            refine ⟨u ++ 45 :: (u2 ++ b), (lo, hi) :: rs, .range hu hu2 h1, ?_, .inr (by simp), ?_⟩
            · cases t with
              | nil => simp at h45
              | cons c t =>
                simp only [List.head?_cons, Option.some.injEq, List.drop_succ_cons, List.drop_zero] at h45 he2
                rw [h45, he2, h2]
                simp
            · rw [h4]
              simp only [hits, List.any_cons, Bool.or_assoc]
        · obtain ⟨b, rs, h1, h2, h3, h4⟩ := ih hr
          refine ⟨u ++ b, (lo, lo) :: rs, .one hu h1, by rw [h2]; simp, .inr (by simp), ?_⟩
          rw [h4]
          simp only [hits, List.any_cons, Bool.or_assoc]

theorem inClass_pos {b : Bytes} {rs : List (Nat × Nat)} (hrs : rs ≠ []) (h : ClassRanges b rs) (hb : b.head? ≠ some 94) (r : Nat) (p : Bytes) :
    inClass r (b ++ 93 :: p) = some (hits rs r, p) := by
  have hbn : b ≠ [] := by
    intro he
    cases h with
    | nil => exact hrs rfl
    | one h1 h2 => obtain ⟨c, u, rfl, _⟩ := classChar_head h1; simp at he
    | range h1 h2 h3 => obtain ⟨c, u, rfl, _⟩ := classChar_head h1; simp at he
  unfold inClass
  rw [if_neg, ranges_class h _ _ _ _ _ (.inr hrs) (by simp; omega)]
  · simp
  · cases b with
    | nil => exact absurd rfl hbn
    | cons c b => simpa using hb

theorem inClass_neg {b : Bytes} {rs : List (Nat × Nat)} (hrs : rs ≠ []) (h : ClassRanges b rs) (r : Nat) (p : Bytes) :
    inClass r (94 :: (b ++ 93 :: p)) = some (!hits rs r, p) := by
  unfold inClass
  rw [if_pos (by rfl)]
  rw [List.drop_one, List.tail_cons]
  rw [ranges_class h _ _ _ _ _ (.inr hrs) (by simp; omega)]
  simp

theorem inClass_spec {r : Nat} {s p : Bytes} {h : Bool} (hc : inClass r s = some (h, p)) :
    ∃ b rs, rs ≠ [] ∧ ClassRanges b rs ∧ ((s = b ++ 93 :: p ∧ b.head? ≠ some 94 ∧ h = hits rs r) ∨ (s = 94 :: (b ++ 93 :: p) ∧ h = !hits rs r)) := by
  unfold inClass at hc
  split at hc
  · next h94 =>
    obtain ⟨⟨h', p'⟩, h1, h2⟩ := Option.map_eq_some_iff.1 hc
    cases h2
    obtain ⟨b, rs, a1, a2, a3, a4⟩ := ranges_spec _ h1
    refine ⟨b, rs, by simpa using a3, a1, .inr ⟨?_, by simp [a4]⟩⟩
    cases s with
    | nil => simp at h94
    | cons c s => simp at h94 a2; rw [h94, a2]
  · next h94 =>
    obtain ⟨b, rs, a1, a2, a3, a4⟩ := ranges_spec _ hc
    refine ⟨b, rs, by simpa using a3, a1, .inl ⟨a2, ?_, by simpa using a4⟩⟩
    intro hb
    cases b with
    | nil => simp at hb
    | cons c b => rw [a2] at h94; exact h94 (by simpa using hb)

/-! ## Chunks -/

/-- What one part of a chunk does to the name. -/
def step : Item → Bytes → Option Bytes
  | .lit c, s => if s.head? = some c then some (s.drop 1) else none
  | .any, s => if s = [] ∨ s.head? = some 47 then none else some (s.drop (decodeRune s).2)
  | .star, _ => none
  | .cls neg rs, s => if s = [] then none else if hits rs (decodeRune s).1 = !neg then some (s.drop (decodeRune s).2) else none

def run : List Item → Bytes → Option Bytes
  | [], s => some s
  | i :: is, s => (step i s).bind (run is)

def NoStar (is : List Item) : Prop := Item.star ∉ is

theorem noStar_cons {i : Item} {is : List Item} : NoStar (i :: is) ↔ i ≠ .star ∧ NoStar is := by
  unfold NoStar
  rw [List.mem_cons, not_or]
  exact and_congr_left fun _ => ⟨fun h h' => h h'.symm, fun h h' => h h'.symm⟩

theorem eat_byte (c : UInt8) (s : Option Bytes) : eatByte c (live s) = s.bind (step (.lit c)) := by
  rcases s with _ | _ | ⟨d, s⟩ <;> simp [eatByte, live, step]

theorem eat_any (s : Option Bytes) : eatAny (live s) = s.bind (step .any) := by
  rcases s with _ | _ | ⟨d, s⟩ <;> simp [eatAny, live, step]

theorem eat_cls (s : Option Bytes) (neg : Bool) (rs : List (Nat × Nat)) (hit : Bool)
    (h : hit = if neg then !hits rs (classRune (live s)) else hits rs (classRune (live s))) : eatClass hit (live s) = s.bind (step (.cls neg rs)) := by
  subst h
  rcases s with _ | _ | ⟨d, s⟩ <;> cases neg <;> simp [eatClass, live, step, classRune]

theorem bind_run (s : Option Bytes) (i : Item) (is : List Item) : (s.bind (step i)).bind (run is) = s.bind (run (i :: is)) := by
  cases s <;> rfl

theorem chunk_run {chunk : Bytes} {is : List Item} (h : Pattern chunk is) : NoStar is → ∀ (n : Nat) (s : Option Bytes), chunk.length ≤ n → chunkLoop n chunk s = some (s.bind (run is)) := by
  induction h with
  | nil =>
    intro _ n s _
    cases s <;> simp [chunkLoop, run]
  | star h ih => intro hn; exact absurd rfl (noStar_cons.1 hn).1
  | @any p is h ih =>
    intro hn n s hl
    cases n with
    | zero => simp at hl
    | succ n =>
      unfold chunkLoop
      rw [if_neg (by decide), if_pos rfl, eat_any, ih (noStar_cons.1 hn).2 n _ (by simpa using hl), bind_run]
  | @escaped c p is h ih =>
    intro hn n s hl
    cases n with
    | zero => simp at hl
    | succ n =>
      unfold chunkLoop
      rw [if_neg (by decide), if_neg (by decide), if_pos rfl]
      dsimp only
      rw [eat_byte, ih (noStar_cons.1 hn).2 n _ (by simp at hl; omega), bind_run]
  | @lit c p is h1 h2 h3 h4 h ih =>
    intro hn n s hl
    cases n with
    | zero => simp at hl
    | succ n =>
      unfold chunkLoop
      rw [if_neg h3, if_neg h2, if_neg h4, eat_byte, ih (noStar_cons.1 hn).2 n _ (by simpa using hl), bind_run]
  | @cls b p rs is h1 h2 h3 h ih =>
    intro hn n s hl
    cases n with
    | zero => simp at hl
    | succ n =>
      unfold chunkLoop
      rw [if_pos rfl, inClass_pos h1 h2 h3]
      dsimp only
      rw [eat_cls s false rs (hits rs (classRune (live s))) rfl, ih (noStar_cons.1 hn).2 n _ (by simp at hl; omega), bind_run]
  | @notCls b p rs is h1 h2 h ih =>
    intro hn n s hl
    cases n with
    | zero => simp at hl
    | succ n =>
      unfold chunkLoop
      rw [if_pos rfl, inClass_neg h1 h2]
      dsimp only
      rw [eat_cls s true rs (!hits rs (classRune (live s))) rfl, ih (noStar_cons.1 hn).2 n _ (by simp at hl; omega), bind_run]

/-! ## Scanning -/

theorem scan_escape (b : Bool) (d : UInt8) (r : Bytes) : scanBody b (92 :: d :: r) = (92 :: d :: (scanBody b r).1, (scanBody b r).2) := by
  rw [scanBody]
  simp

theorem scan_other {b : Bool} {c : UInt8} {r : Bytes} (h1 : c ≠ 92) (h2 : ¬ (c = 42 ∧ b = false)) :
    scanBody b (c :: r) = (c :: (scanBody (if c = 91 then true else if c = 93 then false else b) r).1, (scanBody (if c = 91 then true else if c = 93 then false else b) r).2) := by
  cases r with
  | nil =>
    simp only [scanBody]
    rw [if_neg h2]
  | cons d r => rw [scanBody, if_neg h1, if_neg h2]

theorem scan_stop (r : Bytes) : scanBody false (42 :: r) = ([], 42 :: r) := by
  cases r with
  | nil => rfl
  | cons d r => rw [scanBody, if_neg (by decide), if_pos ⟨rfl, rfl⟩]

theorem scan_lone (b : Bool) : scanBody b [92] = ([92], []) := by
  rw [scanBody, if_neg (by simp)]

/-- Every pattern is empty, an escape, a lone backslash, a star that stops, or another byte. -/
theorem scan_induct {P : Bool → Bytes → Prop} (h0 : ∀ b, P b []) (h1 : ∀ b, P b [92]) (h2 : ∀ b d r, P b r → P b (92 :: d :: r)) (h3 : ∀ r, P false (42 :: r))
    (h4 : ∀ b c r, c ≠ 92 → ¬ (c = 42 ∧ b = false) → P (if c = 91 then true else if c = 93 then false else b) r → P b (c :: r)) : ∀ (n : Nat) (p : Bytes), p.length ≤ n → ∀ b, P b p := by
  intro n
  induction n with
  | zero =>
    intro p hp b
    cases p with
    | nil => exact h0 b
    | cons c p => simp at hp
  | succ n ih =>
    intro p hp b
    cases p with
    | nil => exact h0 b
    | cons c p =>
      by_cases hc : c = 92
      · subst hc
        cases p with
        | nil => exact h1 b
        | cons d r => exact h2 b d r (ih r (by simp at hp; omega) b)
      · by_cases hs : c = 42 ∧ b = false
        · obtain ⟨rfl, rfl⟩ := hs
          exact h3 p
        · exact h4 b c p hc hs (ih p (by simpa using hp) _)

theorem scan_join (p : Bytes) (b : Bool) : (scanBody b p).1 ++ (scanBody b p).2 = p := by
  refine scan_induct (P := fun b p => (scanBody b p).1 ++ (scanBody b p).2 = p) ?_ ?_ ?_ ?_ ?_ p.length p (Nat.le_refl _) b
  · intro b; simp [scanBody]
  · intro b; rw [scan_lone]; rfl
  · intro b d r ih; rw [scan_escape]; simp [ih]
  · intro r; rw [scan_stop]; rfl
  · intro b c r h1 h2 ih; rw [scan_other h1 h2]; exact congrArg (c :: ·) ih

/-- The rest is empty or begins with a star. -/
theorem scan_rest (p : Bytes) (b : Bool) : (scanBody b p).2 = [] ∨ (scanBody b p).2.head? = some 42 := by
  refine scan_induct (P := fun b p => (scanBody b p).2 = [] ∨ (scanBody b p).2.head? = some 42) ?_ ?_ ?_ ?_ ?_ p.length p (Nat.le_refl _) b
  · intro b; simp [scanBody]
  · intro b; rw [scan_lone]; exact .inl rfl
  · intro b d r ih; rw [scan_escape]; exact ih
  · intro r; rw [scan_stop]; exact .inr rfl
  · intro b c r h1 h2 ih; rw [scan_other h1 h2]; exact ih

/-- Scanning the chunk again does not stop. -/
theorem scan_chunk (p : Bytes) (b : Bool) : scanBody b (scanBody b p).1 = ((scanBody b p).1, []) := by
  refine scan_induct (P := fun b p => scanBody b (scanBody b p).1 = ((scanBody b p).1, [])) ?_ ?_ ?_ ?_ ?_ p.length p (Nat.le_refl _) b
  · intro b; simp [scanBody]
  · intro b; rw [scan_lone]; exact scan_lone b
  · intro b d r ih; rw [scan_escape]; dsimp only; rw [scan_escape, ih]
  · intro r; rw [scan_stop]; simp [scanBody]
  · intro b c r h1 h2 ih; rw [scan_other h1 h2]; dsimp only; rw [scan_other h1 h2, ih]

theorem scan_plain {u : Bytes} (h : ∀ c ∈ u, c ≠ 92 ∧ c ≠ 93) (t : Bytes) : scanBody true (u ++ t) = (u ++ (scanBody true t).1, (scanBody true t).2) := by
  induction u with
  | nil => rfl
  | cons c u ih =>
    have hc := h c (by simp)
    rw [List.cons_append, scan_other hc.1 (by simp), if_neg hc.2]
    have : (if c = 91 then true else true) = true := by split <;> rfl
    rw [this, ih (fun c hc => h c (by simp [hc]))]
    rfl

theorem encode_tail {n : Nat} : ∀ c ∈ (encodeRune n).drop 1, 128 ≤ c.toNat := by
  have hk : ∀ m, m < 64 → 128 ≤ (UInt8.ofNat (0x80 + m)).toNat := by
    intro m hm
    rw [toNat_ofNat (by omega)]; omega
  have m1 := Nat.mod_lt n (show 64 > 0 by omega)
  have m2 := Nat.mod_lt (n / 64) (show 64 > 0 by omega)
  have m3 := Nat.mod_lt (n / 4096) (show 64 > 0 by omega)
  intro c hc
  unfold encodeRune at hc
  split at hc
  · rw [List.drop_one, List.tail_cons] at hc; cases hc
  · split at hc
    · rw [List.drop_one, List.tail_cons, List.mem_singleton] at hc
      subst hc; exact hk _ m1
    · split at hc
      · rw [List.drop_one, List.tail_cons, List.mem_cons, List.mem_singleton] at hc
        rcases hc with rfl | rfl <;> decide
      · split at hc
        · rw [List.drop_one, List.tail_cons, List.mem_cons, List.mem_singleton] at hc
          rcases hc with rfl | rfl
          · exact hk _ m2
          · exact hk _ m1
        · rw [List.drop_one, List.tail_cons, List.mem_cons, List.mem_cons, List.mem_singleton] at hc
          rcases hc with rfl | rfl | rfl
          · exact hk _ m3
          · exact hk _ m2
          · exact hk _ m1

theorem not_special {c : UInt8} (h : 128 ≤ c.toNat) : c ≠ 92 ∧ c ≠ 93 := by
  constructor <;> (intro he; subst he; revert h; decide)

theorem scan_char {u : Bytes} {n : Nat} (h : ClassChar u n) (t : Bytes) : scanBody true (u ++ t) = (u ++ (scanBody true t).1, (scanBody true t).2) := by
  cases h with
  | plain hs h1 h2 h3 =>
    refine scan_plain ?_ t
    intro c hc
    by_cases hl : n < 128
    · rw [encode_ascii hl] at hc
      simp at hc
      subst hc
      constructor
      · intro he; have := congrArg UInt8.toNat he; rw [toNat_ofNat (by omega)] at this; exact h2 this
      · intro he; have := congrArg UInt8.toNat he; rw [toNat_ofNat (by omega)] at this; exact h3 this
    · obtain ⟨d, v, he, hd⟩ := encode_head (n := n) (by omega)
      have ht := encode_tail (n := n)
      rw [he] at hc ht
      rcases List.mem_cons.1 hc with rfl | hc
      · exact not_special hd
      · exact not_special (ht c (by simpa using hc))
  | escaped hs =>
    have ht := encode_tail (n := n)
    cases he : encodeRune n with
    | nil => exact absurd he (encode_ne_nil n)
    | cons d v =>
      rw [he] at ht
      simp only [List.cons_append]
      rw [scan_escape, scan_plain (u := v) (fun c hc => not_special (ht c (by simpa using hc)))]

theorem scan_class {b : Bytes} {rs : List (Nat × Nat)} (h : ClassRanges b rs) (p : Bytes) :
    scanBody true (b ++ 93 :: p) = (b ++ 93 :: (scanBody false p).1, (scanBody false p).2) := by
  induction h with
  | nil => rw [List.nil_append, scan_other (by decide) (by simp)]; rfl
  | one h1 h2 ih => rw [List.append_assoc, scan_char h1, ih]; simp
  | @range t u s lo hi rs h1 h2 h3 ih =>
    rw [show t ++ 45 :: (u ++ s) ++ 93 :: p = t ++ ([45] ++ (u ++ (s ++ 93 :: p))) by simp, scan_char h1, scan_plain (u := [45]) (by simp), scan_char h2, ih]
    simp

/-- A pattern is a chunk without star and a pattern that begins with a star. -/
theorem pattern_scan {p : Bytes} {is : List Item} (h : Pattern p is) :
    ∃ is1 is2, is = is1 ++ is2 ∧ NoStar is1 ∧ Pattern (scanBody false p).1 is1 ∧ Pattern (scanBody false p).2 is2 := by
  induction h with
  | nil => exact ⟨[], [], rfl, by simp [NoStar], .nil, .nil⟩
  | @star p is h ih => rw [scan_stop]; exact ⟨[], _, rfl, by simp [NoStar], .nil, .star h⟩
  | @any p is h ih =>
    obtain ⟨is1, is2, rfl, h1, h2, h3⟩ := ih
    rw [scan_other (by decide) (by decide)]
    exact ⟨.any :: is1, is2, rfl, noStar_cons.2 ⟨by simp, h1⟩, .any h2, h3⟩
  | @escaped c p is h ih =>
    obtain ⟨is1, is2, rfl, h1, h2, h3⟩ := ih
    rw [scan_escape]
    exact ⟨.lit c :: is1, is2, rfl, noStar_cons.2 ⟨by simp, h1⟩, .escaped h2, h3⟩
  | @lit c p is n1 n2 n3 n4 h ih =>
    obtain ⟨is1, is2, rfl, h1, h2, h3⟩ := ih
    rw [scan_other n4 (by simp [n1]), if_neg n3]
    have : (if c = 93 then false else false) = false := by split <;> rfl
    rw [this]
    exact ⟨.lit c :: is1, is2, rfl, noStar_cons.2 ⟨by simp, h1⟩, .lit n1 n2 n3 n4 h2, h3⟩
  | @cls b p rs is n1 n2 n3 h ih =>
    obtain ⟨is1, is2, rfl, h1, h2, h3⟩ := ih
    rw [scan_other (by decide) (by decide), if_pos rfl, scan_class n2]
    exact ⟨.cls false rs :: is1, is2, rfl, noStar_cons.2 ⟨by simp, h1⟩, .cls n1 n2 n3 h2, h3⟩
  | @notCls b p rs is n1 n2 h ih =>
    obtain ⟨is1, is2, rfl, h1, h2, h3⟩ := ih
    rw [scan_other (by decide) (by decide), if_pos rfl, show (94 :: (b ++ 93 :: p)) = [94] ++ (b ++ 93 :: p) from rfl, scan_plain (u := [94]) (by simp), scan_class n2]
    exact ⟨.cls true rs :: is1, is2, rfl, noStar_cons.2 ⟨by simp, h1⟩, .notCls n1 n2 h2, h3⟩

theorem pattern_append {p q : Bytes} {is js : List Item} (h : Pattern p is) (hq : Pattern q js) : Pattern (p ++ q) (is ++ js) := by
  induction h with
  | nil => exact hq
  | star h ih => exact .star ih
  | any h ih => exact .any ih
  | escaped h ih => exact .escaped ih
  | lit n1 n2 n3 n4 h ih => exact .lit n1 n2 n3 n4 ih
  | @cls b p rs is n1 n2 n3 h ih =>
    rw [show 91 :: (b ++ 93 :: p) ++ q = 91 :: (b ++ 93 :: (p ++ q)) by simp]
    exact .cls n1 n2 n3 ih
  | @notCls b p rs is n1 n2 h ih =>
    rw [show 91 :: 94 :: (b ++ 93 :: p) ++ q = 91 :: 94 :: (b ++ 93 :: (p ++ q)) by simp]
    exact .notCls n1 n2 ih

/-- A chunk that matchChunk accepts is a pattern without star, if scanning it does not stop. -/
theorem chunk_spec (n : Nat) : ∀ {chunk : Bytes} {s r : Option Bytes}, chunkLoop n chunk s = some r → (scanBody false chunk).2 = [] →
    ∃ is, Pattern chunk is ∧ NoStar is ∧ r = s.bind (run is) := by
  induction n with
  | zero =>
    intro chunk s r h hs
    cases chunk with
    | nil => cases h; exact ⟨[], .nil, by simp [NoStar], by cases s <;> rfl⟩
    | cons c chunk => cases h
  | succ n ih =>
    intro chunk s r h hs
    cases chunk with
    | nil => cases h; exact ⟨[], .nil, by simp [NoStar], by cases s <;> rfl⟩
    | cons c chunk =>
      unfold chunkLoop at h
      split at h
      · next hc =>
        subst hc
        rw [scan_other (by decide) (by decide), if_pos rfl] at hs
        dsimp only at hs
        split at h
        · cases h
        · next hit rest hic =>
          obtain ⟨b, rs, c1, c2, ⟨rfl, c3, c4⟩ | ⟨rfl, c4⟩⟩ := inClass_spec hic
          · rw [scan_class c2] at hs
            rw [eat_cls s false rs _ c4] at h
            obtain ⟨is, h1, h2, rfl⟩ := ih h hs
            exact ⟨_, .cls c1 c2 c3 h1, noStar_cons.2 ⟨by simp, h2⟩, bind_run s _ is⟩
          · rw [show (94 :: (b ++ 93 :: rest)) = [94] ++ (b ++ 93 :: rest) from rfl, scan_plain (u := [94]) (by simp), scan_class c2] at hs
            rw [eat_cls s true rs _ c4] at h
            obtain ⟨is, h1, h2, rfl⟩ := ih h hs
            exact ⟨_, .notCls c1 c2 h1, noStar_cons.2 ⟨by simp, h2⟩, bind_run s _ is⟩
      · next hc91 =>
        split at h
        · next hc =>
          subst hc
          rw [scan_other (by decide) (by decide)] at hs
          rw [eat_any] at h
          obtain ⟨is, h1, h2, rfl⟩ := ih h hs
          exact ⟨_, .any h1, noStar_cons.2 ⟨by simp, h2⟩, bind_run s _ is⟩
        · next hc63 =>
          split at h
          · next hc =>
            subst hc
            split at h
            · cases h
            · next d rest =>
              rw [scan_escape] at hs
              rw [eat_byte] at h
              obtain ⟨is, h1, h2, rfl⟩ := ih h hs
              exact ⟨_, .escaped h1, noStar_cons.2 ⟨by simp, h2⟩, bind_run s _ is⟩
          · next hc92 =>
            have hc42 : c ≠ 42 := by
              intro hc
              subst hc
              rw [scan_stop] at hs
              cases hs
            rw [scan_other hc92 (by simp [hc42]), if_neg hc91] at hs
            have : (if c = 93 then false else false) = false := by split <;> rfl
            rw [this] at hs
            rw [eat_byte] at h
            obtain ⟨is, h1, h2, rfl⟩ := ih h hs
            exact ⟨_, .lit hc42 hc63 hc91 hc92 h1, noStar_cons.2 ⟨by simp, h2⟩, bind_run s _ is⟩

/-! ## Matching -/

theorem hits_iff {rs : List (Nat × Nat)} {n : Nat} : hits rs n = true ↔ ∃ r ∈ rs, r.1 ≤ n ∧ n ≤ r.2 := by
  simp [hits]

theorem inClass_iff {neg : Bool} {rs : List (Nat × Nat)} {n : Nat} : InClass neg rs n ↔ hits rs n = !neg := by
  unfold InClass
  rw [← hits_iff]
  cases neg <;> cases hits rs n <;> simp

theorem decode_slash {s : Bytes} : s ≠ [] → ((decodeRune s).1 = 47 ↔ s.head? = some 47) := by
  intro hne
  constructor
  · intro h
    by_cases hc : charLen s = 0
    · unfold decodeRune at h
      rw [if_pos hc] at h
      cases h
    · obtain ⟨n, hn, he, hd⟩ := charLen_split hc
      rw [hd] at h
      dsimp only at h
      subst h
      rw [he]
      rfl
  · intro h
    cases s with
    | nil => cases h
    | cons c r =>
      simp only [List.head?_cons, Option.some.injEq] at h
      subst h
      rw [decode_ascii (by decide)]
      rfl

theorem step_matches {i : Item} {is : List Item} {s t : Bytes} (h : step i s = some t) (hm : Matches is t) : Matches (i :: is) s := by
  cases i with
  | lit c =>
    simp only [step] at h
    split at h
    · next hc =>
      cases s with
      | nil => cases hc
      | cons d s =>
        simp only [List.head?_cons, Option.some.injEq] at hc
        subst hc
        rw [List.drop_one, List.tail_cons] at h
        cases h
        exact .lit hm
    · cases h
  | any =>
    simp only [step] at h
    split at h
    · cases h
    · next hc =>
      rw [not_or] at hc
      cases h
      exact .any (starts_decode hc.1) (fun h => hc.2 ((decode_slash hc.1).1 h)) hm
  | star => cases h
  | cls neg rs =>
    simp only [step] at h
    split at h
    · cases h
    · next hne =>
      split at h
      · next hh =>
        cases h
        exact .cls (starts_decode hne) (inClass_iff.2 hh) hm
      · cases h

theorem matches_step {i : Item} {is : List Item} {s : Bytes} (hi : i ≠ .star) (hm : Matches (i :: is) s) : ∃ t, step i s = some t ∧ Matches is t := by
  cases hm with
  | lit h => exact ⟨_, by simp [step], h⟩
  | any h1 h2 h3 =>
    obtain ⟨a1, rfl, rfl⟩ := starts_iff.1 h1
    refine ⟨_, ?_, h3⟩
    simp only [step]
    rw [if_neg]
    rw [not_or]
    exact ⟨a1, fun h => h2 ((decode_slash a1).2 h)⟩
  | star h1 h2 => exact absurd rfl hi
  | cls h1 h2 h3 =>
    obtain ⟨a1, rfl, rfl⟩ := starts_iff.1 h1
    refine ⟨_, ?_, h3⟩
    simp only [step]
    rw [if_neg a1, if_pos (inClass_iff.1 h2)]

theorem run_matches {is1 is2 : List Item} {s t : Bytes} (h : run is1 s = some t) (hm : Matches is2 t) : Matches (is1 ++ is2) s := by
  induction is1 generalizing s with
  | nil => cases h; exact hm
  | cons i is ih =>
    obtain ⟨u, h1, h2⟩ := Option.bind_eq_some_iff.1 h
    exact step_matches h1 (ih h2)

theorem matches_run {is1 is2 : List Item} {s : Bytes} (hn : NoStar is1) (hm : Matches (is1 ++ is2) s) : ∃ t, run is1 s = some t ∧ Matches is2 t := by
  induction is1 generalizing s with
  | nil => exact ⟨s, rfl, hm⟩
  | cons i is ih =>
    obtain ⟨u, h1, h2⟩ := matches_step (noStar_cons.1 hn).1 hm
    obtain ⟨t, h3, h4⟩ := ih (noStar_cons.1 hn).2 h2
    exact ⟨t, Option.bind_eq_some_iff.2 ⟨u, h1, h3⟩, h4⟩

/-! ## Stars -/

theorem dropStars_head (p : Bytes) : (dropStars p).head? ≠ some 42 := by
  induction p with
  | nil => simp [dropStars]
  | cons c p ih =>
    unfold dropStars
    split
    · exact ih
    · next h => simpa using h

theorem dropStars_split (p : Bytes) : ∃ k, p = List.replicate k 42 ++ dropStars p ∧ (k = 0 ↔ (scanChunk p).1 = false) := by
  have key : ∀ p : Bytes, ∃ k, p = List.replicate k 42 ++ dropStars p ∧ (k = 0 ↔ p.head? ≠ some 42) := by
    intro p
    induction p with
    | nil => exact ⟨0, rfl, by simp⟩
    | cons c p ih =>
      by_cases hc : c = 42
      · subst hc
        obtain ⟨k, h1, _⟩ := ih
        refine ⟨k + 1, ?_, by simp⟩
        unfold dropStars
        rw [if_pos rfl, List.replicate_succ, List.cons_append, ← h1]
      · refine ⟨0, ?_, by simp [hc]⟩
        unfold dropStars
        rw [if_neg hc]
        rfl
  obtain ⟨k, h1, h2⟩ := key p
  refine ⟨k, h1, ?_⟩
  rw [h2]
  simp [scanChunk]

theorem pattern_stars {k : Nat} {p : Bytes} {is : List Item} : Pattern (List.replicate k 42 ++ p) is ↔ ∃ is', is = List.replicate k .star ++ is' ∧ Pattern p is' := by
  induction k generalizing is with
  | zero => simp
  | succ k ih =>
    rw [List.replicate_succ, List.cons_append]
    constructor
    · intro h
      cases h with
      | star h =>
        obtain ⟨is', rfl, h'⟩ := ih.1 h
        exact ⟨is', rfl, h'⟩
      | lit h1 => exact absurd rfl h1
    · rintro ⟨is', rfl, h⟩
      exact .star (ih.2 ⟨is', rfl, h⟩)

theorem matches_stars {k : Nat} {is : List Item} {s : Bytes} : Matches (List.replicate (k + 1) .star ++ is) s ↔ ∃ a b, s = a ++ b ∧ (47 : UInt8) ∉ a ∧ Matches is b := by
  induction k generalizing s with
  | zero =>
    constructor
    · intro h
      cases h with
      | star h1 h2 => exact ⟨_, _, rfl, h1, h2⟩
    · rintro ⟨a, b, rfl, h1, h2⟩
      exact .star h1 h2
  | succ k ih =>
    constructor
    · intro h
      cases h with
      | @star a b _ h1 h2 =>
        obtain ⟨a', b', rfl, h3, h4⟩ := ih.1 h2
        refine ⟨a ++ a', b', by simp, ?_, h4⟩
        rw [List.mem_append, not_or]
        exact ⟨h1, h3⟩
    · rintro ⟨a, b, rfl, h1, h2⟩
      exact .star h1 (ih.2 ⟨[], b, rfl, by simp, h2⟩)

/-- The parts of a pattern: stars, a chunk, and the rest. -/
structure Split (p : Bytes) (k : Nat) (is is1 is2 : List Item) : Prop where
  stars : k = 0 ↔ (scanChunk p).1 = false
  items : is = List.replicate k .star ++ (is1 ++ is2)
  noStar : NoStar is1
  chunk : Pattern (scanChunk p).2.1 is1
  rest : Pattern (scanChunk p).2.2 is2

theorem pattern_split {p : Bytes} {is : List Item} (h : Pattern p is) : ∃ k is1 is2, Split p k is is1 is2 := by
  obtain ⟨k, h1, h2⟩ := dropStars_split p
  rw [h1] at h
  obtain ⟨is', rfl, h'⟩ := pattern_stars.1 h
  obtain ⟨is1, is2, rfl, a1, a2, a3⟩ := pattern_scan h'
  exact ⟨k, is1, is2, h2, rfl, a1, a2, a3⟩

theorem split_pattern {p : Bytes} {is1 is2 : List Item} (h1 : Pattern (scanChunk p).2.1 is1) (h2 : Pattern (scanChunk p).2.2 is2) :
    ∃ k, (k = 0 ↔ (scanChunk p).1 = false) ∧ Pattern p (List.replicate k .star ++ (is1 ++ is2)) := by
  obtain ⟨k, a1, a2⟩ := dropStars_split p
  refine ⟨k, a2, ?_⟩
  have hj : (scanChunk p).2.1 ++ (scanChunk p).2.2 = dropStars p := scan_join (dropStars p) false
  have := pattern_append h1 h2
  rw [hj] at this
  rw [a1]
  exact pattern_stars.2 ⟨_, rfl, this⟩

theorem scan_lengths (p : Bytes) (hp : p ≠ []) : (scanChunk p).2.2.length < p.length ∧ (scanChunk p).2.1.length ≤ p.length := by
  obtain ⟨k, h1, h2⟩ := dropStars_split p
  have hj : (scanChunk p).2.1 ++ (scanChunk p).2.2 = dropStars p := scan_join (dropStars p) false
  have hl := congrArg List.length hj
  have hl2 := congrArg List.length h1
  simp only [List.length_append, List.length_replicate] at hl hl2
  refine ⟨?_, by omega⟩
  by_cases hk : k = 0
  · have hs : (dropStars p) = p := by rw [hk] at h1; simpa using h1.symm
    -- the chunk is not empty
    cases hc : (scanChunk p).2.1 with
    | cons c r => rw [hc] at hl; simp at hl; omega
    | nil =>
      exfalso
      have hh := dropStars_head p
      rw [hc, List.nil_append] at hj
      rcases scan_rest (dropStars p) false with hr | hr
      · have : (scanChunk p).2.2 = [] := hr
        rw [this] at hj
        rw [← hs, ← hj] at hp
        exact hp rfl
      · have : (scanChunk p).2.2.head? = some 42 := hr
        rw [hj] at this
        exact hh this
  · omega

/-- A star without a chunk is the end of the pattern. -/
theorem empty_chunk {p : Bytes} (h : (scanChunk p).2.1 = []) : (scanChunk p).2.2 = [] := by
  have hj : (scanChunk p).2.1 ++ (scanChunk p).2.2 = dropStars p := scan_join (dropStars p) false
  rw [h, List.nil_append] at hj
  rcases scan_rest (dropStars p) false with hr | hr
  · exact hr
  · have : (scanChunk p).2.2.head? = some 42 := hr
    rw [hj] at this
    exact absurd this (dropStars_head p)

theorem pattern_nil {is : List Item} (h : Pattern [] is) : is = [] := by cases h; rfl

theorem pattern_star_head {p : Bytes} {is : List Item} (h : Pattern p is) (hp : p.head? = some 42) : ∃ is', is = .star :: is' := by
  cases h with
  | nil => cases hp
  | star h => exact ⟨_, rfl⟩
  | any h => cases hp
  | escaped h => cases hp
  | lit h1 => simp at hp; exact absurd hp h1
  | cls => cases hp
  | notCls => cases hp

theorem matchChunk_run {chunk : Bytes} {is : List Item} (h : Pattern chunk is) (hn : NoStar is) (s : Bytes) : matchChunk chunk s = some (run is s) :=
  chunk_run h hn _ (some s) (Nat.le_refl _)

theorem matchChunk_spec {p s : Bytes} {r : Option Bytes} (h : matchChunk (scanChunk p).2.1 s = some r) : ∃ is, Pattern (scanChunk p).2.1 is ∧ NoStar is ∧ r = run is s :=
  chunk_spec _ h (congrArg Prod.snd (scan_chunk (dropStars p) false))

/-! ## Soundness -/

theorem starLoop_spec {chunk : Bytes} {last : Bool} {name t : Bytes} (h : starLoop chunk last name = some (some t)) :
    ∃ a b, name = a ++ b ∧ (47 : UInt8) ∉ a ∧ matchChunk chunk b = some (some t) ∧ (last = true → t = []) := by
  induction name with
  | nil => cases h
  | cons c name ih =>
    unfold starLoop at h
    split at h
    · cases h
    · next hc =>
      have more : starLoop chunk last name = some (some t) → ∃ a b, c :: name = a ++ b ∧ (47 : UInt8) ∉ a ∧ matchChunk chunk b = some (some t) ∧ (last = true → t = []) := by
        intro h
        obtain ⟨a, b, rfl, h2, h3, h4⟩ := ih h
        refine ⟨c :: a, b, rfl, ?_, h3, h4⟩
        rw [List.mem_cons, not_or]
        exact ⟨fun h => hc h.symm, h2⟩
      split at h
      · cases h
      · next t' ht =>
        split at h
        · exact more h
        · next hl =>
          cases h
          refine ⟨[c], name, rfl, by simpa using fun h => hc h.symm, ht, ?_⟩
          intro hlast
          exact Classical.byContradiction fun hne => hl ⟨hlast, hne⟩
      · exact more h

theorem checkRest_false {n : Nat} {p : Bytes} {b : Bool} (h : checkRest n p = some b) : b = false := by
  induction n generalizing p with
  | zero => cases p with
    | nil => cases h; rfl
    | cons c p => cases h
  | succ n ih => cases p with
    | nil => cases h; rfl
    | cons c p =>
      unfold checkRest at h
      split at h
      · cases h
      · exact ih h

/-- C102, one direction: a name that matches is matched in the sense of the documentation. -/
theorem glob_sound (n : Nat) : ∀ {p name : Bytes}, globLoop n p name = some true → ∃ is, Pattern p is ∧ Matches is name := by
  induction n with
  | zero =>
    intro p name h
    cases p with
    | nil =>
      simp [globLoop] at h
      subst h
      exact ⟨[], .nil, .nil⟩
    | cons c p => cases h
  | succ n ih =>
    intro p name h
    cases p with
    | nil =>
      simp [globLoop] at h
      subst h
      exact ⟨[], .nil, .nil⟩
    | cons c p =>
      unfold globLoop at h
      dsimp only at h
      split at h
      · next hstar =>
        have hrest := empty_chunk hstar.2
        obtain ⟨k, h1, h2⟩ := split_pattern (p := c :: p) (is1 := []) (is2 := []) (by rw [hstar.2]; exact .nil) (by rw [hrest]; exact .nil)
        refine ⟨_, h2, ?_⟩
        cases k with
        | zero => have := h1.1 rfl; rw [hstar.1] at this; cases this
        | succ k =>
          refine matches_stars.2 ⟨name, [], by simp, ?_, .nil⟩
          simpa using h
      · next hstar =>
        have direct : ∀ {t : Bytes}, matchChunk (scanChunk (c :: p)).2.1 name = some (some t) → globLoop n (scanChunk (c :: p)).2.2 t = some true → ∃ is, Pattern (c :: p) is ∧ Matches is name := by
          intro t ht hg
          obtain ⟨is1, a1, a2, a3⟩ := matchChunk_spec ht
          obtain ⟨is2, b1, b2⟩ := ih hg
          obtain ⟨k, _, h2⟩ := split_pattern a1 b1
          refine ⟨_, h2, ?_⟩
          have hm := run_matches a3.symm b2
          cases k with
          | zero => exact hm
          | succ k => exact matches_stars.2 ⟨[], name, rfl, by simp, hm⟩
        have search : (if (scanChunk (c :: p)).1 = true then
            match starLoop (scanChunk (c :: p)).2.1 (decide ((scanChunk (c :: p)).2.2 = [])) name with
            | none => none
            | some none => checkRest n (scanChunk (c :: p)).2.2
            | some (some t) => globLoop n (scanChunk (c :: p)).2.2 t
          else checkRest n (scanChunk (c :: p)).2.2) = some true → ∃ is, Pattern (c :: p) is ∧ Matches is name := by
          intro hx
          split at hx
          · next hs =>
            split at hx
            · cases hx
            · cases checkRest_false hx
            · next t ht =>
              obtain ⟨a, b, rfl, c1, c2, _⟩ := starLoop_spec ht
              obtain ⟨is1, a1, a2, a3⟩ := matchChunk_spec c2
              obtain ⟨is2, b1, b2⟩ := ih hx
              obtain ⟨k, h1, h2⟩ := split_pattern a1 b1
              refine ⟨_, h2, ?_⟩
              cases k with
              | zero => have := h1.1 rfl; rw [hs] at this; cases this
              | succ k => exact matches_stars.2 ⟨a, b, rfl, c1, run_matches a3.symm b2⟩
          · cases checkRest_false hx
        split at h
        · next t ht =>
          split at h
          · exact direct ht h
          · exact search h
        · exact search h
        · cases h

/-! ## Syntax -/

theorem checkRest_some (n : Nat) : ∀ {p : Bytes} {is : List Item}, Pattern p is → p.length ≤ n → checkRest n p = some false := by
  induction n with
  | zero =>
    intro p is h hl
    cases p with
    | nil => rfl
    | cons c p => cases hl
  | succ n ih =>
    intro p is h hl
    cases p with
    | nil => rfl
    | cons c p =>
      obtain ⟨k, is1, is2, hs⟩ := pattern_split h
      unfold checkRest
      rw [matchChunk_run hs.chunk hs.noStar]
      refine ih hs.rest ?_
      have := (scan_lengths (c :: p) (by simp)).1
      omega

theorem checkRest_pattern (n : Nat) : ∀ {p : Bytes} {b : Bool}, checkRest n p = some b → ∃ is, Pattern p is := by
  induction n with
  | zero =>
    intro p b h
    cases p with
    | nil => exact ⟨[], .nil⟩
    | cons c p => cases h
  | succ n ih =>
    intro p b h
    cases p with
    | nil => exact ⟨[], .nil⟩
    | cons c p =>
      unfold checkRest at h
      split at h
      · cases h
      · next r hr =>
        obtain ⟨is1, a1, a2, _⟩ := matchChunk_spec hr
        obtain ⟨is2, b1⟩ := ih h
        obtain ⟨k, _, h2⟩ := split_pattern a1 b1
        exact ⟨_, h2⟩

theorem starLoop_some {chunk : Bytes} {is : List Item} (h : Pattern chunk is) (hn : NoStar is) (last : Bool) (name : Bytes) : ∃ r, starLoop chunk last name = some r := by
  induction name with
  | nil => exact ⟨_, rfl⟩
  | cons c name ih =>
    unfold starLoop
    split
    · exact ⟨_, rfl⟩
    · rw [matchChunk_run h hn]
      split
      · next hr => cases hr
      · split
        · exact ih
        · exact ⟨_, rfl⟩
      · exact ih

/-- The search for a chunk after a star. -/
def searchStar (n : Nat) (p name : Bytes) : Option Bool :=
  if (scanChunk p).1 then
    match starLoop (scanChunk p).2.1 ((scanChunk p).2.2 = []) name with
    | none => none
    | some none => checkRest n (scanChunk p).2.2
    | some (some t) => globLoop n (scanChunk p).2.2 t
  else checkRest n (scanChunk p).2.2

theorem globLoop_cons (n : Nat) (c : UInt8) (p name : Bytes) : globLoop (n + 1) (c :: p) name =
    if (scanChunk (c :: p)).1 = true ∧ (scanChunk (c :: p)).2.1 = [] then some (!name.contains 47)
    else match matchChunk (scanChunk (c :: p)).2.1 name with
      | some (some t) => if t = [] ∨ (scanChunk (c :: p)).2.2 ≠ [] then globLoop n (scanChunk (c :: p)).2.2 t else searchStar n (c :: p) name
      | some none => searchStar n (c :: p) name
      | none => none := rfl

theorem glob_some (n : Nat) : ∀ {p : Bytes} {is : List Item} (name : Bytes), Pattern p is → p.length ≤ n → ∃ b, globLoop n p name = some b := by
  induction n with
  | zero =>
    intro p is name h hl
    cases p with
    | nil => exact ⟨_, rfl⟩
    | cons c p => cases hl
  | succ n ih =>
    intro p is name h hl
    cases p with
    | nil => exact ⟨_, rfl⟩
    | cons c p =>
      obtain ⟨k, is1, is2, hs⟩ := pattern_split h
      have hlen : (scanChunk (c :: p)).2.2.length ≤ n := by
        have := (scan_lengths (c :: p) (by simp)).1
        omega
      have hsearch : ∃ b, searchStar n (c :: p) name = some b := by
        unfold searchStar
        split
        · obtain ⟨r, hr⟩ := starLoop_some hs.chunk hs.noStar (decide ((scanChunk (c :: p)).2.2 = [])) name
          rw [hr]
          cases r with
          | none => exact ⟨_, checkRest_some n hs.rest hlen⟩
          | some t => exact ih t hs.rest hlen
        · exact ⟨_, checkRest_some n hs.rest hlen⟩
      rw [globLoop_cons]
      split
      · exact ⟨_, rfl⟩
      · rw [matchChunk_run hs.chunk hs.noStar]
        cases hr : run is1 name with
        | none => exact hsearch
        | some t =>
          dsimp only
          split
          · exact ih t hs.rest hlen
          · exact hsearch

theorem glob_pattern (n : Nat) : ∀ {p name : Bytes} {b : Bool}, globLoop n p name = some b → ∃ is, Pattern p is := by
  induction n with
  | zero =>
    intro p name b h
    cases p with
    | nil => exact ⟨[], .nil⟩
    | cons c p => cases h
  | succ n ih =>
    intro p name b h
    cases p with
    | nil => exact ⟨[], .nil⟩
    | cons c p =>
      rw [globLoop_cons] at h
      split at h
      · next hstar =>
        obtain ⟨k, h1, h2⟩ := split_pattern (p := c :: p) (is1 := []) (is2 := []) (by rw [hstar.2]; exact .nil) (by rw [empty_chunk hstar.2]; exact .nil)
        exact ⟨_, h2⟩
      · have all : ∀ {r : Option Bytes}, matchChunk (scanChunk (c :: p)).2.1 name = some r → (∃ is, Pattern (scanChunk (c :: p)).2.2 is) → ∃ is, Pattern (c :: p) is := by
          intro r hr h2
          obtain ⟨is1, a1, _⟩ := matchChunk_spec hr
          obtain ⟨is2, b1⟩ := h2
          obtain ⟨k, _, h3⟩ := split_pattern a1 b1
          exact ⟨_, h3⟩
        have search : searchStar n (c :: p) name = some b → ∃ is, Pattern (scanChunk (c :: p)).2.2 is := by
          intro hx
          unfold searchStar at hx
          split at hx
          · split at hx
            · cases hx
            · exact checkRest_pattern n hx
            · exact ih hx
          · exact checkRest_pattern n hx
        split at h
        · next t ht =>
          split at h
          · exact all ht (ih h)
          · exact all ht (search h)
        · next ht => exact all ht (search h)
        · cases h

/-! ## Completeness for names in ASCII -/

def Ascii (s : Bytes) : Prop := ∀ c ∈ s, c.toNat < 128

theorem step_ascii {i : Item} {s t : Bytes} (hs : Ascii s) (h : step i s = some t) :
    ∃ c, s = c :: t ∧ (i = .lit 47 → c = 47) ∧ (c = 47 → i = .lit 47 ∨ ∃ neg rs, i = .cls neg rs ∧ InClass neg rs 47) := by
  cases s with
  | nil => cases i <;> simp [step] at h
  | cons c s =>
    have hc := hs c (by simp)
    have hd := decode_ascii hc s
    cases i with
    | lit d =>
      simp only [step, List.head?_cons, Option.some.injEq, List.drop_one, List.tail_cons] at h
      split at h
      · next hcd =>
        cases h
        subst hcd
        exact ⟨c, rfl, fun h => by cases h; rfl, fun h => .inl (by rw [h])⟩
      · cases h
    | any =>
      simp only [step, hd, List.drop_one, List.tail_cons] at h
      split at h
      · cases h
      · next hne =>
        cases h
        refine ⟨c, rfl, (fun h => by cases h), fun h => ?_⟩
        exact absurd (.inr (by rw [h]; rfl)) hne
    | star => cases h
    | cls neg rs =>
      simp only [step, hd, List.drop_one, List.tail_cons] at h
      split at h
      · cases h
      · split at h
        · next hh =>
          cases h
          refine ⟨c, rfl, (fun h => by cases h), fun h => .inr ⟨neg, rs, rfl, ?_⟩⟩
          subst h
          exact inClass_iff.2 hh
        · cases h

theorem ascii_append {a b : Bytes} : Ascii (a ++ b) ↔ Ascii a ∧ Ascii b := by
  simp [Ascii, or_imp, forall_and]

theorem run_ascii {is : List Item} {s t : Bytes} (hs : Ascii s) (h : run is s = some t) :
    ∃ x, s = x ++ t ∧ x.length = is.length ∧ (∀ j : Nat, is[j]? = some (.lit 47) → x[j]? = some 47) ∧
      (∀ j : Nat, x[j]? = some 47 → is[j]? = some (.lit 47) ∨ ∃ neg rs, is[j]? = some (.cls neg rs) ∧ InClass neg rs 47) := by
  induction is generalizing s with
  | nil =>
    cases h
    exact ⟨[], rfl, rfl, fun j h => by simp at h, fun j h => by simp at h⟩
  | cons i is ih =>
    obtain ⟨u, h1, h2⟩ := Option.bind_eq_some_iff.1 h
    obtain ⟨c, rfl, c1, c2⟩ := step_ascii hs h1
    obtain ⟨x, rfl, x1, x2, x3⟩ := ih (fun d hd => hs d (List.mem_cons_of_mem _ hd)) h2
    refine ⟨c :: x, rfl, by simp [x1], ?_, ?_⟩
    · intro j hj
      cases j with
      | zero => simp only [List.getElem?_cons_zero, Option.some.injEq] at hj ⊢; exact c1 hj
      | succ j => simp only [List.getElem?_cons_succ] at hj ⊢; exact x2 j hj
    · intro j hj
      cases j with
      | zero => simp only [List.getElem?_cons_zero, Option.some.injEq] at hj ⊢; exact c2 hj
      | succ j => simp only [List.getElem?_cons_succ] at hj ⊢; exact x3 j hj

/-- An earlier match of the chunk leaves more to be matched, and no slash is lost. -/
theorem run_shift {is : List Item} {a0 b0 t0 a b t : Bytes} (hs : Ascii (a ++ b)) (he : a0 ++ b0 = a ++ b) (hl : a0.length ≤ a.length)
    (ha : (47 : UInt8) ∉ a) (h0 : run is b0 = some t0) (h : run is b = some t) (hc : (47 : UInt8) ∈ a ++ b → NoSlashClass is) :
    ∃ y, t0 = y ++ t ∧ (47 : UInt8) ∉ y := by
  obtain ⟨x0, rfl, p1, p2, _⟩ := run_ascii (ascii_append.1 (he ▸ hs)).2 h0
  obtain ⟨x, rfl, q1, _, q3⟩ := run_ascii (ascii_append.1 hs).2 h
  have he' : (a0 ++ x0) ++ t0 = (a ++ x) ++ t := by rw [List.append_assoc, List.append_assoc]; exact he
  obtain ⟨y, hy⟩ : ∃ y, a ++ x = (a0 ++ x0) ++ y := by
    have : (a0 ++ x0) <+: (a ++ x) := by
      refine List.prefix_of_prefix_length_le (l₃ := (a ++ x) ++ t) ⟨t0, he'⟩ ⟨t, rfl⟩ ?_
      simp only [List.length_append]
      omega
    obtain ⟨y, hy⟩ := this
    exact ⟨y, hy.symm⟩
  have ht : t0 = y ++ t := by
    rw [hy, List.append_assoc (a0 ++ x0) y t] at he'
    exact List.append_cancel_left he'
  refine ⟨y, ht, ?_⟩
  intro hmem
  have hm0 : (47 : UInt8) ∈ a ++ (x ++ t) := by
    rw [← List.append_assoc, hy]
    simp [hmem]
  have hns := hc hm0
  have hylen : a.length = a0.length + y.length := by
    have := congrArg List.length hy
    simp only [List.length_append] at this
    omega
  have hypos : 0 < y.length := List.length_pos_of_mem hmem
  -- no slash anywhere in what the later match covers
  have key : ∀ N q, q < N → q < (a ++ x).length → (a ++ x)[q]? ≠ some 47 := by
    intro N
    induction N with
    | zero => intro q h; exact absurd h (Nat.not_lt_zero _)
    | succ N ih =>
      intro q hqN hq hslash
      by_cases hqa : q < a.length
      · rw [List.getElem?_append_left hqa] at hslash
        exact ha (List.mem_of_getElem? hslash)
      · have hqa : a.length ≤ q := by omega
        rw [List.getElem?_append_right hqa] at hslash
        rcases q3 _ hslash with hi | ⟨neg, rs, hi, hin⟩
        · have h0 := p2 _ hi
          have hlt := (List.getElem?_eq_some_iff.1 h0).1
          refine ih (a0.length + (q - a.length)) (by omega) (by omega) ?_
          rw [hy, List.append_assoc, List.getElem?_append_right (by omega), List.getElem?_append_left (by omega)]
          rw [show a0.length + (q - a.length) - a0.length = q - a.length from by omega]
          exact h0
        · exact hns neg rs (List.mem_of_getElem? hi) hin
  obtain ⟨j, hj⟩ := List.getElem?_of_mem hmem
  have hjl := (List.getElem?_eq_some_iff.1 hj).1
  refine key ((a0 ++ x0).length + j + 1) ((a0 ++ x0).length + j) (by omega) ?_ ?_
  · rw [hy]; simp only [List.length_append]; omega
  · rw [hy, List.getElem?_append_right (by omega)]
    rw [show (a0 ++ x0).length + j - (a0 ++ x0).length = j from by omega]
    exact hj

theorem starLoop_finds {chunk : Bytes} {is : List Item} (hp : Pattern chunk is) (hn : NoStar is) (last : Bool) {a b t : Bytes} (ha : (47 : UInt8) ∉ a) (hne : a ≠ [])
    (h : run is b = some t) (hl : last = true → t = []) :
    ∃ a0 b0 t0, a0 ++ b0 = a ++ b ∧ a0.length ≤ a.length ∧ run is b0 = some t0 ∧ (last = true → t0 = []) ∧ starLoop chunk last (a ++ b) = some (some t0) := by
  induction a with
  | nil => exact absurd rfl hne
  | cons c a ih =>
    rw [List.mem_cons, not_or] at ha
    have later : a ≠ [] → ∃ a0 b0 t0, a0 ++ b0 = c :: a ++ b ∧ a0.length ≤ (c :: a).length ∧ run is b0 = some t0 ∧ (last = true → t0 = []) ∧ starLoop chunk last (a ++ b) = some (some t0) := by
      intro hne
      obtain ⟨a0, b0, t0, e1, e2, e3, e4, e5⟩ := ih ha.2 hne
      exact ⟨c :: a0, b0, t0, by rw [List.cons_append, e1]; rfl, by simpa using e2, e3, e4, e5⟩
    have hc : c ≠ 47 := fun h => ha.1 h.symm
    have hdef : starLoop chunk last (c :: a ++ b) = match run is (a ++ b) with
        | some t => if last = true ∧ t ≠ [] then starLoop chunk last (a ++ b) else some (some t)
        | none => starLoop chunk last (a ++ b) := by
      rw [List.cons_append]
      simp only [starLoop]
      rw [if_neg hc, matchChunk_run hp hn]
      cases run is (a ++ b) <;> rfl
    rw [hdef]
    cases hr : run is (a ++ b) with
    | none =>
      refine later ?_
      rintro rfl
      rw [List.nil_append, h] at hr
      cases hr
    | some t0 =>
      dsimp only
      split
      · next hlast =>
        refine later ?_
        rintro rfl
        rw [List.nil_append, h] at hr
        cases hr
        exact hlast.2 (hl hlast.1)
      · next hlast =>
        refine ⟨[c], a ++ b, t0, rfl, by simp, hr, ?_, rfl⟩
        intro hl
        exact Classical.byContradiction fun hne => hlast ⟨hl, hne⟩

theorem matches_more {is : List Item} {y t : Bytes} (hy : (47 : UInt8) ∉ y) (h : Matches (.star :: is) t) : Matches (.star :: is) (y ++ t) := by
  cases h with
  | star h1 h2 =>
    rw [← List.append_assoc]
    refine .star ?_ h2
    rw [List.mem_append, not_or]
    exact ⟨hy, h1⟩

theorem noSlash_append {is1 is2 : List Item} (h : NoSlashClass (is1 ++ is2)) : NoSlashClass is1 ∧ NoSlashClass is2 :=
  ⟨fun n r h' => h n r (List.mem_append_left _ h'), fun n r h' => h n r (List.mem_append_right _ h')⟩

theorem glob_complete (n : Nat) : ∀ {p : Bytes} {is : List Item} {name : Bytes}, Pattern p is → p.length ≤ n → Matches is name → Ascii name →
    ((47 : UInt8) ∈ name → NoSlashClass is) → globLoop n p name = some true := by
  induction n with
  | zero =>
    intro p is name h hl hm ha hc
    cases p with
    | nil =>
      rw [pattern_nil h] at hm
      cases hm
      rfl
    | cons c p => cases hl
  | succ n ih =>
    intro p is name h hl hm ha hc
    cases p with
    | nil =>
      rw [pattern_nil h] at hm
      cases hm
      rfl
    | cons c p =>
      obtain ⟨k, is1, is2, hs⟩ := pattern_split h
      have hlen : (scanChunk (c :: p)).2.2.length ≤ n := by
        have := (scan_lengths (c :: p) (by simp)).1
        omega
      rw [hs.items] at hm
      rw [hs.items] at hc
      have hrest : (scanChunk (c :: p)).2.2 = [] → is2 = [] := fun he => pattern_nil (he ▸ hs.rest)
      rw [globLoop_cons]
      cases k with
      | zero =>
        rw [List.replicate_zero, List.nil_append] at hm hc
        obtain ⟨t, ht, hm2⟩ := matches_run hs.noStar hm
        have hstar := hs.stars.1 rfl
        rw [if_neg (by rw [hstar]; rintro ⟨h, _⟩; cases h), matchChunk_run hs.chunk hs.noStar, ht]
        dsimp only
        obtain ⟨x, hx, _⟩ := run_ascii ha ht
        rw [if_pos]
        · refine ih hs.rest hlen hm2 (ascii_append.1 (hx ▸ ha)).2 fun h47 => (noSlash_append (hc ?_)).2
          rw [hx]; exact List.mem_append_right _ h47
        · refine Classical.or_iff_not_imp_right.2 fun hr => ?_
          rw [hrest (Classical.not_not.1 hr)] at hm2
          cases hm2; rfl
      | succ k =>
        obtain ⟨a, b, rfl, ha47, hm1⟩ := matches_stars.1 hm
        obtain ⟨t, ht, hm2⟩ := matches_run hs.noStar hm1
        have hstar : (scanChunk (c :: p)).1 = true := by
          cases hh : (scanChunk (c :: p)).1 with
          | true => rfl
          | false => have := hs.stars.2 hh; cases this
        by_cases hch : (scanChunk (c :: p)).2.1 = []
        · rw [if_pos ⟨hstar, hch⟩]
          have e2 := hrest (empty_chunk hch)
          have e1 := pattern_nil (hch ▸ hs.chunk)
          rw [e1] at ht
          cases ht
          rw [e2] at hm2
          cases hm2
          rw [List.append_nil]
          simpa using ha47
        · rw [if_neg (fun h => hch h.2), matchChunk_run hs.chunk hs.noStar]
          have hc1 : (47 : UInt8) ∈ a ++ b → NoSlashClass is1 := fun h47 => (noSlash_append (noSlash_append (hc h47)).2).1
          have hc2 : (47 : UInt8) ∈ a ++ b → NoSlashClass is2 := fun h47 => (noSlash_append (noSlash_append (hc h47)).2).2
          -- any earlier position will do
          have good : ∀ {a0 b0 t0 : Bytes}, a0 ++ b0 = a ++ b → a0.length ≤ a.length → run is1 b0 = some t0 → ((scanChunk (c :: p)).2.2 = [] → t0 = []) → globLoop n (scanChunk (c :: p)).2.2 t0 = some true := by
            intro a0 b0 t0 e1 e2 e3 e4
            obtain ⟨y, rfl, hy⟩ := run_shift ha e1 e2 ha47 e3 ht hc1
            obtain ⟨x, hx, _⟩ := run_ascii (ascii_append.1 (e1 ▸ ha)).2 e3
            refine ih hs.rest hlen ?_ ?_ ?_
            · rcases scan_rest (dropStars (c :: p)) false with hr | hr
              · have hr : (scanChunk (c :: p)).2.2 = [] := hr
                rw [e4 hr, hrest hr]
                exact .nil
              · obtain ⟨is', rfl⟩ := pattern_star_head hs.rest hr
                exact matches_more hy hm2
            · rw [hx] at e1
              rw [← e1] at ha
              exact (ascii_append.1 (ascii_append.1 ha).2).2
            · intro h47
              refine hc2 ?_
              rw [← e1, hx]
              exact List.mem_append_right _ (List.mem_append_right _ h47)
          have hlast : decide ((scanChunk (c :: p)).2.2 = []) = true → t = [] := by
            intro hr
            rw [hrest (of_decide_eq_true hr)] at hm2
            cases hm2; rfl
          have search : (run is1 (a ++ b) = none ∨ ∃ t0, run is1 (a ++ b) = some t0 ∧ t0 ≠ [] ∧ (scanChunk (c :: p)).2.2 = []) → searchStar n (c :: p) (a ++ b) = some true := by
            intro hfirst
            have hne : a ≠ [] := by
              rintro rfl
              rw [List.nil_append, ht] at hfirst
              rcases hfirst with h | ⟨t0, h1, h2, h3⟩
              · cases h
              · cases h1
                exact h2 (hlast (decide_eq_true h3))
            obtain ⟨a0, b0, t0, e1, e2, e3, e4, e5⟩ := starLoop_finds hs.chunk hs.noStar (decide ((scanChunk (c :: p)).2.2 = [])) ha47 hne ht hlast
            unfold searchStar
            rw [if_pos hstar, e5]
            exact good e1 e2 e3 fun hr => e4 (decide_eq_true hr)
          cases hr : run is1 (a ++ b) with
          | none => exact search (.inl hr)
          | some t0 =>
            dsimp only
            split
            · next hor =>
              refine good (a0 := []) rfl (Nat.zero_le _) hr fun he => ?_
              rcases hor with h | h
              · exact h
              · exact absurd he h
            · next hor =>
              rw [not_or, Classical.not_not] at hor
              exact search (.inr ⟨t0, hr, hor.1, hor.2⟩)

/-- A pattern is rejected exactly when it is malformed. -/
theorem glob_malformed (p s : Bytes) : globMatch p s = none ↔ ¬ ∃ is, Pattern p is := by
  constructor
  · rintro h ⟨is, hp⟩
    obtain ⟨b, hb⟩ := glob_some p.length s hp (Nat.le_refl _)
    unfold globMatch at h
    rw [h] at hb
    cases hb
  · intro h
    cases hg : globMatch p s with
    | none => rfl
    | some b => exact absurd (glob_pattern _ hg) h

end Tuf.Std
