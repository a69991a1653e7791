import Verif.Proofs.Any
import Verif.Proofs.Digits

/-! Canonical JSON determines the document. -/

namespace Tuf

/-! ## Strings -/

/-- Escaped characters. -/
def escStr (s : Str) : Str := s.flatMap (fun c => if c = 34 ∨ c = 92 then [92, c] else [c])

theorem escStr_prefix (s1 s2 r1 r2 : Str) (h : escStr s1 ++ 34 :: r1 = escStr s2 ++ 34 :: r2) : s1 = s2 ∧ r1 = r2 := by
  have hcons : ∀ c s, escStr (c :: s) = (if c = 34 ∨ c = 92 then [92, c] else [c]) ++ escStr s := fun c s => by simp [escStr]
  induction s1 generalizing s2 with
  | nil =>
    cases s2 with
    | nil => simpa [escStr] using h
    | cons c s2 =>
      rw [hcons] at h
      split at h
      · simp [escStr] at h
      · next hc => simp [escStr] at h; exact absurd (.inl h.1.symm) hc
  | cons c s1 ih =>
    cases s2 with
    | nil =>
      rw [hcons] at h
      split at h
      · simp [escStr] at h
      · next hc => simp [escStr] at h; exact absurd (.inl h.1) hc
    | cons c' s2 =>
      rw [hcons, hcons] at h
      split at h
      · split at h
        · simp only [List.cons_append, List.nil_append, List.cons.injEq, true_and] at h
          obtain ⟨h1, h2⟩ := ih s2 h.2
          exact ⟨by rw [h.1, h1], h2⟩
        · next hc =>
          simp only [List.cons_append, List.nil_append, List.cons.injEq] at h
          exact absurd (.inr h.1.symm) hc
      · next hc =>
        split at h
        · simp only [List.cons_append, List.nil_append, List.cons.injEq] at h
          exact absurd (.inr h.1) hc
        · simp only [List.cons_append, List.nil_append, List.cons.injEq] at h
          obtain ⟨h1, h2⟩ := ih s2 h.2
          exact ⟨by rw [h.1, h1], h2⟩

theorem canonStr_prefix {s1 s2 : Str} {r1 r2 : Bytes} (h : canonStr s1 ++ r1 = canonStr s2 ++ r2) : s1 = s2 ∧ r1 = r2 := by
  unfold canonStr at h
  simp only [List.cons_append, List.append_assoc, List.cons.injEq, true_and, List.nil_append] at h
  exact escStr_prefix s1 s2 r1 r2 h

/-! ## Numbers -/

def IsDigit (c : UInt8) : Prop := 48 ≤ c.toNat ∧ c.toNat ≤ 57

theorem digitChar_isDigit {d : Nat} (h : d < 10) : IsDigit (digitChar d) := by
  have : ∀ d : Fin 10, 48 ≤ (digitChar d.val).toNat ∧ (digitChar d.val).toNat ≤ 57 := by decide
  exact this ⟨d, h⟩

theorem digitChar_inj10 {d e : Nat} (hd : d < 10) (he : e < 10) (h : digitChar d = digitChar e) : d = e := by
  have : ∀ d e : Fin 10, digitChar d.val = digitChar e.val → d = e := by decide
  exact congrArg Fin.val (this ⟨d, hd⟩ ⟨e, he⟩ h)

theorem formatNat_digits (n : Nat) : ∀ c ∈ formatNat 10 n, IsDigit c := by
  intro c hc
  obtain ⟨d, hd, rfl⟩ := List.mem_map.1 hc
  exact digitChar_isDigit (digits_lt (by omega) n d hd)

theorem map_digitChar_inj {l l' : List Nat} (hl : ∀ d ∈ l, d < 10) (hl' : ∀ d ∈ l', d < 10) (h : l.map digitChar = l'.map digitChar) : l = l' := by
  induction l generalizing l' with
  | nil => cases l' with
    | nil => rfl
    | cons => simp at h
  | cons d l ih => cases l' with
    | nil => simp at h
    | cons d' l' =>
      rw [List.forall_mem_cons] at hl hl'
      simp only [List.map_cons, List.cons.injEq] at h
      rw [digitChar_inj10 hl.1 hl'.1 h.1, ih hl.2 hl'.2 h.2]

theorem formatNat_inj {a b : Nat} (h : formatNat 10 a = formatNat 10 b) : a = b := by
  have := map_digitChar_inj (digits_lt (by omega) a) (digits_lt (by omega) b) h
  rw [← digits_value (b := 10) (by omega) a, ← digits_value (b := 10) (by omega) b, this]

theorem canon_digits_ne_nil (n : Nat) : formatNat 10 n ≠ [] := by
  have := digits_ne_nil (by omega : 2 ≤ 10) n
  simp [formatNat, this]

/-- What may follow a value: nothing, a comma or a closing bracket. -/
def Delim (r : Bytes) : Prop := ∀ c r', r = c :: r' → c = 44 ∨ c = 93 ∨ c = 125

theorem digits_prefix {d1 d2 r1 r2 : Bytes} (h1 : ∀ c ∈ d1, IsDigit c) (h2 : ∀ c ∈ d2, IsDigit c) (hr1 : Delim r1) (hr2 : Delim r2) (h : d1 ++ r1 = d2 ++ r2) :
    d1 = d2 ∧ r1 = r2 := by
  have hnd : ∀ {r : Bytes} {c : UInt8} {r' : Bytes}, Delim r → IsDigit c → r ≠ c :: r' := by
    intro r c r' hr hc he
    unfold IsDigit at hc
    rcases hr c r' he with rfl | rfl | rfl <;> simp at hc
  induction d1 generalizing d2 with
  | nil =>
    cases d2 with
    | nil => exact ⟨rfl, h⟩
    | cons c d2 => exact absurd h (hnd hr1 (h2 c (.head _)))
  | cons c d1 ih =>
    cases d2 with
    | nil => exact absurd h.symm (hnd hr2 (h1 c (.head _)))
    | cons c' d2 =>
      simp only [List.cons_append, List.cons.injEq] at h
      obtain ⟨h3, h4⟩ := ih (fun c hc => h1 c (.tail _ hc)) (fun c hc => h2 c (.tail _ hc)) h.2
      exact ⟨by rw [h.1, h3], h4⟩

theorem formatInt_prefix {a b : Int} {r1 r2 : Bytes} (hr1 : Delim r1) (hr2 : Delim r2) (h : formatInt 10 a ++ r1 = formatInt 10 b ++ r2) : a = b ∧ r1 = r2 := by
  have hne : ∀ n : Nat, ∀ r r', formatNat 10 n ++ r ≠ 45 :: r' := by
    intro n r r' he
    cases hf : formatNat 10 n with
    | nil => exact canon_digits_ne_nil n hf
    | cons c t =>
      have := formatNat_digits n c (by rw [hf]; exact .head _)
      rw [hf] at he
      simp only [List.cons_append, List.cons.injEq] at he
      rw [he.1] at this
      revert this
      unfold IsDigit
      decide
  unfold formatInt at h
  split at h
  · split at h
    · simp only [List.cons_append, List.cons.injEq, true_and] at h
      obtain ⟨h1, h2⟩ := digits_prefix (formatNat_digits _) (formatNat_digits _) hr1 hr2 h
      have := formatNat_inj h1
      exact ⟨by omega, h2⟩
    · exact absurd h.symm (hne _ _ _)
  · split at h
    · exact absurd h (hne _ _ _)
    · obtain ⟨h1, h2⟩ := digits_prefix (formatNat_digits _) (formatNat_digits _) hr1 hr2 h
      have := formatNat_inj h1
      exact ⟨by omega, h2⟩

theorem formatInt_negZero {a : Int} {r1 r2 : Bytes} (hr1 : Delim r1) (hr2 : Delim r2) : formatInt 10 a ++ r1 ≠ [45, 48] ++ r2 := by
  intro h
  unfold formatInt at h
  split at h
  · simp only [List.cons_append, List.cons.injEq, true_and] at h
    obtain ⟨h1, _⟩ := digits_prefix (formatNat_digits _) (formatNat_digits 0) hr1 hr2 h
    have := formatNat_inj h1
    omega
  · cases hf : formatNat 10 a.natAbs with
    | nil => exact canon_digits_ne_nil _ hf
    | cons c t =>
      have := formatNat_digits a.natAbs c (by rw [hf]; exact .head _)
      rw [hf] at h
      simp only [List.cons_append, List.cons.injEq] at h
      rw [h.1] at this
      revert this
      unfold IsDigit
      decide

/-! ## Normal documents -/

/-- Object members sorted by key, at all levels. -/
def Norm (j : Json) : Prop := Json.toAny some j = some j

theorem toAny_fixed_obj {f : NumLit → Option NumLit} {m : List (Str × Json)} :
    Json.toAny f (.obj m) = some (.obj m) ↔ Entries.Sorted m ∧ ∀ e ∈ m, Json.toAny f e.2 = some e.2 := by
  constructor
  · intro h
    have hs := toAny_obj_isSome.1 (by rw [h]; rfl : (Json.toAny f (.obj m)).isSome)
    obtain ⟨es, he⟩ := Option.isSome_iff_exists.1 (toAnyFields_isSome.2 hs)
    have h' := h
    rw [toAny_obj, he] at h'
    simp only [Option.map_some, Option.some.injEq, Json.obj.injEq] at h'
    have hsorted : Entries.Sorted m := by rw [← h']; exact Entries.sorted_nil.foldl_set es
    refine ⟨hsorted, ?_⟩
    rw [toAny_sorted he hsorted] at h
    simp only [Option.some.injEq, Json.obj.injEq] at h
    subst h
    intro e hm
    have := toAnyFields_get? he e.1
    rw [Entries.get?_of_mem hsorted.nodup hm] at this
    exact this.symm
  · rintro ⟨h1, h2⟩
    exact toAny_sorted (toAnyFields_fixed h2) h1

theorem toAnyList_fixed {f : NumLit → Option NumLit} {l : List Json} : Json.toAnyList f l = some l ↔ ∀ j ∈ l, Json.toAny f j = some j := by
  induction l with
  | nil => simp [Json.toAnyList]
  | cons j l ih =>
    rw [toAnyList_cons, List.forall_mem_cons, ← ih]
    constructor
    · rintro ⟨a, b, h1, h2, h3⟩
      cases h3
      exact ⟨h1, h2⟩
    · rintro ⟨h1, h2⟩
      exact ⟨j, l, h1, h2, rfl⟩

theorem toAny_fixed_arr {f : NumLit → Option NumLit} {l : List Json} : Json.toAny f (.arr l) = some (.arr l) ↔ ∀ j ∈ l, Json.toAny f j = some j := by
  rw [toAny_arr, ← toAnyList_fixed]
  cases Json.toAnyList f l <;> simp

theorem norm_idem {j j' : Json} (h : Json.toAny some j = some j') : Norm j' := toAny_idem (f := some) (fun _ _ _ => rfl) j j' h

theorem sortByKey_sorted {α : Type} {l : List (Str × α)} (h : Entries.Sorted l) : sortByKey l = l := by
  induction l with
  | nil => rfl
  | cons e l ih =>
    have hs : Entries.Sorted l := List.Pairwise.tail h
    show insertByKey e (sortByKey l) = _
    rw [ih hs]
    cases l with
    | nil => rfl
    | cons e' l =>
      have := (List.pairwise_cons.1 h).1 e' (.head _)
      unfold insertByKey
      rw [if_pos this.1]

/-! ## The theorem -/

/-- The kind of value that starts with this character. -/
def headKind (c : UInt8) : Nat :=
  if c = 110 then 0 else if c = 116 ∨ c = 102 then 1 else if c = 34 then 3 else if c = 91 then 4 else if c = 123 then 5 else if c = 93 ∨ c = 125 ∨ c = 44 then 6 else 2

def kindOf : Json → Nat
  | .null => 0
  | .bool _ => 1
  | .num _ => 2
  | .frac _ => 2
  | .str _ => 3
  | .esc _ _ => 3
  | .arr _ => 4
  | .obj _ => 5

theorem headKind_digit {c : UInt8} (h : IsDigit c ∨ c = 45) : headKind c = 2 := by
  unfold headKind
  have hne : ∀ d : UInt8, (d.toNat < 48 ∨ 57 < d.toNat) → d ≠ 45 → c ≠ d := by
    rintro d hd hd' rfl
    rcases h with h | h
    · unfold IsDigit at h; omega
    · exact hd' h
  rw [if_neg (hne 110 (by decide) (by decide)), if_neg (by
      rintro (h | h)
      · exact hne 116 (by decide) (by decide) h
      · exact hne 102 (by decide) (by decide) h), if_neg (hne 34 (by decide) (by decide)), if_neg (hne 91 (by decide) (by decide)),
    if_neg (hne 123 (by decide) (by decide)), if_neg (by
      rintro (h | h | h)
      · exact hne 93 (by decide) (by decide) h
      · exact hne 125 (by decide) (by decide) h
      · exact hne 44 (by decide) (by decide) h)]

theorem canon_head {j : Json} {b : Bytes} (h : j.canon = some b) : ∃ c t, b = c :: t ∧ headKind c = kindOf j := by
  cases j with
  | null => simp only [Json.canon] at h; cases h; exact ⟨_, _, rfl, by decide⟩
  | bool v => cases v <;> (simp only [Json.canon] at h; cases h; exact ⟨_, _, rfl, by decide⟩)
  | num n =>
    simp only [Json.canon] at h
    split at h
    · cases h
      unfold formatInt
      split
      · exact ⟨_, _, rfl, headKind_digit (.inr rfl)⟩
      · cases hf : formatNat 10 n.natAbs with
        | nil => exact absurd hf (canon_digits_ne_nil _)
        | cons c t => exact ⟨c, t, rfl, headKind_digit (.inl (formatNat_digits n.natAbs c (by rw [hf]; exact .head _)))⟩
    · cases h
  | frac l =>
    simp only [Json.canon] at h
    split at h
    · next hl => cases h; subst hl; exact ⟨_, _, rfl, by decide⟩
    · cases h
  | str s => simp only [Json.canon] at h; cases h; exact ⟨34, _, rfl, rfl⟩
  | esc r s => simp only [Json.canon] at h; cases h; exact ⟨34, _, rfl, rfl⟩
  | arr l =>
    simp only [Json.canon] at h
    obtain ⟨es, _, rfl⟩ := Option.map_eq_some_iff.1 h
    exact ⟨91, _, rfl, rfl⟩
  | obj m =>
    simp only [Json.canon] at h
    obtain ⟨es, _, rfl⟩ := Option.map_eq_some_iff.1 h
    exact ⟨123, _, rfl, rfl⟩

/-- The members after the first. -/
def commaTail (l : List Bytes) : Bytes := match l with
  | [] => []
  | y :: r => 44 :: commaJoin (y :: r)

theorem commaJoin_cons (x : Bytes) (l : List Bytes) : commaJoin (x :: l) = x ++ commaTail l := by
  cases l <;> simp [commaJoin, commaTail]

theorem delim_tail (l : List Bytes) {c : UInt8} (hc : c = 93 ∨ c = 125) (r : Bytes) : Delim (commaTail l ++ c :: r) := by
  intro d r' h
  cases l with
  | nil =>
    simp only [commaTail, List.nil_append, List.cons.injEq] at h
    rcases hc with rfl | rfl <;> rw [← h.1] <;> decide
  | cons x l =>
    simp only [commaTail, List.cons_append, List.cons.injEq] at h
    exact .inl h.1.symm

theorem canonList_cons {j : Json} {l : List Json} {es : List Bytes} (h : Json.canonList (j :: l) = some es) :
    ∃ b bs, j.canon = some b ∧ Json.canonList l = some bs ∧ es = b :: bs := by
  simp only [Json.canonList] at h
  split at h
  · next a b h1 h2 => cases h; exact ⟨a, b, h1, h2, rfl⟩
  · cases h

theorem canonFields_cons {k : Str} {j : Json} {l : List (Str × Json)} {es : List (Str × Bytes)} (h : Json.canonFields ((k, j) :: l) = some es) :
    ∃ b bs, j.canon = some b ∧ Json.canonFields l = some bs ∧ es = (k, b) :: bs := by
  simp only [Json.canonFields] at h
  split at h
  · next a b h1 h2 => cases h; exact ⟨a, b, h1, h2, rfl⟩
  · cases h

theorem canonFields_keys {m : List (Str × Json)} {es : List (Str × Bytes)} (h : Json.canonFields m = some es) : es.map Prod.fst = m.map Prod.fst := by
  induction m generalizing es with
  | nil => simp only [Json.canonFields] at h; cases h; rfl
  | cons e m ih =>
    obtain ⟨k, j⟩ := e
    obtain ⟨b, bs, _, h2, rfl⟩ := canonFields_cons h
    simp [ih h2]

mutual
theorem canon_prefix : ∀ (j1 j2 : Json) (b1 b2 r1 r2 : Bytes), Norm j1 → Norm j2 → j1.canon = some b1 → j2.canon = some b2 → Delim r1 → Delim r2 →
    b1 ++ r1 = b2 ++ r2 → j1 = j2 ∧ r1 = r2
  | j1, j2, b1, b2, r1, r2, n1, n2, h1, h2, d1, d2, h => by
    have hk : kindOf j1 = kindOf j2 := by
      obtain ⟨c1, t1, e1, k1⟩ := canon_head h1
      obtain ⟨c2, t2, e2, k2⟩ := canon_head h2
      rw [e1, e2] at h
      simp only [List.cons_append, List.cons.injEq] at h
      rw [← k1, ← k2, h.1]
    match j1, j2, hk, n1, n2, h1, h2 with
    | .null, .null, _, _, _, h1, h2 =>
      rw [h1] at h2; cases h2
      exact ⟨rfl, List.append_cancel_left h⟩
    | .bool a, .bool b, _, _, _, h1, h2 =>
      cases a <;> cases b <;> (simp only [Json.canon] at h1 h2; cases h1; cases h2; simp at h) <;> exact ⟨rfl, h⟩
    | .num a, .num b, _, _, _, h1, h2 =>
      simp only [Json.canon] at h1 h2
      split at h1 <;> split at h2 <;> first | cases h1 | skip
      · cases h2
        obtain ⟨h3, h4⟩ := formatInt_prefix d1 d2 h
        exact ⟨by rw [h3], h4⟩
      · cases h2
    | .num _, .frac _, _, _, _, h1, h2 =>
      simp only [Json.canon] at h1 h2
      split at h1 <;> split at h2 <;> first | cases h1 | skip
      · next hl => cases h2; subst hl; exact absurd h (formatInt_negZero d1 d2)
      · cases h2
    | .frac _, .num _, _, _, _, h1, h2 =>
      simp only [Json.canon] at h1 h2
      split at h1 <;> split at h2 <;> first | cases h1 | skip
      · cases h2
        rw [show b1 = [45, 48] by assumption] at h
        exact absurd h.symm (formatInt_negZero d2 d1)
      · cases h2
    | .frac _, .frac _, _, _, _, h1, h2 =>
      simp only [Json.canon] at h1 h2
      split at h1 <;> split at h2 <;> first | cases h1 | skip
      · cases h2
        have e1 : b1 = [45, 48] := by assumption
        have e2 : b2 = [45, 48] := by assumption
        subst e1; subst e2
        exact ⟨rfl, List.append_cancel_left h⟩
      · cases h2
    | .esc _ _, _, _, n1, _, _, _ => simp [Norm, Json.toAny] at n1
    | .str _, .esc _ _, _, _, n2, _, _ => simp [Norm, Json.toAny] at n2
    | .str a, .str b, _, _, _, h1, h2 =>
      simp only [Json.canon] at h1 h2
      cases h1; cases h2
      obtain ⟨h3, h4⟩ := canonStr_prefix h
      exact ⟨by rw [h3], h4⟩
    | .arr l1, .arr l2, _, n1, n2, h1, h2 =>
      simp only [Json.canon] at h1 h2
      obtain ⟨es1, h3, rfl⟩ := Option.map_eq_some_iff.1 h1
      obtain ⟨es2, h4, rfl⟩ := Option.map_eq_some_iff.1 h2
      simp only [List.cons_append, List.append_assoc, List.cons.injEq, true_and, List.nil_append] at h
      obtain ⟨h5, h6⟩ := canonList_prefix l1 l2 es1 es2 r1 r2 (toAny_fixed_arr.1 n1) (toAny_fixed_arr.1 n2) h3 h4 h
      exact ⟨by rw [h5], h6⟩
    | .obj m1, .obj m2, _, n1, n2, h1, h2 =>
      simp only [Json.canon] at h1 h2
      obtain ⟨es1, h3, rfl⟩ := Option.map_eq_some_iff.1 h1
      obtain ⟨es2, h4, rfl⟩ := Option.map_eq_some_iff.1 h2
      obtain ⟨s1, n1⟩ := toAny_fixed_obj.1 n1
      obtain ⟨s2, n2⟩ := toAny_fixed_obj.1 n2
      have hs : ∀ {m : List (Str × Json)} {es : List (Str × Bytes)}, Json.canonFields m = some es → Entries.Sorted m → Entries.Sorted es := by
        intro m es hc hs
        unfold Entries.Sorted at *
        rw [← List.pairwise_map (f := Prod.fst) (R := StrLt)] at hs ⊢
        rw [canonFields_keys hc]; exact hs
      rw [sortByKey_sorted (hs h3 s1), sortByKey_sorted (hs h4 s2)] at h
      simp only [List.cons_append, List.append_assoc, List.cons.injEq, true_and, List.nil_append] at h
      obtain ⟨h5, h6⟩ := canonFields_prefix m1 m2 es1 es2 r1 r2 n1 n2 h3 h4 h
      exact ⟨by rw [h5], h6⟩
theorem canonList_prefix : ∀ (l1 l2 : List Json) (es1 es2 : List Bytes) (r1 r2 : Bytes), (∀ j ∈ l1, Norm j) → (∀ j ∈ l2, Norm j) →
    Json.canonList l1 = some es1 → Json.canonList l2 = some es2 → commaJoin es1 ++ 93 :: r1 = commaJoin es2 ++ 93 :: r2 → l1 = l2 ∧ r1 = r2
  | [], [], es1, es2, r1, r2, _, _, h1, h2, h => by
    simp only [Json.canonList] at h1 h2
    cases h1; cases h2
    simp only [commaJoin, List.nil_append, List.cons.injEq, true_and] at h
    exact ⟨rfl, h⟩
  | [], j :: l, es1, es2, r1, r2, _, _, h1, h2, h => by
    simp only [Json.canonList] at h1
    cases h1
    obtain ⟨b, bs, h3, _, rfl⟩ := canonList_cons h2
    obtain ⟨c, t, rfl, hc⟩ := canon_head h3
    rw [commaJoin_cons] at h
    simp only [commaJoin, List.nil_append, List.cons_append, List.cons.injEq] at h
    rw [← h.1] at hc
    cases j <;> simp [headKind, kindOf] at hc
  | j :: l, [], es1, es2, r1, r2, _, _, h1, h2, h => by
    simp only [Json.canonList] at h2
    cases h2
    obtain ⟨b, bs, h3, _, rfl⟩ := canonList_cons h1
    obtain ⟨c, t, rfl, hc⟩ := canon_head h3
    rw [commaJoin_cons] at h
    simp only [commaJoin, List.nil_append, List.cons_append, List.cons.injEq] at h
    rw [h.1] at hc
    cases j <;> simp [headKind, kindOf] at hc
  | j1 :: l1, j2 :: l2, es1, es2, r1, r2, n1, n2, h1, h2, h => by
    obtain ⟨b1, bs1, h3, h4, rfl⟩ := canonList_cons h1
    obtain ⟨b2, bs2, h5, h6, rfl⟩ := canonList_cons h2
    rw [List.forall_mem_cons] at n1 n2
    rw [commaJoin_cons, commaJoin_cons, List.append_assoc, List.append_assoc] at h
    obtain ⟨e1, h7⟩ := canon_prefix j1 j2 b1 b2 _ _ n1.1 n2.1 h3 h5 (delim_tail _ (.inl rfl) _) (delim_tail _ (.inl rfl) _) h
    cases l1 with
    | nil =>
      simp only [Json.canonList] at h4
      cases h4
      cases l2 with
      | nil =>
        simp only [Json.canonList] at h6
        cases h6
        simp only [commaTail, List.nil_append, List.cons.injEq, true_and] at h7
        exact ⟨by rw [e1], h7⟩
      | cons k l2 =>
        obtain ⟨b, bs, _, _, rfl⟩ := canonList_cons h6
        simp [commaTail] at h7
    | cons k1 l1 =>
      obtain ⟨c1, cs1, _, _, rfl⟩ := canonList_cons h4
      cases l2 with
      | nil =>
        simp only [Json.canonList] at h6
        cases h6
        simp [commaTail] at h7
      | cons k l2 =>
        obtain ⟨b, bs, _, _, rfl⟩ := canonList_cons h6
        simp only [commaTail, List.cons_append, List.cons.injEq, true_and] at h7
        obtain ⟨e2, h8⟩ := canonList_prefix (k1 :: l1) (k :: l2) _ _ r1 r2 n1.2 n2.2 h4 h6 h7
        exact ⟨by rw [e1, e2], h8⟩
theorem canonFields_prefix : ∀ (l1 l2 : List (Str × Json)) (es1 es2 : List (Str × Bytes)) (r1 r2 : Bytes), (∀ e ∈ l1, Norm e.2) → (∀ e ∈ l2, Norm e.2) →
    Json.canonFields l1 = some es1 → Json.canonFields l2 = some es2 →
    commaJoin (es1.map (fun e => canonStr e.1 ++ 58 :: e.2)) ++ 125 :: r1 = commaJoin (es2.map (fun e => canonStr e.1 ++ 58 :: e.2)) ++ 125 :: r2 → l1 = l2 ∧ r1 = r2
  | [], [], es1, es2, r1, r2, _, _, h1, h2, h => by
    simp only [Json.canonFields] at h1 h2
    cases h1; cases h2
    simp only [List.map_nil, commaJoin, List.nil_append, List.cons.injEq, true_and] at h
    exact ⟨rfl, h⟩
  | [], (k, j) :: l, es1, es2, r1, r2, _, _, h1, h2, h => by
    simp only [Json.canonFields] at h1
    cases h1
    obtain ⟨b, bs, h3, _, rfl⟩ := canonFields_cons h2
    rw [List.map_cons, commaJoin_cons] at h
    simp [commaJoin, canonStr] at h
  | (k, j) :: l, [], es1, es2, r1, r2, _, _, h1, h2, h => by
    simp only [Json.canonFields] at h2
    cases h2
    obtain ⟨b, bs, h3, _, rfl⟩ := canonFields_cons h1
    rw [List.map_cons, commaJoin_cons] at h
    simp [commaJoin, canonStr] at h
  | (k1, j1) :: l1, (k2, j2) :: l2, es1, es2, r1, r2, n1, n2, h1, h2, h => by
    obtain ⟨b1, bs1, h3, h4, rfl⟩ := canonFields_cons h1
    obtain ⟨b2, bs2, h5, h6, rfl⟩ := canonFields_cons h2
    rw [List.forall_mem_cons] at n1 n2
    rw [List.map_cons, List.map_cons, commaJoin_cons, commaJoin_cons] at h
    simp only [List.append_assoc, List.cons_append] at h
    obtain ⟨e0, h⟩ := canonStr_prefix h
    simp only [List.cons.injEq, true_and] at h
    obtain ⟨e1, h7⟩ := canon_prefix j1 j2 b1 b2 _ _ n1.1 n2.1 h3 h5 (delim_tail _ (.inr rfl) _) (delim_tail _ (.inr rfl) _) h
    cases l1 with
    | nil =>
      simp only [Json.canonFields] at h4
      cases h4
      cases l2 with
      | nil =>
        simp only [Json.canonFields] at h6
        cases h6
        simp only [List.map_nil, commaTail, List.nil_append, List.cons.injEq, true_and] at h7
        exact ⟨by rw [e0, e1], h7⟩
      | cons k l2 =>
        obtain ⟨k, jk⟩ := k
        obtain ⟨b, bs, _, _, rfl⟩ := canonFields_cons h6
        simp [commaTail] at h7
    | cons k1' l1 =>
      obtain ⟨k1', jk1⟩ := k1'
      obtain ⟨c1, cs1, _, _, rfl⟩ := canonFields_cons h4
      cases l2 with
      | nil =>
        simp only [Json.canonFields] at h6
        cases h6
        simp [commaTail] at h7
      | cons k l2 =>
        obtain ⟨k, jk⟩ := k
        obtain ⟨b, bs, _, _, rfl⟩ := canonFields_cons h6
        simp only [List.map_cons, commaTail, List.cons_append, List.cons.injEq, true_and] at h7
        obtain ⟨e2, h8⟩ := canonFields_prefix ((k1', jk1) :: l1) ((k, jk) :: l2) _ _ r1 r2 n1.2 n2.2 h4 h6 (by simpa only [List.map_cons] using h7)
        exact ⟨by rw [e0, e1, e2], h8⟩
end

/-- Equal canonical forms are equal documents up to the order of members. -/
theorem canonical_inj {j1 j2 : Json} {b : Bytes} (h1 : canonical j1 = .ok b) (h2 : canonical j2 = .ok b) : Json.toAny some j1 = Json.toAny some j2 := by
  have key : ∀ j, canonical j = .ok b → ∃ j', Json.toAny some j = some j' ∧ j'.canon = some b := by
    intro j h
    unfold canonical at h
    split at h
    · next b' hb =>
      cases h
      exact Option.bind_eq_some_iff.1 hb
    · cases h
  obtain ⟨a1, e1, c1⟩ := key j1 h1
  obtain ⟨a2, e2, c2⟩ := key j2 h2
  have := canon_prefix a1 a2 b b [] [] (norm_idem e1) (norm_idem e2) c1 c2 (by intro c r h; cases h) (by intro c r h; cases h) rfl
  rw [e1, e2, this.1]

end Tuf
