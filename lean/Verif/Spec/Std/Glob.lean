import Verif.Spec.Std.JsonText
import Verif.Spec.Paths

/-! # Specification of glob patterns -/

namespace Tuf.Spec
open Tuf Tuf.Std

/-- The parts of a pattern. A class has ranges of characters; `neg` is for `[^...]`. -/
inductive Item
  | lit (c : UInt8)
  | any
  | star
  | cls (neg : Bool) (ranges : List (Nat × Nat))

/-- A character of a class as it is written. -/
inductive ClassChar : Bytes → Nat → Prop
  | plain {n : Nat} : Scalar n → n ≠ 45 → n ≠ 92 → n ≠ 93 → ClassChar (encodeRune n) n
  | escaped {n : Nat} : Scalar n → ClassChar (92 :: encodeRune n) n

/-- The ranges of a class as they are written. -/
inductive ClassRanges : Bytes → List (Nat × Nat) → Prop
  | nil : ClassRanges [] []
  | one {t s : Bytes} {n : Nat} {rs : List (Nat × Nat)} : ClassChar t n → ClassRanges s rs → ClassRanges (t ++ s) ((n, n) :: rs)
  | range {t u s : Bytes} {lo hi : Nat} {rs : List (Nat × Nat)} : ClassChar t lo → ClassChar u hi → ClassRanges s rs → ClassRanges (t ++ 45 :: (u ++ s)) ((lo, hi) :: rs)

/-- The syntax of patterns, as documented for `filepath.Match`. -/
inductive Pattern : Bytes → List Item → Prop
  | nil : Pattern [] []
  | star {p : Bytes} {is : List Item} : Pattern p is → Pattern (42 :: p) (.star :: is)
  | any {p : Bytes} {is : List Item} : Pattern p is → Pattern (63 :: p) (.any :: is)
  | escaped {c : UInt8} {p : Bytes} {is : List Item} : Pattern p is → Pattern (92 :: c :: p) (.lit c :: is)
  | lit {c : UInt8} {p : Bytes} {is : List Item} : c ≠ 42 → c ≠ 63 → c ≠ 91 → c ≠ 92 → Pattern p is → Pattern (c :: p) (.lit c :: is)
  | cls {b p : Bytes} {rs : List (Nat × Nat)} {is : List Item} : rs ≠ [] → ClassRanges b rs → b.head? ≠ some 94 → Pattern p is → Pattern (91 :: (b ++ 93 :: p)) (.cls false rs :: is)
  | notCls {b p : Bytes} {rs : List (Nat × Nat)} {is : List Item} : rs ≠ [] → ClassRanges b rs → Pattern p is → Pattern (91 :: 94 :: (b ++ 93 :: p)) (.cls true rs :: is)

/-- The character is in the class. -/
def InClass (neg : Bool) (rs : List (Nat × Nat)) (n : Nat) : Prop := (∃ r ∈ rs, r.1 ≤ n ∧ n ≤ r.2) ↔ neg = false

/-- The first character of a name, and the rest; a byte that begins no character is a character by itself (U+FFFD). -/
inductive Starts : Bytes → Nat → Bytes → Prop
  | char {n : Nat} {r : Bytes} : Scalar n → Starts (encodeRune n ++ r) n r
  | bad {c : UInt8} {r : Bytes} : (∀ n, Scalar n → ∀ t, c :: r ≠ encodeRune n ++ t) → Starts (c :: r) 0xFFFD r

/-- A name matches: a star stands for any bytes but the slash, a question mark for a character that is not the slash, a class for one of its characters. -/
inductive Matches : List Item → Bytes → Prop
  | nil : Matches [] []
  | lit {c : UInt8} {is : List Item} {s : Bytes} : Matches is s → Matches (.lit c :: is) (c :: s)
  | any {n : Nat} {is : List Item} {s r : Bytes} : Starts s n r → n ≠ 47 → Matches is r → Matches (.any :: is) s
  | star {a b : Bytes} {is : List Item} : (47 : UInt8) ∉ a → Matches is b → Matches (.star :: is) (a ++ b)
  | cls {n : Nat} {neg : Bool} {rs : List (Nat × Nat)} {is : List Item} {s r : Bytes} : Starts s n r → InClass neg rs n → Matches is r → Matches (.cls neg rs :: is) s

/-- No class of the pattern has the slash. -/
def NoSlashClass (is : List Item) : Prop := ∀ neg rs, Item.cls neg rs ∈ is → ¬ InClass neg rs 47

/-- The name matches the pattern. -/
def GlobMatches (pattern name : Str) : Prop := ∃ is, Pattern pattern is ∧ Matches is name

/-- The path is covered part by part. -/
def ShellCovers (pattern path : Str) : Prop :=
  ∃ ps ts, Parts pattern ps ∧ Parts path ts ∧ ps.length = ts.length ∧ ∀ (i : Nat) (hp : i < ps.length) (ht : i < ts.length), GlobMatches ps[i] ts[i]

end Tuf.Spec
