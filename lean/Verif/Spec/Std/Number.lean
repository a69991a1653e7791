import Verif.Spec.Std.JsonGrammar

/-! # The numbers that literals stand for -/

namespace Tuf.Spec
open Tuf

/-- A point with digits behind it, or nothing. -/
inductive PointText : (text digits : Bytes) → Prop
  | none : PointText [] []
  | some {ds : Bytes} : Digits ds → PointText (46 :: ds) ds

/-- An exponent, or nothing. -/
inductive ExpText : (text : Bytes) → (exponent : Int) → Prop
  | none : ExpText [] 0
  | plain {c : UInt8} {ds : Bytes} : c = 101 ∨ c = 69 → Digits ds → ExpText (c :: ds) (digitsNumber ds)
  | plus {c : UInt8} {ds : Bytes} : c = 101 ∨ c = 69 → Digits ds → ExpText (c :: 43 :: ds) (digitsNumber ds)
  | minus {c : UInt8} {ds : Bytes} : c = 101 ∨ c = 69 → Digits ds → ExpText (c :: 45 :: ds) (-(digitsNumber ds : Int))

/-- A literal with a point or an exponent stands for the number made of all its digits, shifted by the exponent and by the digits behind the point. -/
inductive UnsignedIs : Bytes → Rat → Prop
  | mk {ds f fd e : Bytes} {x : Int} : IntDigits ds → PointText f fd → ExpText e x → (f ≠ [] ∨ e ≠ []) →
      UnsignedIs (ds ++ f ++ e) ((digitsNumber (ds ++ fd) : Rat) * 10 ^ (x - (fd.length : Int)))

/-- The number that a literal stands for. -/
inductive Denotes : NumLit → Rat → Prop
  | int (n : Int) : Denotes (.inl n) n
  | pos {s : Bytes} {v : Rat} : UnsignedIs s v → Denotes (.inr s) v
  | neg {s : Bytes} {v : Rat} : UnsignedIs s v → Denotes (.inr (45 :: s)) (-v)
  | negZero : Denotes (.inr b!"-0") 0

/-- At most 15 digits, and neither too large nor too small. -/
def Short (v : Rat) : Prop := ∃ (c : Nat) (t : Int), c < 10 ^ 15 ∧ -307 ≤ t ∧ t ≤ 292 ∧ (v = c * 10 ^ t ∨ v = -(c * 10 ^ t))

end Tuf.Spec
