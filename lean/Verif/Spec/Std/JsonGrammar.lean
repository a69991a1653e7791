import Verif.Spec.Std.JsonText

/-!
# The grammar of JSON

RFC 8259, as texts and the values they denote, together with what `encoding/json` does where the RFC leaves it open: at most 10000 levels, and U+FFFD for what is not
a character (bytes that are not UTF-8, `\u` escapes that are not a scalar value).
-/

namespace Tuf.Spec
open Tuf

/-- White space. -/
def Space (w : Bytes) : Prop := ∀ c ∈ w, c = 32 ∨ c = 9 ∨ c = 10 ∨ c = 13

/-- The number that a sequence of digits stands for. -/
def digitsNumber : Bytes → Nat
  | [] => 0
  | c :: r => (c.toNat - 48) * 10 ^ r.length + digitsNumber r

mutual
/-- The texts of a value with at most `levels` levels of brackets. -/
inductive ValueText : (levels : Nat) → Bytes → Json → Prop
  | null {d : Nat} : ValueText d b!"null" .null
  | true {d : Nat} : ValueText d b!"true" (.bool true)
  | false {d : Nat} : ValueText d b!"false" (.bool false)
  | nat {d : Nat} {ds : Bytes} : IntDigits ds → ValueText d ds (.num (digitsNumber ds))
  | neg {d : Nat} {ds : Bytes} : IntDigits ds → ds ≠ [48] → ValueText d (45 :: ds) (.num (-(digitsNumber ds : Int)))
  | frac {d : Nat} {l : Bytes} : FracLit l → ValueText d l (.frac l)
  | str {d : Nat} {t s : Bytes} : StringBody t s → (t = s ∨ ¬ Verbatim s) → ValueText d (34 :: t ++ [34]) (.str s)
  | esc {d : Nat} {t s : Bytes} : StringBody t s → t ≠ s → Verbatim s → ValueText d (34 :: t ++ [34]) (.esc t s)
  | noElements {d : Nat} {w : Bytes} : Space w → ValueText (d + 1) (91 :: w ++ [93]) (.arr [])
  | arr {d : Nat} {t : Bytes} {l : List Json} : ElementsText d t l → ValueText (d + 1) (91 :: t ++ [93]) (.arr l)
  | noMembers {d : Nat} {w : Bytes} : Space w → ValueText (d + 1) (123 :: w ++ [125]) (.obj [])
  | obj {d : Nat} {t : Bytes} {m : List (Str × Json)} : MembersText d t m → ValueText (d + 1) (123 :: t ++ [125]) (.obj m)
/-- Values separated by commas. -/
inductive ElementsText : (levels : Nat) → Bytes → List Json → Prop
  | one {d : Nat} {a t b : Bytes} {j : Json} : Space a → ValueText d t j → Space b → ElementsText d (a ++ t ++ b) [j]
  | more {d : Nat} {a t b r : Bytes} {j : Json} {l : List Json} : Space a → ValueText d t j → Space b → ElementsText d r l → ElementsText d (a ++ t ++ b ++ 44 :: r) (j :: l)
/-- Members separated by commas. -/
inductive MembersText : (levels : Nat) → Bytes → List (Str × Json) → Prop
  | one {d : Nat} {a t b c u e : Bytes} {k : Str} {j : Json} : Space a → StringBody t k → Space b → Space c → ValueText d u j → Space e →
      MembersText d (a ++ 34 :: t ++ 34 :: b ++ 58 :: c ++ u ++ e) [(k, j)]
  | more {d : Nat} {a t b c u e r : Bytes} {k : Str} {j : Json} {m : List (Str × Json)} : Space a → StringBody t k → Space b → Space c → ValueText d u j → Space e →
      MembersText d r m → MembersText d (a ++ 34 :: t ++ 34 :: b ++ 58 :: c ++ u ++ e ++ 44 :: r) ((k, j) :: m)
end

/-- A JSON text and its value. -/
def JsonText (s : Bytes) (j : Json) : Prop := ∃ a t b, Space a ∧ ValueText 10000 t j ∧ Space b ∧ s = a ++ t ++ b

end Tuf.Spec
