import Verif.Model.Std.JsonText

/-! # Specification of JSON texts -/

namespace Tuf.Spec
open Tuf Tuf.Std

/-- A Unicode scalar value. -/
def Scalar (n : Nat) : Prop := n < 0xD800 ∨ (0xDFFF < n ∧ n ≤ 0x10FFFF)

/-- Well-formed UTF-8: a sequence of encoded scalar values. -/
def Utf8 (s : Bytes) : Prop := ∃ runes : List Nat, (∀ n ∈ runes, Scalar n) ∧ s = runes.flatMap encodeRune

/-- A non-empty sequence of decimal digits. -/
def Digits (ds : Bytes) : Prop := ds ≠ [] ∧ ∀ c ∈ ds, isDigit c = true

/-- Digits without superfluous leading zero. -/
def IntDigits (ds : Bytes) : Prop := Digits ds ∧ (ds.head? = some 48 → ds = [48])

def Fraction (f : Bytes) : Prop := f = [] ∨ ∃ ds, Digits ds ∧ f = 46 :: ds

def Exponent (e : Bytes) : Prop := e = [] ∨ ∃ c sign ds, (c = 101 ∨ c = 69) ∧ (sign = [] ∨ sign = [43] ∨ sign = [45]) ∧ Digits ds ∧ e = c :: sign ++ ds

/-- A number literal with a fraction or an exponent, or `-0`. -/
def FracLit (l : Bytes) : Prop :=
  ∃ sign ds f e, (sign = [] ∨ sign = [45]) ∧ IntDigits ds ∧ Fraction f ∧ Exponent e ∧ (f ≠ [] ∨ e ≠ [] ∨ (sign = [45] ∧ ds = [48])) ∧ l = sign ++ ds ++ f ++ e

/-- A character in UTF-8 (RFC 3629, section 3): its scalar value and its bytes. -/
inductive Utf8Char : Nat → Bytes → Prop
  | one {n : Nat} {a : UInt8} : n < 0x80 → a.toNat = n → Utf8Char n [a]
  | two {n : Nat} {a b : UInt8} : 0x80 ≤ n → n < 0x800 → a.toNat = 0xC0 + n / 64 → b.toNat = 0x80 + n % 64 → Utf8Char n [a, b]
  | three {n : Nat} {a b c : UInt8} : 0x800 ≤ n → n < 0x10000 → (n < 0xD800 ∨ 0xDFFF < n) →
      a.toNat = 0xE0 + n / 4096 → b.toNat = 0x80 + n / 64 % 64 → c.toNat = 0x80 + n % 64 → Utf8Char n [a, b, c]
  | four {n : Nat} {a b c d : UInt8} : 0x10000 ≤ n → n ≤ 0x10FFFF →
      a.toNat = 0xF0 + n / 262144 → b.toNat = 0x80 + n / 4096 % 64 → c.toNat = 0x80 + n / 64 % 64 → d.toNat = 0x80 + n % 64 → Utf8Char n [a, b, c, d]

/-- U+FFFD. -/
def replacement : Bytes := [0xEF, 0xBF, 0xBD]

/-- The backslash escapes of one letter: the letter and the character. -/
def letterEscapes : List (UInt8 × UInt8) := [(34, 34), (92, 92), (47, 47), (98, 8), (102, 12), (110, 10), (114, 13), (116, 9)]

/-- A hexadecimal digit of either case. -/
def HexValue (c : UInt8) (v : Nat) : Prop :=
  (v < 10 ∧ c.toNat = 48 + v) ∨ (10 ≤ v ∧ v < 16 ∧ (c.toNat = 87 + v ∨ c.toNat = 55 + v))

/-- `\uXXXX` and the number in it. -/
inductive UEscape : Bytes → Nat → Prop
  | mk {a b c d : UInt8} {w x y z : Nat} : HexValue a w → HexValue b x → HexValue c y → HexValue d z →
      UEscape [92, 117, a, b, c, d] (w * 4096 + x * 256 + y * 16 + z)

def HighSurrogate (n : Nat) : Prop := 0xD800 ≤ n ∧ n ≤ 0xDBFF
def LowSurrogate (n : Nat) : Prop := 0xDC00 ≤ n ∧ n ≤ 0xDFFF

/-- What stands between the quotes of a string, and the string. -/
inductive StringBody : Bytes → Bytes → Prop
  | nil : StringBody [] []
  /-- a character other than `"`, `\` and control characters -/
  | char {n : Nat} {c t v : Bytes} : Utf8Char n c → 32 ≤ n → n ≠ 34 → n ≠ 92 → StringBody t v → StringBody (c ++ t) (c ++ v)
  | letter {e : UInt8 × UInt8} {t v : Bytes} : e ∈ letterEscapes → StringBody t v → StringBody (92 :: e.1 :: t) (e.2 :: v)
  | unicode {n : Nat} {u c t v : Bytes} : UEscape u n → Utf8Char n c → StringBody t v → StringBody (u ++ t) (c ++ v)
  | pair {h l : Nat} {u u' c t v : Bytes} : UEscape u h → UEscape u' l → HighSurrogate h → LowSurrogate l →
      Utf8Char (0x10000 + (h - 0xD800) * 1024 + (l - 0xDC00)) c → StringBody t v → StringBody (u ++ u' ++ t) (c ++ v)
  /-- a surrogate that is not part of a pair -/
  | lone {n : Nat} {u t v : Bytes} : UEscape u n → HighSurrogate n ∨ LowSurrogate n →
      (HighSurrogate n → ∀ u' l t', UEscape u' l → LowSurrogate l → t ≠ u' ++ t') → StringBody t v → StringBody (u ++ t) (replacement ++ v)
  /-- a byte with which no character begins -/
  | bad {c : UInt8} {t v : Bytes} : (∀ n b t', Utf8Char n b → c :: t ≠ b ++ t') → StringBody t v → StringBody (c :: t) (replacement ++ v)

/-- `encoding/json` writes the string as it is: no quotes, backslashes, control characters, `<`, `>`, `&`, U+2028 or U+2029. -/
def Verbatim (s : Bytes) : Prop := escBody s.length s = s

/-- A document that can be written: at most `d` levels deep, strings are UTF-8, other texts of strings are texts of them, and literals are literals. -/
inductive Writable : Nat → Json → Prop
  | null {d : Nat} : Writable d .null
  | bool {d : Nat} {b : Bool} : Writable d (.bool b)
  | num {d : Nat} {n : Int} : Writable d (.num n)
  | frac {d : Nat} {l : Bytes} : FracLit l → Writable d (.frac l)
  | str {d : Nat} {s : Bytes} : Utf8 s → Writable d (.str s)
  | esc {d : Nat} {raw s : Bytes} : StringBody raw s → raw ≠ s → Verbatim s → Writable d (.esc raw s)
  | arr {d : Nat} {l : List Json} : (∀ j ∈ l, Writable d j) → Writable (d + 1) (.arr l)
  | obj {d : Nat} {m : List (Str × Json)} : (∀ e ∈ m, Utf8 e.1) → (∀ e ∈ m, Writable d e.2) → Writable (d + 1) (.obj m)

end Tuf.Spec
