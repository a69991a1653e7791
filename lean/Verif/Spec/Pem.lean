import Verif.Model.Std.Pem
import Verif.Spec.KeyIds

/-! # PEM texts (RFC 7468) and Base64 (RFC 4648) -/

namespace Tuf.Spec
open Tuf

/-- The Base64 alphabet. -/
def alphabet64 : Str := b!"ABCDEFGHIJKLMNOPQRSTUVWXYZabcdefghijklmnopqrstuvwxyz0123456789+/"

/-- The sign with this value. -/
def Sign64 (c : UInt8) (n : Nat) : Prop := alphabet64[n]? = some c

/-- Four signs are three bytes, most significant first. -/
def Quad64 (x y z w : Nat) (a b c : UInt8) : Prop := x * 2 ^ 18 + y * 2 ^ 12 + z * 2 ^ 6 + w = a.toNat * 2 ^ 16 + b.toNat * 2 ^ 8 + c.toNat

/-- The bytes a text without white space stands for. The bits that are left over at the end count for nothing. -/
inductive Base64 : Str → Bytes → Prop
  | nil : Base64 [] []
  | quad {p q r s : UInt8} {x y z w : Nat} {a b c : UInt8} {t : Str} {d : Bytes} : Sign64 p x → Sign64 q y → Sign64 r z → Sign64 s w → Quad64 x y z w a b c → Base64 t d →
      Base64 (p :: q :: r :: s :: t) (a :: b :: c :: d)
  | two {p q r : UInt8} {x y z : Nat} {a b c : UInt8} : Sign64 p x → Sign64 q y → Sign64 r z → Quad64 x y z 0 a b c → Base64 [p, q, r, 61] [a, b]
  | one {p q : UInt8} {x y : Nat} {a b c : UInt8} : Sign64 p x → Sign64 q y → Quad64 x y 0 0 a b c → Base64 [p, q, 61, 61] [a]

/-- A space or a tab. -/
def Blank (c : UInt8) : Prop := c = 32 ∨ c = 9

/-- Blanks and a line break: LF or CR LF. -/
def LineEnd (s : Str) : Prop := ∃ bl, (∀ c ∈ bl, Blank c) ∧ (s = bl ++ [10] ∨ s = bl ++ [13, 10])

/-- Header lines: each has a colon. -/
inductive HeaderLines : Str → Prop
  | nil : HeaderLines []
  | cons {l t : Str} : 58 ∈ l → 10 ∉ l → HeaderLines t → HeaderLines (l ++ 10 :: t)

/-- The text has a PEM block of this type with these bytes: after the beginning of a line the mark with the type; header lines; the bytes in Base64, with any white space between; and, on a line of its own, the end mark. -/
def PemBlock (s type : Str) (b : Bytes) : Prop :=
  ∃ pre eol headers body sep tail, s = pre ++ b!"-----BEGIN " ++ type ++ b!"-----" ++ eol ++ headers ++ body ++ sep ++ b!"-----END " ++ type ++ b!"-----" ++ tail ∧
    (pre = [] ∨ pre.getLast? = some 10) ∧ LineEnd eol ∧ HeaderLines headers ∧ (sep = [10] ∨ (sep = [] ∧ body = [])) ∧
    Base64 (body.filter (fun c => c != 32 && c != 9 && c != 10 && c != 13)) b ∧
    ((∃ e r, tail = e ++ r ∧ LineEnd e) ∨ ∀ c ∈ tail, Blank c)

/-- crypto/x509 writes the key in DER and reads it back. -/
def DerKey (x : Std.X509) (pk : PublicKey) : Prop := ∃ d, x.marshalPKIX pk = some d ∧ x.parsePKIX d = some pk

end Tuf.Spec
