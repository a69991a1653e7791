import Verif.Model.Std.JsonText

/-!
# Numbers decoded as float64

A model of what `encoding/json` of Go 1.21 does to a number that it decodes into an `any` and prints again (not in `/repo`): the parameter `Env.anyNum` of the rest of the
model, used for all fields that are not recognised (`marshal.go:46-57` etc.). `strconv.ParseFloat` rounds to the nearest float64, ties to even;
`strconv.AppendFloat(f, 'f' or 'e', -1, 64)` prints the shortest decimal that is rounded back to `f`.

Simplification. If no decimal of at most 17 digits were rounded back to the number, the model would keep the literal (this does not occur).
-/

namespace Tuf.Std
open Tuf

/-- `⌊log₂ (p/q)⌋` for positive `p` and `q`. -/
def ilog2 (p q : Nat) : Int :=
  let a : Int := (Nat.log2 p : Int) - (Nat.log2 q : Int)
  if q * 2 ^ a.toNat ≤ p * 2 ^ (-a).toNat then a else a - 1

/-- `p/q` rounded to an integer, ties to even. -/
def halfEven (p q : Nat) : Nat :=
  let f := p / q
  let r := p % q
  if 2 * r < q then f
  else if q < 2 * r then f + 1
  else if f % 2 = 0 then f else f + 1

/-- The float64 nearest to the positive number `p/q`: mantissa below 2^53 and binary exponent; `none` is an overflow. -/
def roundF64 (p q : Nat) : Option (Nat × Int) :=
  let k : Int := max (ilog2 p q - 52) (-1074)
  let m := halfEven (p * 2 ^ (-k).toNat) (q * 2 ^ k.toNat)
  let x : Nat × Int := if m = 2 ^ 53 then (2 ^ 52, k + 1) else (m, k)
  if 971 < x.2 then none else some x

/-- `c·10^t` as a fraction. -/
def decNum (c : Nat) (t : Int) : Nat := c * 10 ^ t.toNat
def decDen (t : Int) : Nat := 10 ^ (-t).toNat

/-- Without zeros at the end: digits and exponent. The fuel is the number of digits. -/
def strip : Nat → Nat → Int → Nat × Int
  | 0, c, t => (c, t)
  | n + 1, c, t => if c % 10 = 0 then strip n (c / 10) (t + 1) else (c, t)

/-- `⌊log₁₀ (p/q)⌋ + 1`, the number of digits before the point, found by trying the two possible values. -/
def digits10 (p q : Nat) : Int :=
  let a : Int := ((digits 10 p).length : Int) - ((digits 10 q).length : Int)
  if q * 10 ^ a.toNat ≤ p * 10 ^ (-a).toNat then a + 1 else a

/-- The decimals with `d` digits next to `p/q`, the nearer one first. -/
def candidates (p q d : Nat) : List (Nat × Int) :=
  let t : Int := digits10 p q - d
  let n := p * 10 ^ (-t).toNat
  let m := q * 10 ^ t.toNat
  let lo := n / m
  let hi := if n % m = 0 then lo else lo + 1
  if 2 * (n % m) ≤ m then [(lo, t), (hi, t)] else [(hi, t), (lo, t)]

/-- Digits with a point, or with an exponent. `'e'` is used below 1e-6 and from 1e21 on. -/
def pointLit (c : Nat) (t : Int) : Str :=
  let ds := formatNat 10 c
  let w := (-t).toNat
  if w < ds.length then ds.take (ds.length - w) ++ 46 :: ds.drop (ds.length - w)
  else [48, 46] ++ List.replicate (w - ds.length) 48 ++ ds

def expLit (c : Nat) (t : Int) : Str :=
  let ds := formatNat 10 c
  let e : Int := t + ds.length - 1
  ds.take 1 ++ (if ds.length ≤ 1 then [] else 46 :: ds.drop 1) ++ 101 :: (if e < 0 then 45 else 43) :: formatNat 10 e.natAbs

/-- The literal printed for `±c·10^t`. -/
def printF64 (neg : Bool) (c : Nat) (t : Int) : NumLit :=
  let s := strip (digits 10 c).length c t
  let e : Int := s.2 + (digits 10 s.1).length - 1
  if e < -6 ∨ 21 ≤ e then .inr ((if neg then [45] else []) ++ expLit s.1 s.2)
  else if 0 ≤ s.2 then .inl (if neg then -((s.1 * 10 ^ s.2.toNat : Nat) : Int) else ((s.1 * 10 ^ s.2.toNat : Nat) : Int))
  else .inr ((if neg then [45] else []) ++ pointLit s.1 s.2)

/-- The value of an exponent `e`, sign, digits. -/
def expVal : Bytes → Int
  | _ :: 45 :: ds => -(digitsVal ds : Int)
  | _ :: 43 :: ds => digitsVal ds
  | _ :: ds => digitsVal ds
  | [] => 0

/-- The digits and the exponent of an unsigned literal. -/
def decimal (s : Bytes) : Option (Nat × Int) :=
  match unsigned s with
  | some (ds, l, []) => match fraction l with
    | some (f, e) => some (digitsVal (ds ++ f.drop 1), expVal e - (f.drop 1).length)
    | none => none
  | _ => none

/-- The number that a literal denotes: sign, digits, decimal exponent. -/
def literal : NumLit → Option (Bool × Nat × Int)
  | .inl n => some (decide (n < 0), n.natAbs, 0)
  | .inr s => match number s with
    | some (.frac l, []) =>
      if l ≠ s then none
      else if s.head? = some 45 then (decimal (s.drop 1)).map (fun x => (true, x))
      else (decimal s).map (fun x => (false, x))
    | _ => none

/-- `strconv.ParseFloat(s, 64)`: sign, mantissa, exponent; `none` is an overflow. The mantissa of zero is zero. -/
def readF64 (l : NumLit) : Option (Bool × Nat × Int) :=
  match literal l with
  | none => none
  | some (neg, c, t) =>
    if c = 0 then some (neg, 0, 0)
    else (roundF64 (decNum c t) (decDen t)).map (fun x => (neg, x))

/-- A float64 as a fraction in lowest terms. -/
def fracF64 (x : Nat × Int) : Nat × Nat :=
  let p := x.1 * 2 ^ x.2.toNat
  let q := 2 ^ (-x.2).toNat
  (p / Nat.gcd p q, q / Nat.gcd p q)

/-- The texts of the decimals next to the number, by increasing number of digits. -/
def texts (neg : Bool) (x : Nat × Int) : List NumLit :=
  (List.range 17).flatMap (fun d => (candidates (fracF64 x).1 (fracF64 x).2 (d + 1)).map (fun c => printF64 neg c.1 c.2))

/-- The shortest text that is read as the same number. -/
def shortest (neg : Bool) (x : Nat × Int) : Option NumLit := (texts neg x).find? (fun s => decide (readF64 s = some (neg, x)))

/-- `Env.anyNum`. -/
def anyNumber (l : NumLit) : Option NumLit :=
  match readF64 l with
  | none => none
  | some (neg, x) => if x.1 = 0 then some (if neg then .inr b!"-0" else .inl 0) else some ((shortest neg x).getD l)

end Tuf.Std
