import Verif.Model.Base

/-!
# The parts of the Go standard library that the properties look inside

These are not in `/repo`; they model the documented behaviour of Go 1.21 (the version in `/repo/go.mod:3`).
-/

namespace Tuf

/-! ## strconv / fmt -/

/-- Digits of `n` in base `b`, most significant first, with fuel (`n + 1` always suffices for `b ≥ 2`). -/
def digitsAux (b : Nat) : Nat → Nat → List Nat
  | 0, _ => []
  | fuel + 1, n => if n < b then [n] else digitsAux b fuel (n / b) ++ [n % b]

/-- Digits of `n` in base `b`; `[0]` for zero. -/
def digits (b n : Nat) : List Nat := digitsAux b (n + 1) n

/-- The lowercase digit character: `0-9a-f`. -/
def digitChar (d : Nat) : UInt8 := if d < 10 then UInt8.ofNat (48 + d) else UInt8.ofNat (87 + d)

/-- `strconv.FormatUint(n, b)`. -/
def formatNat (b n : Nat) : Str := (digits b n).map digitChar

/-- `strconv.FormatInt(n, b)`. -/
def formatInt (b : Nat) (n : Int) : Str :=
  if n < 0 then 45 :: formatNat b n.natAbs else formatNat b n.natAbs

/-- `fmt.Sprintf("%0*x", w, n)` for `n ≥ 0`: lowercase hex, zero-padded on the left to width `w`. -/
def padHex (w n : Nat) : Str :=
  let s := formatNat 16 n
  List.replicate (w - s.length) 48 ++ s

/-- Value of a hex digit character, either case. -/
def hexVal (c : UInt8) : Option Nat :=
  if 48 ≤ c.toNat ∧ c.toNat ≤ 57 then some (c.toNat - 48)
  else if 97 ≤ c.toNat ∧ c.toNat ≤ 102 then some (c.toNat - 87)
  else if 65 ≤ c.toNat ∧ c.toNat ≤ 70 then some (c.toNat - 55)
  else none

/-- Unsigned base-16 value of a digit string, most significant first. -/
def parseHexDigits : Nat → Str → Option Nat
  | acc, [] => some acc
  | acc, c :: r => match hexVal c with
    | some d => parseHexDigits (acc * 16 + d) r
    | none => none

/-- `strconv.ParseInt(s, 16, 64)`: optional sign, at least one hex digit, value in range. -/
def parseInt16 (s : Str) : Option Int :=
  let body (neg : Bool) (r : Str) : Option Int :=
    if r = [] then none
    else match parseHexDigits 0 r with
      | none => none
      | some n =>
        let v : Int := if neg then -(n : Int) else (n : Int)
        if inInt64 v then some v else none
  match s with
  | 43 :: r => body false r
  | 45 :: r => body true r
  | r => body false r

/-! ## encoding/hex, encoding/base64 -/

/-- `hex.EncodeToString`. -/
def hexEncode : Bytes → Str
  | [] => []
  | b :: r => digitChar (b.toNat / 16) :: digitChar (b.toNat % 16) :: hexEncode r

/-- `hex.DecodeString`: an even number of hex digits of either case. -/
def hexDecode : Str → Option Bytes
  | [] => some []
  | [_] => none
  | a :: b :: r => match hexVal a, hexVal b, hexDecode r with
    | some x, some y, some z => some (UInt8.ofNat (x * 16 + y) :: z)
    | _, _, _ => none

/-- The URL-safe base64 alphabet. -/
def b64Char (n : Nat) : UInt8 :=
  if n < 26 then UInt8.ofNat (65 + n)
  else if n < 52 then UInt8.ofNat (97 + (n - 26))
  else if n < 62 then UInt8.ofNat (48 + (n - 52))
  else if n = 62 then 45 else 95

/-- `base64.URLEncoding.EncodeToString` (with padding). -/
def b64Encode : Bytes → Str
  | [] => []
  | [a] => [b64Char (a.toNat / 4), b64Char (a.toNat % 4 * 16), 61, 61]
  | [a, b] => [b64Char (a.toNat / 4), b64Char (a.toNat % 4 * 16 + b.toNat / 16),
      b64Char (b.toNat % 16 * 4), 61]
  | a :: b :: c :: r =>
      b64Char (a.toNat / 4) :: b64Char (a.toNat % 4 * 16 + b.toNat / 16) ::
      b64Char (b.toNat % 16 * 4 + c.toNat / 64) :: b64Char (c.toNat % 64) :: b64Encode r

/-! ## strings, path/filepath, net/url -/

/-- `strings.HasPrefix(s, p)`. -/
def hasPrefix (s p : Str) : Bool := List.isPrefixOf p s

/-- `strings.HasSuffix(s, p)`. -/
def hasSuffix (s p : Str) : Bool := List.isSuffixOf p s

/-- `strings.Split(s, sep)` for a one-byte separator: always at least one part. -/
def splitOn (sep : UInt8) : Str → List Str
  | [] => [[]]
  | c :: r =>
    if c = sep then [] :: splitOn sep r
    else match splitOn sep r with
      | [] => [[c]]
      | p :: ps => (c :: p) :: ps

/-- `strings.Join(parts, sep)` for a one-byte separator. -/
def joinWith (sep : UInt8) : List Str → Str
  | [] => []
  | [p] => p
  | p :: q :: ps => p ++ sep :: joinWith sep (q :: ps)

/-- `strings.Cut(s, "/")`: before, after, found. -/
def cutSlash : Str → Str × Str × Bool
  | [] => ([], [], false)
  | c :: r =>
    if c = 47 then ([], r, true)
    else match cutSlash r with
      | (b, a, ok) => (c :: b, a, ok)

/-- One component step of `filepath.Clean`; `st` is the output so far, last component first. -/
def cleanStep (rooted : Bool) (st : List Str) (p : Str) : List Str :=
  if p = [] ∨ p = b!"." then st
  else if p = b!".." then
    match st with
    | [] => if rooted then [] else [p]
    | q :: rest => if q = b!".." then p :: q :: rest else rest
  else p :: st

/-- `filepath.Clean` on Unix. -/
def cleanPath (path : Str) : Str :=
  match path with
  | [] => b!"."
  | c :: _ =>
    let rooted := c = 47
    let comps := ((splitOn 47 path).foldl (cleanStep rooted) []).reverse
    if rooted then 47 :: joinWith 47 comps
    else if comps = [] then b!"." else joinWith 47 comps

/-- `filepath.Join(a, b)` on Unix: empty leading elements are ignored, the rest is joined and cleaned. -/
def joinPath (a b : Str) : Str :=
  if a ≠ [] then cleanPath (a ++ 47 :: b)
  else if b ≠ [] then cleanPath b
  else []

/-- Bytes that `url.QueryEscape` leaves alone: letters, digits, `-`, `_`, `.`, `~`. -/
def unreserved (c : UInt8) : Bool :=
  (48 ≤ c.toNat && c.toNat ≤ 57) || (65 ≤ c.toNat && c.toNat ≤ 90) || (97 ≤ c.toNat && c.toNat ≤ 122) ||
  c == 45 || c == 95 || c == 46 || c == 126

/-- Uppercase hex digit. -/
def upperHex (d : Nat) : UInt8 := if d < 10 then UInt8.ofNat (48 + d) else UInt8.ofNat (55 + d)

/-- `url.QueryEscape`: space becomes `+`, other reserved bytes `%XX`. -/
def queryEscape : Str → Str
  | [] => []
  | c :: r =>
    if unreserved c then c :: queryEscape r
    else if c = 32 then 43 :: queryEscape r
    else 37 :: upperHex (c.toNat / 16) :: upperHex (c.toNat % 16) :: queryEscape r

/-! ## crypto/hmac -/

/-- `hmac.Equal`: byte equality. -/
def hmacEqual (a b : Bytes) : Bool := a == b

end Tuf
