import Verif.Model.GoLib

/-!
# JSON values

The JSON text syntax (`encoding/json` scanner, printer) is not in `/repo`; it is a parameter of the model (`Env.parse`).
Everything that `metadata/marshal.go` does happens between this syntax tree and the Go structs.
-/

namespace Tuf

/-- A JSON document. Object members are in document order and may repeat a key. Numbers are integer literals
(`num`) or any other literal (`frac`, e.g. `1.5`, `1e3`), which no Go integer field accepts but for `-0` (`frac b!"-0"`).
Strings are `str` with their value, or, if `encoding/json` would write the value as it is but the text between the quotes is another, `esc` with that text and the value: `HexBytes` and
`time.Time` see the text, everything else the value. -/
inductive Json where
  | null
  | bool (b : Bool)
  | num (n : Int)
  | frac (lit : Str)
  | str (s : Str)
  | esc (raw s : Str)
  | arr (l : List Json)
  | obj (m : List (Str × Json))
  deriving Repr

/-- `map[string]any` holding decoded JSON; also `UnrecognizedFields` (nil and empty are not distinguished:
`marshal.go:25` etc. only test the length). -/
abbrev Fields := Entries Json

/-- ASCII lower case. -/
def lowerByte (c : UInt8) : UInt8 := if 65 ≤ c.toNat ∧ c.toNat ≤ 90 then c + 32 else c

/-- Case folding used by `encoding/json` for struct keys: ASCII case, plus U+212A (Kelvin sign) for `k` and U+017F for `s`. -/
def foldKey : Str → Str
  | [] => []
  | 0xE2 :: 0x84 :: 0xAA :: r => 107 :: foldKey r
  | 0xC5 :: 0xBF :: r => 115 :: foldKey r
  | c :: r => lowerByte c :: foldKey r

/-- Which struct field a JSON key sets: the exactly named one, else a case-insensitive match. -/
def findField (fields : List Str) (k : Str) : Option Str :=
  if k ∈ fields then some k else fields.find? (fun f => foldKey f == foldKey k)

/-- A number literal: an integer or the text of any other literal. -/
abbrev NumLit := Int ⊕ Str

/-- The JSON number of a literal. -/
def Json.ofLit : NumLit → Json
  | .inl n => .num n
  | .inr l => .frac l

mutual
/-- Decoding into a Go `any`: numbers become float64 (`f` gives the literal that re-marshalling that float64 prints, or `none`
if out of range), repeated object keys keep the last value. -/
def Json.toAny (f : NumLit → Option NumLit) : Json → Option Json
  | .null => some .null
  | .bool b => some (.bool b)
  | .num n => (f (.inl n)).map Json.ofLit
  | .frac l => (f (.inr l)).map Json.ofLit
  | .str s => some (.str s)
  | .esc _ s => some (.str s)
  | .arr l => (Json.toAnyList f l).map .arr
  | .obj m => (Json.toAnyFields f m).map (fun es => .obj (es.foldl (fun acc e => Entries.set acc e.1 e.2) []))
def Json.toAnyList (f : NumLit → Option NumLit) : List Json → Option (List Json)
  | [] => some []
  | j :: r => match Json.toAny f j, Json.toAnyList f r with
    | some a, some b => some (a :: b)
    | _, _ => none
def Json.toAnyFields (f : NumLit → Option NumLit) : List (Str × Json) → Option (List (Str × Json))
  | [] => some []
  | (k, j) :: r => match Json.toAny f j, Json.toAnyFields f r with
    | some a, some b => some ((k, a) :: b)
    | _, _ => none
end

/-! ## Canonical JSON

`cjson.EncodeCanonical` of go-securesystemslib v0.8.0 (`/repo/go.mod:7`), used at `metadata.go:208, 325-355` and `keys.go:118`.
It marshals with `encoding/json`, decodes with `UseNumber` and prints with sorted keys; strings escape only `"` and `\`. -/

/-- `encodeCanonicalString`. -/
def canonStr (s : Str) : Str :=
  34 :: (s.flatMap (fun c => if c = 34 ∨ c = 92 then [92, c] else [c])) ++ [34]

/-- Comma-separated list of encoded members. -/
def commaJoin : List Bytes → Bytes
  | [] => []
  | [x] => x
  | x :: y :: r => x ++ 44 :: commaJoin (y :: r)

mutual
/-- `encodeCanonical`: `none` is the error for a number that is not an int64 (floating point or out of range); `-0` is one. -/
def Json.canon : Json → Option Bytes
  | .null => some b!"null"
  | .bool true => some b!"true"
  | .bool false => some b!"false"
  | .num n => if inInt64 n then some (formatInt 10 n) else none
  | .frac l => if l = b!"-0" then some l else none
  | .str s => some (canonStr s)
  | .esc _ s => some (canonStr s)
  | .arr l => (Json.canonList l).map (fun es => 91 :: commaJoin es ++ [93])
  | .obj m => (Json.canonFields m).map (fun es =>
      123 :: commaJoin ((sortByKey es).map (fun e => canonStr e.1 ++ 58 :: e.2)) ++ [125])
def Json.canonList : List Json → Option (List Bytes)
  | [] => some []
  | j :: r => match Json.canon j, Json.canonList r with
    | some a, some b => some (a :: b)
    | _, _ => none
def Json.canonFields : List (Str × Json) → Option (List (Str × Bytes))
  | [] => some []
  | (k, j) :: r => match Json.canon j, Json.canonFields r with
    | some a, some b => some ((k, a) :: b)
    | _, _ => none
end

end Tuf
