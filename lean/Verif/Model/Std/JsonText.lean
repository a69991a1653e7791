import Verif.Model.Json

/-!
# JSON text

A model of the text syntax of Go 1.21's `encoding/json` (not in `/repo`): the parameters `Env.parse` and `Env.print` of the rest of the model. It is used at
`metadata.go:209-258` (`FromBytes`, `ToBytes`) and throughout `marshal.go`.
-/

namespace Tuf.Std
open Tuf

/-! ## UTF-8 -/

/-- A continuation byte. -/
def isCont (c : UInt8) : Bool := 128 ≤ c.toNat && c.toNat ≤ 191

/-- `utf8.DecodeRuneInString`: the length of the well-formed character at the beginning, 0 if there is none. No surrogates, no overlong forms, nothing above U+10FFFF. -/
def charLen : Bytes → Nat
  | [] => 0
  | a :: r =>
    if a.toNat < 128 then 1
    else if 0xC2 ≤ a.toNat ∧ a.toNat ≤ 0xDF then
      match r with
      | b :: _ => if isCont b then 2 else 0
      | _ => 0
    else if 0xE0 ≤ a.toNat ∧ a.toNat ≤ 0xEF then
      match r with
      | b :: c :: _ =>
        if isCont b && isCont c && (a.toNat != 0xE0 || 0xA0 ≤ b.toNat) && (a.toNat != 0xED || b.toNat ≤ 0x9F) then 3 else 0
      | _ => 0
    else if 0xF0 ≤ a.toNat ∧ a.toNat ≤ 0xF4 then
      match r with
      | b :: c :: d :: _ =>
        if isCont b && isCont c && isCont d && (a.toNat != 0xF0 || 0x90 ≤ b.toNat) && (a.toNat != 0xF4 || b.toNat ≤ 0x8F) then 4 else 0
      | _ => 0
    else 0

/-- `utf8.AppendRune`; surrogates and values above U+10FFFF give U+FFFD. -/
def encodeRune (n : Nat) : Bytes :=
  if n < 0x80 then [UInt8.ofNat n]
  else if n < 0x800 then [UInt8.ofNat (0xC0 + n / 64), UInt8.ofNat (0x80 + n % 64)]
  else if (0xD800 ≤ n ∧ n ≤ 0xDFFF) ∨ 0x10FFFF < n then [0xEF, 0xBF, 0xBD]
  else if n < 0x10000 then [UInt8.ofNat (0xE0 + n / 4096), UInt8.ofNat (0x80 + n / 64 % 64), UInt8.ofNat (0x80 + n % 64)]
  else [UInt8.ofNat (0xF0 + n / 262144), UInt8.ofNat (0x80 + n / 4096 % 64), UInt8.ofNat (0x80 + n / 64 % 64), UInt8.ofNat (0x80 + n % 64)]

/-! ## Printing -/

/-- `\u00XX`. -/
def escU (c : UInt8) : Bytes := [92, 117, 48, 48, digitChar (c.toNat / 16), digitChar (c.toNat % 16)]

/-- How an ASCII character is written in a string (`appendString` with `escapeHTML`). -/
def escAscii (c : UInt8) : Bytes :=
  if c = 34 ∨ c = 92 then [92, c]
  else if c = 10 then [92, 110]
  else if c = 13 then [92, 114]
  else if c = 9 then [92, 116]
  else if c.toNat < 32 ∨ c = 60 ∨ c = 62 ∨ c = 38 then escU c
  else [c]

/-- The body of a string (`appendString`); the fuel is the length. Invalid UTF-8 is written as U+FFFD. -/
def escBody : Nat → Bytes → Bytes
  | 0, _ => []
  | _ + 1, [] => []
  | n + 1, c :: r =>
    if c.toNat < 128 then escAscii c ++ escBody n r
    else match charLen (c :: r) with
      | 0 => b!"\\ufffd" ++ escBody n r
      | k =>
        let ch := (c :: r).take k
        (if ch = [0xE2, 0x80, 0xA8] then b!"\\u2028" else if ch = [0xE2, 0x80, 0xA9] then b!"\\u2029" else ch) ++ escBody n ((c :: r).drop k)

/-- A string. -/
def printStr (s : Bytes) : Bytes := 34 :: escBody s.length s ++ [34]

/-- Line break and indentation (`json.Indent` with a tab). -/
def newline (pretty : Bool) (level : Nat) : Bytes := if pretty then 10 :: List.replicate level 9 else []

mutual
/-- `json.Marshal` and `json.MarshalIndent(v, "", "\t")` of a syntax tree. -/
def printAt (pretty : Bool) (level : Nat) : Json → Bytes
  | .null => b!"null"
  | .bool true => b!"true"
  | .bool false => b!"false"
  | .num n => formatInt 10 n
  | .frac l => l
  | .str s => printStr s
  | .esc raw _ => 34 :: raw ++ [34]
  | .arr [] => b!"[]"
  | .arr (j :: r) => 91 :: newline pretty (level + 1) ++ printAt pretty (level + 1) j ++ printMore pretty (level + 1) r ++ newline pretty level ++ [93]
  | .obj [] => b!"{}"
  | .obj ((k, j) :: r) =>
    123 :: newline pretty (level + 1) ++ printStr k ++ 58 :: (if pretty then [32] else []) ++ printAt pretty (level + 1) j ++ printMembers pretty (level + 1) r ++ newline pretty level ++ [125]
/-- The further elements of an array. -/
def printMore (pretty : Bool) (level : Nat) : List Json → Bytes
  | [] => []
  | j :: r => 44 :: newline pretty level ++ printAt pretty level j ++ printMore pretty level r
/-- The further members of an object. -/
def printMembers (pretty : Bool) (level : Nat) : List (Str × Json) → Bytes
  | [] => []
  | (k, j) :: r => 44 :: newline pretty level ++ printStr k ++ 58 :: (if pretty then [32] else []) ++ printAt pretty level j ++ printMembers pretty level r
end

/-- `Env.print`. -/
def printJson (pretty : Bool) (j : Json) : Bytes := printAt pretty 0 j

/-! ## Parsing -/

/-- White space. -/
def isSpace (c : UInt8) : Bool := c = 32 || c = 9 || c = 10 || c = 13

def skipSpace : Bytes → Bytes
  | [] => []
  | c :: r => if isSpace c then skipSpace r else c :: r

/-- A decimal digit. -/
def isDigit (c : UInt8) : Bool := 48 ≤ c.toNat && c.toNat ≤ 57

/-- The digits at the beginning. -/
def takeDigits : Bytes → Bytes × Bytes
  | [] => ([], [])
  | c :: r => if isDigit c then (c :: (takeDigits r).1, (takeDigits r).2) else ([], c :: r)

/-- The value of a string of digits. -/
def digitsVal (ds : Bytes) : Nat := ds.foldl (fun n c => n * 10 + (c.toNat - 48)) 0

/-- `\uXXXX` without the backslash and the `u` (`getu4`). -/
def hex4 : Bytes → Option (Nat × Bytes)
  | a :: b :: c :: d :: r => match hexVal a, hexVal b, hexVal c, hexVal d with
    | some a, some b, some c, some d => some (a * 4096 + b * 256 + c * 16 + d, r)
    | _, _, _, _ => none
  | _ => none

/-- The second half of a surrogate pair, if there is one (`unquoteBytes`: `utf16.DecodeRune`). -/
def lowSurrogate : Bytes → Option (Nat × Bytes)
  | 92 :: 117 :: r => match hex4 r with
    | some (n, r') => if 0xDC00 ≤ n ∧ n ≤ 0xDFFF then some (n, r') else none
    | none => none
  | _ => none

/-- An escape sequence without the backslash: the bytes it stands for and the rest. -/
def escape : Bytes → Option (Bytes × Bytes)
  | 34 :: r => some ([34], r)
  | 92 :: r => some ([92], r)
  | 47 :: r => some ([47], r)
  | 98 :: r => some ([8], r)
  | 102 :: r => some ([12], r)
  | 110 :: r => some ([10], r)
  | 114 :: r => some ([13], r)
  | 116 :: r => some ([9], r)
  | 117 :: r => match hex4 r with
    | none => none
    | some (n, r') =>
      if 0xD800 ≤ n ∧ n ≤ 0xDBFF then
        match lowSurrogate r' with
        | some (m, r'') => some (encodeRune ((n - 0xD800) * 1024 + (m - 0xDC00) + 0x10000), r'')
        | none => some ([0xEF, 0xBF, 0xBD], r')
      else some (encodeRune n, r')
  | _ => none

/-- The rest of a string after the opening quote (`scanner` and `unquote`): its value and what follows the closing quote. The fuel is the length. -/
def stringRest : Nat → Bytes → Option (Bytes × Bytes)
  | 0, _ => none
  | _ + 1, [] => none
  | n + 1, c :: r =>
    if c = 34 then some ([], r)
    else if c = 92 then
      match escape r with
      | none => none
      | some (b, r') => (stringRest n r').map (fun x => (b ++ x.1, x.2))
    else if c.toNat < 32 then none
    else if c.toNat < 128 then (stringRest n r).map (fun x => (c :: x.1, x.2))
    else match charLen (c :: r) with
      | 0 => (stringRest n r).map (fun x => ([0xEF, 0xBF, 0xBD] ++ x.1, x.2))
      | k => (stringRest n ((c :: r).drop k)).map (fun x => ((c :: r).take k ++ x.1, x.2))

/-- The fraction of a number, empty or `.` and digits. -/
def fraction : Bytes → Option (Bytes × Bytes)
  | 46 :: r => match takeDigits r with
    | ([], _) => none
    | (ds, r') => some (46 :: ds, r')
  | r => some ([], r)

/-- The sign of an exponent. -/
def expSign : Bytes → Bytes × Bytes
  | 43 :: r => ([43], r)
  | 45 :: r => ([45], r)
  | r => ([], r)

/-- The exponent of a number, empty or `e`, sign, digits. -/
def exponent : Bytes → Option (Bytes × Bytes)
  | c :: r =>
    if c = 101 ∨ c = 69 then
      match takeDigits (expSign r).2 with
      | ([], _) => none
      | (ds, r') => some (c :: (expSign r).1 ++ ds, r')
    else some ([], c :: r)
  | [] => some ([], [])

/-- A number without its sign: digits without superfluous zero, fraction, exponent. The two results are the digits and the rest of the literal. -/
def unsigned (s : Bytes) : Option (Bytes × Bytes × Bytes) :=
  match takeDigits s with
  | ([], _) => none
  | (48 :: _ :: _, _) => none
  | (ds, r) => match fraction r with
    | none => none
    | some (f, r') => match exponent r' with
      | none => none
      | some (e, r'') => some (ds, f ++ e, r'')

/-- A number. -/
def number : Bytes → Option (Json × Bytes)
  | 45 :: r => match unsigned r with
    | none => none
    | some (ds, [], r') => some (if ds = [48] then .frac [45, 48] else .num (-(digitsVal ds : Int)), r')
    | some (ds, l, r') => some (.frac (45 :: ds ++ l), r')
  | r => match unsigned r with
    | none => none
    | some (ds, [], r') => some (.num (digitsVal ds), r')
    | some (ds, l, r') => some (.frac (ds ++ l), r')

/-- A string with its text, see `Json`. -/
def stringJson (raw s : Bytes) : Json := if raw = s ∨ escBody s.length s ≠ s then .str s else .esc raw s

mutual
/-- A value at the beginning and what follows it. `depth` is the number of levels that may still be opened (`maxNestingDepth` is 10000), the fuel is the length. -/
def value : Nat → (depth : Nat) → Bytes → Option (Json × Bytes)
  | 0, _, _ => none
  | n + 1, d, s => match skipSpace s with
    | [] => none
    | 34 :: r => (stringRest r.length r).map (fun x => (stringJson (r.take (r.length - x.2.length - 1)) x.1, x.2))
    | 116 :: 114 :: 117 :: 101 :: r => some (.bool true, r)
    | 102 :: 97 :: 108 :: 115 :: 101 :: r => some (.bool false, r)
    | 110 :: 117 :: 108 :: 108 :: r => some (.null, r)
    | 91 :: r =>
      match d with
      | 0 => none
      | d + 1 => match skipSpace r with
        | 93 :: r' => some (.arr [], r')
        | r' => (elements n d r').map (fun x => (.arr x.1, x.2))
    | 123 :: r =>
      match d with
      | 0 => none
      | d + 1 => match skipSpace r with
        | 125 :: r' => some (.obj [], r')
        | r' => (members n d r').map (fun x => (.obj x.1, x.2))
    | c :: r => number (c :: r)
/-- The elements of an array and its end. -/
def elements : Nat → (depth : Nat) → Bytes → Option (List Json × Bytes)
  | 0, _, _ => none
  | n + 1, d, s => match value n d s with
    | none => none
    | some (j, r) => match skipSpace r with
      | 44 :: r' => (elements n d r').map (fun x => (j :: x.1, x.2))
      | 93 :: r' => some ([j], r')
      | _ => none
/-- The members of an object and its end. -/
def members : Nat → (depth : Nat) → Bytes → Option (List (Str × Json) × Bytes)
  | 0, _, _ => none
  | n + 1, d, s => match skipSpace s with
    | 34 :: r => match stringRest r.length r with
      | none => none
      | some (k, r1) => match skipSpace r1 with
        | 58 :: r2 => match value n d r2 with
          | none => none
          | some (j, r3) => match skipSpace r3 with
            | 44 :: r' => (members n d r').map (fun x => ((k, j) :: x.1, x.2))
            | 125 :: r' => some ([(k, j)], r')
            | _ => none
        | _ => none
    | _ => none
end

/-- `Env.parse`: a value, surrounded by nothing but white space. -/
def parseJson (s : Bytes) : Option Json :=
  match value (s.length + 1) 10000 s with
  | none => none
  | some (j, r) => if skipSpace r = [] then some j else none

end Tuf.Std
