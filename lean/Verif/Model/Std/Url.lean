import Verif.Model.GoLib

/-!
# `url.JoinPath` of Go 1.21's net/url

Used by `generateTargetFilePath` (`updater.go:627`), `config.New` (`config.go:47`) and the `init` command (`init.go:129`). The source of the standard library is not in `/repo`; the
definitions follow net/url/url.go of Go 1.21 (`/repo/go.mod:3`). The texts of errors are not modelled.
-/

namespace Tuf.Std
open Tuf

/-- `!shouldEscape(c, encodePath)`. -/
def pathKeeps (c : UInt8) : Bool :=
  unreserved c || c == 36 || c == 38 || c == 43 || c == 44 || c == 47 || c == 58 || c == 59 || c == 61 || c == 64

/-- `escape(s, encodePath)`. -/
def escapePath : Str → Str
  | [] => []
  | c :: r => if pathKeeps c then c :: escapePath r else 37 :: upperHex (c.toNat / 16) :: upperHex (c.toNat % 16) :: escapePath r

/-- `ishex` and `unhex`. -/
def unhex (c : UInt8) : Option Nat :=
  if 48 ≤ c.toNat ∧ c.toNat ≤ 57 then some (c.toNat - 48)
  else if 97 ≤ c.toNat ∧ c.toNat ≤ 102 then some (c.toNat - 87)
  else if 65 ≤ c.toNat ∧ c.toNat ≤ 70 then some (c.toNat - 55)
  else none

/-- `unescape(s, encodePath)`; `none` is the error for a bad escape. -/
def unescapePath : Str → Option Str
  | [] => some []
  | c :: a :: b :: r =>
    if c = 37 then
      match unhex a, unhex b with
      | some x, some y => (unescapePath r).map (fun t => UInt8.ofNat (16 * x + y) :: t)
      | _, _ => none
    else (unescapePath (a :: b :: r)).map (fun t => c :: t)
  | c :: r => if c = 37 then none else (unescapePath r).map (fun t => c :: t)

/-- `validEncoded(s, encodePath)`. -/
def validEncoded (s : Str) : Bool :=
  s.all (fun c => c == 33 || c == 39 || c == 40 || c == 41 || c == 42 || c == 91 || c == 93 || c == 37 || pathKeeps c)

/-- `!shouldEscape(c, encodeHost)`, which is also `!shouldEscape(c, encodeZone)`. -/
def hostKeeps (c : UInt8) : Bool :=
  unreserved c || c == 33 || c == 36 || c == 38 || c == 39 || c == 40 || c == 41 || c == 42 || c == 43 || c == 44 || c == 59 || c == 61 || c == 58 || c == 91 || c == 93 || c == 60 || c == 62 || c == 34

/-- `!shouldEscape(c, encodeUserPassword)`. -/
def userKeeps (c : UInt8) : Bool := unreserved c || c == 36 || c == 38 || c == 43 || c == 44 || c == 59 || c == 61

/-- `!shouldEscape(c, encodeFragment)`. -/
def fragmentKeeps (c : UInt8) : Bool :=
  unreserved c || c == 36 || c == 38 || c == 43 || c == 44 || c == 47 || c == 58 || c == 59 || c == 61 || c == 63 || c == 64 || c == 33 || c == 40 || c == 41 || c == 42

/-- `escape(s, mode)`, where `keeps` says which bytes need no escape. -/
def escapeBy (keeps : UInt8 → Bool) : Str → Str
  | [] => []
  | c :: r => if keeps c then c :: escapeBy keeps r else 37 :: upperHex (c.toNat / 16) :: upperHex (c.toNat % 16) :: escapeBy keeps r

/-- `unescape(s, encodeHost)`, and with `zone` `unescape(s, encodeZone)`: bytes below 0x80 that need an escape are refused. In a host only `%25` and bytes from 0x80 on may be escaped, in a zone
only `%25`, the space and bytes that need no escape. -/
def unescapeHost (zone : Bool) : Str → Option Str
  | [] => some []
  | c :: a :: b :: r =>
    if c = 37 then
      match unhex a, unhex b with
      | some x, some y =>
        if zone = false ∧ x < 8 ∧ ¬ (a = 50 ∧ b = 53) then none
        else if zone = true ∧ ¬ (a = 50 ∧ b = 53) ∧ 16 * x + y ≠ 32 ∧ hostKeeps (UInt8.ofNat (16 * x + y)) = false then none
        else (unescapeHost zone r).map (fun t => UInt8.ofNat (16 * x + y) :: t)
      | _, _ => none
    else if c.toNat < 128 ∧ hostKeeps c = false then none
    else (unescapeHost zone (a :: b :: r)).map (fun t => c :: t)
  | c :: r => if c = 37 ∨ (c.toNat < 128 ∧ hostKeeps c = false) then none else (unescapeHost zone r).map (fun t => c :: t)

/-- `url.Userinfo`: a name and perhaps a password. -/
structure User where
  name : Str
  password : Option Str

/-- `Userinfo.String`. -/
def User.string (u : User) : Str :=
  escapeBy userKeeps u.name ++ (match u.password with
    | some p => 58 :: escapeBy userKeeps p
    | none => [])

/-- `url.URL`. -/
structure Url where
  scheme : Str := []
  «opaque» : Str := []
  user : Option User := none
  host : Str := []
  omitHost : Bool := false
  path : Str := []
  rawPath : Str := []
  forceQuery : Bool := false
  rawQuery : Str := []
  fragment : Str := []
  rawFragment : Str := []

/-- `URL.setPath`; the error leaves the URL as it is. -/
def Url.setPath (u : Url) (p : Str) : Option Url :=
  (unescapePath p).map (fun path => { u with path := path, rawPath := if p = escapePath path then [] else p })

/-- `URL.EscapedPath`. -/
def Url.escapedPath (u : Url) : Str :=
  if u.rawPath ≠ [] ∧ validEncoded u.rawPath = true ∧ unescapePath u.rawPath = some u.path then u.rawPath
  else if u.path = b!"*" then b!"*"
  else escapePath u.path

/-- Letters. -/
def isLetter (c : UInt8) : Bool := (65 ≤ c.toNat && c.toNat ≤ 90) || (97 ≤ c.toNat && c.toNat ≤ 122)
/-- Digits, `+`, `-`, `.`: allowed in a scheme but not first. -/
def schemeLater (c : UInt8) : Bool := (48 ≤ c.toNat && c.toNat ≤ 57) || c == 43 || c == 45 || c == 46

/-- The loop of `getScheme` after the first byte: the bytes of the scheme before a colon and what follows it, if the scheme ends with a colon. -/
def schemeRest : Str → Option (Str × Str)
  | [] => none
  | c :: r =>
    if isLetter c || schemeLater c then (schemeRest r).map (fun p => (c :: p.1, p.2))
    else if c = 58 then some ([], r)
    else none

/-- `getScheme`; `none` is the error "missing protocol scheme". -/
def getScheme (s : Str) : Option (Str × Str) :=
  match s with
  | [] => some ([], [])
  | c :: r =>
    if c = 58 then none
    else if isLetter c then
      match schemeRest r with
      | some (a, b) => some (c :: a, b)
      | none => some ([], s)
    else some ([], s)

/-- `strings.ToLower` on letters, digits, `+`, `-`, `.`. -/
def lowerAscii (c : UInt8) : UInt8 := if 65 ≤ c.toNat ∧ c.toNat ≤ 90 then c + 32 else c

/-- `strings.Cut` at a byte. -/
def cutByte (b : UInt8) : Str → Str × Str
  | [] => ([], [])
  | c :: r => if c = b then ([], r) else ((c :: (cutByte b r).1), (cutByte b r).2)

/-- What precedes and what follows the last of these bytes. -/
def cutLast (b : UInt8) : Str → Option (Str × Str)
  | [] => none
  | c :: r => match cutLast b r with
    | some (x, y) => some (c :: x, y)
    | none => if c = b then some ([], r) else none

/-- What precedes the first `%25`, and the rest with it. -/
def cutZone : Str → Option (Str × Str)
  | [] => none
  | c :: r => if (b!"%25").isPrefixOf (c :: r) then some ([], c :: r) else (cutZone r).map (fun p => (c :: p.1, p.2))

/-- `validOptionalPort`. -/
def validOptionalPort : Str → Bool
  | [] => true
  | c :: r => c == 58 && r.all (fun d => 48 ≤ d.toNat && d.toNat ≤ 57)

/-- `parseHost`. -/
def parseHost (host : Str) : Option Str :=
  if (b!"[").isPrefixOf host then
    match cutLast 93 host with
    | none => none
    | some (a, port) =>
      if validOptionalPort port then
        match cutZone a with
        | some (h, z) => (unescapeHost false h).bind (fun h => (unescapeHost true z).bind (fun z => (unescapeHost false (93 :: port)).map (fun p => h ++ z ++ p)))
        | none => unescapeHost false host
      else none
  else match cutLast 58 host with
    | some (_, port) => if validOptionalPort (58 :: port) then unescapeHost false host else none
    | none => unescapeHost false host

/-- `validUserinfo`. -/
def validUserinfo (s : Str) : Bool :=
  s.all (fun c => unreserved c || c == 58 || c == 33 || c == 36 || c == 38 || c == 39 || c == 40 || c == 41 || c == 42 || c == 43 || c == 44 || c == 59 || c == 61 || c == 37 || c == 64)

/-- The part of `parseAuthority` about user and password. -/
def parseUser (s : Str) : Option User :=
  if validUserinfo s = false then none
  else if (58 : UInt8) ∈ s then
    match unescapePath (cutByte 58 s).1, unescapePath (cutByte 58 s).2 with
    | some name, some password => some ⟨name, some password⟩
    | _, _ => none
  else (unescapePath s).map (fun name => ⟨name, none⟩)

/-- `parseAuthority`. -/
def parseAuthority (s : Str) : Option (Option User × Str) :=
  match cutLast 64 s with
  | none => (parseHost s).map (fun h => (none, h))
  | some (user, host) => (parseHost host).bind (fun h => (parseUser user).map (fun u => (some u, h)))

/-- The query in `parse`: a single `?` at the end sets `ForceQuery`, else what follows the first `?` is the query. -/
def splitQuery (u : Url) (s : Str) : Url × Str :=
  match cutByte 63 s with
  | (a, b) => if b = [] ∧ (63 : UInt8) ∈ s then ({ u with forceQuery := true }, a) else ({ u with rawQuery := b }, a)

/-- The part of `parse` after scheme and query. -/
def parseRest (u : Url) (rest : Str) : Option Url :=
  if (b!"/").isPrefixOf rest = false ∧ u.scheme ≠ [] then some { u with «opaque» := rest }
  else if (b!"/").isPrefixOf rest = false ∧ (58 : UInt8) ∈ (cutByte 47 rest).1 then none
  else if (u.scheme ≠ [] ∨ (b!"///").isPrefixOf rest = false) ∧ (b!"//").isPrefixOf rest = true then
    match parseAuthority ((rest.drop 2).takeWhile (fun c => c ≠ 47)) with
    | none => none
    | some (user, host) => Url.setPath { u with user := user, host := host } ((rest.drop 2).dropWhile (fun c => c ≠ 47))
  else Url.setPath (if u.scheme ≠ [] then { u with omitHost := true } else u) rest

/-- `parse`. -/
def parseNoFragment (s : Str) : Option Url :=
  if s.any (fun c => c.toNat < 32 || c == 127) then none
  else if s = b!"*" then some { path := b!"*" }
  else match getScheme s with
    | none => none
    | some (scheme, rest) =>
      match splitQuery { scheme := scheme.map lowerAscii } rest with
      | (u, rest) => parseRest u rest

/-- `URL.setFragment`. -/
def Url.setFragment (u : Url) (f : Str) : Option Url :=
  (unescapePath f).map (fun frag => { u with fragment := frag, rawFragment := if f = escapeBy fragmentKeeps frag then [] else f })

/-- `URL.EscapedFragment`. -/
def Url.escapedFragment (u : Url) : Str :=
  if u.rawFragment ≠ [] ∧ u.rawFragment.all (fun c => c == 39 || c == 91 || c == 93 || c == 37 || fragmentKeeps c) = true ∧ unescapePath u.rawFragment = some u.fragment then u.rawFragment
  else escapeBy fragmentKeeps u.fragment

/-- `url.Parse`. -/
def parseUrl (s : Str) : Option Url :=
  match parseNoFragment (cutByte 35 s).1 with
  | none => none
  | some u => if (cutByte 35 s).2 = [] then some u else u.setFragment (cutByte 35 s).2

/-- The part of `URL.String` before the path: scheme, user and host. -/
def Url.prefix (u : Url) : Str :=
  (if u.scheme ≠ [] then u.scheme ++ b!":" else []) ++
  (if (u.scheme ≠ [] ∨ u.host ≠ [] ∨ u.user.isSome) ∧ ¬ (u.omitHost = true ∧ u.host = [] ∧ u.user.isNone) then
    (if u.host ≠ [] ∨ u.path ≠ [] ∨ u.user.isSome then b!"//" else []) ++
    (match u.user with
      | some user => user.string ++ b!"@"
      | none => []) ++ escapeBy hostKeeps u.host
  else [])

/-- The path as `URL.String` writes it after the given text. -/
def Url.pathText (u : Url) (before : Str) : Str :=
  (if u.escapedPath ≠ [] ∧ (b!"/").isPrefixOf u.escapedPath = false ∧ u.host ≠ [] then b!"/"
   else if before = [] ∧ (58 : UInt8) ∈ (cutByte 47 u.escapedPath).1 then b!"./"
   else []) ++ u.escapedPath

/-- `URL.String`. -/
def Url.string (u : Url) : Str :=
  (if u.opaque ≠ [] then u.scheme ++ b!":" ++ u.opaque else u.prefix ++ u.pathText u.prefix) ++
  (if u.forceQuery = true ∨ u.rawQuery ≠ [] then b!"?" ++ u.rawQuery else []) ++
  (if u.fragment ≠ [] then b!"#" ++ u.escapedFragment else [])

/-- `URL.JoinPath` with one element: the path is joined with the element and cleaned; relative paths stay relative and lose `..` at their beginning. -/
def Url.joinPath (u : Url) (elem : Str) : Url :=
  let base := u.escapedPath
  let p := if (b!"/").isPrefixOf base then Tuf.joinPath base elem else (Tuf.joinPath (b!"/" ++ base) elem).drop 1
  let p := if (b!"/").isSuffixOf elem = true ∧ (b!"/").isSuffixOf p = false then p ++ b!"/" else p
  (u.setPath p).getD u

/-- `url.JoinPath` with one element. -/
def urlJoinPath (base elem : Str) : Option Str := (parseUrl base).map (fun u => (u.joinPath elem).string)

end Tuf.Std
