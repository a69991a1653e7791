import Verif.Model.Types

/-!
# metadata/marshal.go

Decoding follows `encoding/json` (Go 1.21): object members are applied in document order; a key sets the field of exactly
that name, else the one that matches up to case; `null` leaves strings, numbers, booleans and times alone, resets maps,
slices and pointers to nil, resets value structs to zero, and is an error for `HexBytes`.

Simplifications. All decoding errors are `Err.other`. Go collects a type mismatch and carries on, so on a document with both a type mismatch
and a nil target (which panics) the order of the two may differ from the model; both refuse the document.
A slice field that occurs again in an object reuses the backing array, which is visible for `null` elements of string lists only (`refill`).
-/

namespace Tuf

/-- The error of a failed decode. -/
def jsonErr : Err := .other "json"

/-! ## Decoding of fields -/

/-- Decode into a `string` field with previous value `old`. -/
def decStr (j : Json) (old : Str) : Res Str :=
  match j with
  | .null => .ok old
  | .str s => .ok s
  | .esc _ s => .ok s
  | _ => .err jsonErr

/-- Decode into an `int64`/`int` field. -/
def decInt (j : Json) (old : Int) : Res Int :=
  match j with
  | .null => .ok old
  | .num n => if inInt64 n then .ok n else .err jsonErr
  | .frac l => if l = b!"-0" then .ok 0 else .err jsonErr
  | _ => .err jsonErr

/-- Decode into a `bool` field. -/
def decBool (j : Json) (old : Bool) : Res Bool :=
  match j with
  | .null => .ok old
  | .bool b => .ok b
  | _ => .err jsonErr

/-- Decode into a `time.Time` field, which sees the text between the quotes. -/
def decTime (env : Env) (j : Json) (old : Time) : Res Time :=
  match j with
  | .null => .ok old
  | .str s => Res.ofOption jsonErr (env.parseTime s)
  | _ => .err jsonErr

/-- `HexBytes.UnmarshalJSON`, `marshal.go:531-542`: a quoted string of an even number of hex digits, none of them escaped; not `null`. -/
def decHex (j : Json) : Res Bytes :=
  match j with
  | .str s => Res.ofOption jsonErr (hexDecode s)
  | _ => .err jsonErr

/-- Decode each element of a list. -/
def decList {α : Type} (dec : Json → Res α) : List Json → Res (List α)
  | [] => .ok []
  | j :: r => do
    let a ← dec j
    let b ← decList dec r
    .ok (a :: b)

/-- Decode into a slice field. -/
def decSlice {α : Type} (dec : Json → Res α) (j : Json) : Res (Slice α) :=
  match j with
  | .null => .ok none
  | .arr l => (decList dec l).map some
  | _ => .err jsonErr

/-- Decode the members of an object into a map that already holds `acc`. -/
def decEntries {α : Type} (dec : Json → Res α) : List (Str × Json) → Entries α → Res (Entries α)
  | [], acc => .ok acc
  | (k, j) :: r, acc => do
    let a ← dec j
    decEntries dec r (acc.set k a)

/-- Decode into a map field with previous value `old` (members are added to it). -/
def decMap {α : Type} (dec : Json → Res α) (j : Json) (old : GoMap α) : Res (GoMap α) :=
  match j with
  | .null => .ok none
  | .obj m => (decEntries dec m old.entries).map some
  | _ => .err jsonErr

/-- Decode into a pointer: `null` is nil. -/
def decPtr {α : Type} (dec : Json → Res α) (j : Json) : Res (Option α) :=
  match j with
  | .null => .ok none
  | j => (dec j).map some

/-- `json.Unmarshal` into `map[string]any` (`marshal.go:46-49` etc.): numbers become float64. -/
def decAnyMap (env : Env) (j : Json) : Res Fields :=
  match j with
  | .null => .ok []
  | .obj m => match Json.toAny env.anyNum (.obj m) with
    | some (.obj d) => .ok d
    | _ => .err jsonErr
  | _ => .err jsonErr

/-- Apply the members of an object to a struct. -/
def decFields {α : Type} (names : List Str) (setField : Str → Json → α → Res α) : List (Str × Json) → α → Res α
  | [], a => .ok a
  | (k, j) :: r, a =>
    match findField names k with
    | none => decFields names setField r a
    | some f => do
      let a' ← setField f j a
      decFields names setField r a'

/-- `json.Unmarshal` into a struct: `null` leaves it alone. -/
def decStruct {α : Type} (names : List Str) (setField : Str → Json → α → Res α) (zero : α) (j : Json) : Res α :=
  match j with
  | .null => .ok zero
  | .obj m => decFields names setField m zero
  | _ => .err jsonErr

/-- The pattern of all `UnmarshalJSON` methods of `marshal.go`: decode the struct fields, then decode again as
`map[string]any` and keep what is not a recognised (exact) name. `post` is the extra step of `TargetsType`. -/
def unmarshalStruct {α : Type} (env : Env) (names : List Str) (setField : Str → Json → α → Res α) (zero : α)
    (post : α → Res α) (setUnrec : Fields → α → α) (j : Json) : Res α := do
  let a ← decStruct names setField zero j
  let a ← post a
  let d ← decAnyMap env j
  .ok (setUnrec (names.foldl Entries.del d) a)

/-- An element of an array, decoded over a cell of a backing array: `null` leaves the string of the cell alone. -/
def overCell (s : Str) : Json → Json
  | .null => .str s
  | j => j

/-- The elements of an array, decoded over the old cells of a backing array. -/
def overCells : List Json → List Str → List Json
  | j :: r, s :: cells => overCell s j :: overCells r cells
  | l, _ => l

/-- The string that an element leaves in its cell. -/
def cellText : Json → Str
  | .str s => s
  | .esc _ s => s
  | _ => []

/-- A value for a string list, decoded over the cells that earlier values left in the backing array, and the cells it leaves
(`array` of `encoding/json/decode.go`, Go 1.21.5): a `null` among the elements shows the string of its cell; `null` and an empty array give the backing array up.
Cells of a new or grown array are empty strings, which is also what `null` elements without a cell amount to. -/
def refillOne (cells : List Str) : Json → Json × List Str
  | .arr (x :: l) => (.arr (overCells (x :: l) cells), (overCells (x :: l) cells).map cellText ++ cells.drop (l.length + 1))
  | j => (j, [])

/-- What the members of an object amount to for the string list `f`, which may be mentioned again and again. -/
def refill (names : List Str) (f : Str) : List Str → List (Str × Json) → List (Str × Json)
  | _, [] => []
  | cells, (k, j) :: r =>
    if findField names k = some f then (k, (refillOne cells j).1) :: refill names f (refillOne cells j).2 r
    else (k, j) :: refill names f cells r

/-- The object with the given string lists refilled. -/
def refillAll (names lists : List Str) : Json → Json
  | .obj m => .obj (lists.foldl (fun m f => refill names f [] m) m)
  | j => j

/-- The pattern of `unmarshalStruct` for structs with the string lists `lists`. -/
def unmarshalLists {α : Type} (env : Env) (names lists : List Str) (setField : Str → Json → α → Res α) (zero : α) (setUnrec : Fields → α → α) (j : Json) : Res α := do
  let a ← decStruct names setField zero (refillAll names lists j)
  let d ← decAnyMap env j
  .ok (setUnrec (names.foldl Entries.del d) a)

/-! ## Unmarshal methods -/

def KeyVal.names : List Str := [b!"public"]
def KeyVal.setField (_ : Str) (j : Json) (a : KeyVal) : Res KeyVal := do
  let v ← decStr j a.publicKey
  .ok { a with publicKey := v }
/-- `marshal.go:377-392`. -/
def KeyVal.unmarshal (env : Env) : Json → Res KeyVal :=
  unmarshalStruct env KeyVal.names KeyVal.setField {} .ok (fun u a => { a with unrec := u })

def Key.names : List Str := [b!"keytype", b!"scheme", b!"keyval"]
def Key.setField (env : Env) (f : Str) (j : Json) (a : Key) : Res Key :=
  if f = b!"keytype" then do
    let v ← decStr j a.type
    .ok { a with type := v }
  else if f = b!"scheme" then do
    let v ← decStr j a.scheme
    .ok { a with scheme := v }
  else do
    let v ← KeyVal.unmarshal env j
    .ok { a with value := v }
/-- `marshal.go:250-268`. The cached id is not part of the document: it is empty afterwards. -/
def Key.unmarshal (env : Env) : Json → Res Key :=
  unmarshalStruct env Key.names (Key.setField env) {} .ok (fun u a => { a with unrec := u })

def Role.names : List Str := [b!"keyids", b!"threshold"]
def Role.setField (f : Str) (j : Json) (a : Role) : Res Role :=
  if f = b!"keyids" then do
    let v ← decSlice (fun j => decStr j []) j
    .ok { a with keyIDs := v }
  else do
    let v ← decInt j a.threshold
    .ok { a with threshold := v }
/-- `marshal.go:404-420`. -/
def Role.unmarshal (env : Env) : Json → Res Role :=
  unmarshalLists env Role.names [b!"keyids"] Role.setField {} (fun u a => { a with unrec := u })

def MetaFiles.names : List Str := [b!"length", b!"hashes", b!"version"]
def MetaFiles.setField (f : Str) (j : Json) (a : MetaFiles) : Res MetaFiles :=
  if f = b!"length" then do
    let v ← decInt j a.length
    .ok { a with length := v }
  else if f = b!"hashes" then do
    let v ← decMap decHex j a.hashes
    .ok { a with hashes := v }
  else do
    let v ← decInt j a.version
    .ok { a with version := v }
/-- `marshal.go:188-205`. -/
def MetaFiles.unmarshal (env : Env) : Json → Res MetaFiles :=
  unmarshalStruct env MetaFiles.names MetaFiles.setField {} .ok (fun u a => { a with unrec := u })

def TargetFiles.names : List Str := [b!"length", b!"hashes", b!"custom"]
def TargetFiles.setField (f : Str) (j : Json) (a : TargetFiles) : Res TargetFiles :=
  if f = b!"length" then do
    let v ← decInt j a.length
    .ok { a with length := v }
  else if f = b!"hashes" then do
    let v ← decMap decHex j a.hashes
    .ok { a with hashes := v }
  else do
    let v ← decPtr .ok j
    .ok { a with custom := v }
/-- `marshal.go:220-237`. -/
def TargetFiles.unmarshal (env : Env) : Json → Res TargetFiles :=
  unmarshalStruct env TargetFiles.names TargetFiles.setField {} .ok (fun u a => { a with unrec := u })

def DelegatedRole.names : List Str :=
  [b!"name", b!"keyids", b!"threshold", b!"terminating", b!"path_hash_prefixes", b!"paths"]
def DelegatedRole.setField (f : Str) (j : Json) (a : DelegatedRole) : Res DelegatedRole :=
  if f = b!"name" then do
    let v ← decStr j a.name
    .ok { a with name := v }
  else if f = b!"keyids" then do
    let v ← decSlice (fun j => decStr j []) j
    .ok { a with keyIDs := v }
  else if f = b!"threshold" then do
    let v ← decInt j a.threshold
    .ok { a with threshold := v }
  else if f = b!"terminating" then do
    let v ← decBool j a.terminating
    .ok { a with terminating := v }
  else if f = b!"path_hash_prefixes" then do
    let v ← decSlice (fun j => decStr j []) j
    .ok { a with pathHashPrefixes := v }
  else do
    let v ← decSlice (fun j => decStr j []) j
    .ok { a with paths := v }
/-- `marshal.go:477-497`. -/
def DelegatedRole.unmarshal (env : Env) : Json → Res DelegatedRole :=
  unmarshalLists env DelegatedRole.names [b!"keyids", b!"path_hash_prefixes", b!"paths"] DelegatedRole.setField {} (fun u a => { a with unrec := u })

def SuccinctRoles.names : List Str := [b!"keyids", b!"threshold", b!"bit_length", b!"name_prefix"]
def SuccinctRoles.setField (f : Str) (j : Json) (a : SuccinctRoles) : Res SuccinctRoles :=
  if f = b!"keyids" then do
    let v ← decSlice (fun j => decStr j []) j
    .ok { a with keyIDs := v }
  else if f = b!"threshold" then do
    let v ← decInt j a.threshold
    .ok { a with threshold := v }
  else if f = b!"bit_length" then do
    let v ← decInt j a.bitLength
    .ok { a with bitLength := v }
  else do
    let v ← decStr j a.namePrefix
    .ok { a with namePrefix := v }
/-- `marshal.go:511-529`. -/
def SuccinctRoles.unmarshal (env : Env) : Json → Res SuccinctRoles :=
  unmarshalLists env SuccinctRoles.names [b!"keyids"] SuccinctRoles.setField {} (fun u a => { a with unrec := u })

def Delegations.names : List Str := [b!"keys", b!"roles", b!"succinct_roles"]
def Delegations.setField (env : Env) (f : Str) (j : Json) (a : Delegations) : Res Delegations :=
  if f = b!"keys" then do
    let v ← decMap (decPtr (Key.unmarshal env)) j a.keys
    .ok { a with keys := v }
  else if f = b!"roles" then do
    let v ← decSlice (DelegatedRole.unmarshal env) j
    .ok { a with roles := v }
  else do
    let v ← decPtr (SuccinctRoles.unmarshal env) j
    .ok { a with succinctRoles := v }
/-- `marshal.go:437-454`. -/
def Delegations.unmarshal (env : Env) : Json → Res Delegations :=
  unmarshalStruct env Delegations.names (Delegations.setField env) {} .ok (fun u a => { a with unrec := u })

def Signature.names : List Str := [b!"keyid", b!"sig"]
def Signature.setField (f : Str) (j : Json) (a : Signature) : Res Signature :=
  if f = b!"keyid" then do
    let v ← decStr j a.keyID
    .ok { a with keyID := v }
  else do
    let v ← decHex j
    .ok { a with sig := v }
/-- `marshal.go:350-366`. -/
def Signature.unmarshal (env : Env) : Json → Res Signature :=
  unmarshalStruct env Signature.names Signature.setField {} .ok (fun u a => { a with unrec := u })

def RootType.names : List Str :=
  [b!"_type", b!"spec_version", b!"consistent_snapshot", b!"version", b!"expires", b!"keys", b!"roles"]
def RootType.setField (env : Env) (f : Str) (j : Json) (a : RootType) : Res RootType :=
  if f = b!"_type" then do
    let v ← decStr j a.type
    .ok { a with type := v }
  else if f = b!"spec_version" then do
    let v ← decStr j a.specVersion
    .ok { a with specVersion := v }
  else if f = b!"consistent_snapshot" then do
    let v ← decBool j a.consistentSnapshot
    .ok { a with consistentSnapshot := v }
  else if f = b!"version" then do
    let v ← decInt j a.version
    .ok { a with version := v }
  else if f = b!"expires" then do
    let v ← decTime env j a.expires
    .ok { a with expires := v }
  else if f = b!"keys" then do
    let v ← decMap (decPtr (Key.unmarshal env)) j a.keys
    .ok { a with keys := v }
  else do
    let v ← decMap (decPtr (Role.unmarshal env)) j a.roles
    .ok { a with roles := v }
/-- `marshal.go:38-59`. -/
def RootType.unmarshal (env : Env) : Json → Res RootType :=
  unmarshalStruct env RootType.names (RootType.setField env) {} .ok (fun u a => { a with unrec := u })

def SnapshotType.names : List Str := [b!"_type", b!"spec_version", b!"version", b!"expires", b!"meta"]
def SnapshotType.setField (env : Env) (f : Str) (j : Json) (a : SnapshotType) : Res SnapshotType :=
  if f = b!"_type" then do
    let v ← decStr j a.type
    .ok { a with type := v }
  else if f = b!"spec_version" then do
    let v ← decStr j a.specVersion
    .ok { a with specVersion := v }
  else if f = b!"version" then do
    let v ← decInt j a.version
    .ok { a with version := v }
  else if f = b!"expires" then do
    let v ← decTime env j a.expires
    .ok { a with expires := v }
  else do
    let v ← decMap (decPtr (MetaFiles.unmarshal env)) j a.metas
    .ok { a with metas := v }
/-- `marshal.go:74-93`. -/
def SnapshotType.unmarshal (env : Env) : Json → Res SnapshotType :=
  unmarshalStruct env SnapshotType.names (SnapshotType.setField env) {} .ok (fun u a => { a with unrec := u })

def TimestampType.names : List Str := [b!"_type", b!"spec_version", b!"version", b!"expires", b!"meta"]
def TimestampType.setField (env : Env) (f : Str) (j : Json) (a : TimestampType) : Res TimestampType :=
  if f = b!"_type" then do
    let v ← decStr j a.type
    .ok { a with type := v }
  else if f = b!"spec_version" then do
    let v ← decStr j a.specVersion
    .ok { a with specVersion := v }
  else if f = b!"version" then do
    let v ← decInt j a.version
    .ok { a with version := v }
  else if f = b!"expires" then do
    let v ← decTime env j a.expires
    .ok { a with expires := v }
  else do
    let v ← decMap (decPtr (MetaFiles.unmarshal env)) j a.metas
    .ok { a with metas := v }
/-- `marshal.go:108-127`. -/
def TimestampType.unmarshal (env : Env) : Json → Res TimestampType :=
  unmarshalStruct env TimestampType.names (TimestampType.setField env) {} .ok (fun u a => { a with unrec := u })

def TargetsType.names : List Str :=
  [b!"_type", b!"spec_version", b!"version", b!"expires", b!"targets", b!"delegations"]
def TargetsType.setField (env : Env) (f : Str) (j : Json) (a : TargetsType) : Res TargetsType :=
  if f = b!"_type" then do
    let v ← decStr j a.type
    .ok { a with type := v }
  else if f = b!"spec_version" then do
    let v ← decStr j a.specVersion
    .ok { a with specVersion := v }
  else if f = b!"version" then do
    let v ← decInt j a.version
    .ok { a with version := v }
  else if f = b!"expires" then do
    let v ← decTime env j a.expires
    .ok { a with expires := v }
  else if f = b!"targets" then do
    let v ← decMap (decPtr (TargetFiles.unmarshal env)) j a.targets
    .ok { a with targets := v }
  else do
    let v ← decPtr (Delegations.unmarshal env) j
    .ok { a with delegations := v }

/-- `marshal.go:154-156`: `targetFile.Path = name` for every entry; a nil entry panics. -/
def setPaths : Entries (Option TargetFiles) → Res (Entries (Option TargetFiles))
  | [] => .ok []
  | (_, none) :: _ => .panic
  | (k, some t) :: r => do
    let r' ← setPaths r
    .ok ((k, some { t with path := k }) :: r')

/-- The extra step of `TargetsType.UnmarshalJSON`. -/
def TargetsType.setTargetPaths (a : TargetsType) : Res TargetsType :=
  match a.targets with
  | none => .ok a
  | some es => do
    let es' ← setPaths es
    .ok { a with targets := some es' }
/-- `marshal.go:145-170`. -/
def TargetsType.unmarshal (env : Env) : Json → Res TargetsType :=
  unmarshalStruct env TargetsType.names (TargetsType.setField env) {} TargetsType.setTargetPaths
    (fun u a => { a with unrec := u })

/-! ## Marshal methods

`json.Marshal` of a `map[string]any`: the result is the syntax tree that is printed. Go prints object members sorted by key, which is the order of the
list for all maps built with `set` (`Entries`). -/

/-- `copyMapValues` followed by the assignments `dict[k] = v` (`marshal.go:24-34` etc.). -/
def mkDict (unrec : Fields) (fields : List (Str × Json)) : Fields :=
  fields.foldl (fun acc e => acc.set e.1 e.2) unrec

/-- Marshal a slice: nil is `null`. -/
def encSlice {α : Type} (enc : α → Json) (s : Slice α) : Json :=
  match s with
  | none => .null
  | some l => .arr (l.map enc)

/-- Marshal a map: nil is `null`. -/
def encMap {α : Type} (enc : α → Json) (m : GoMap α) : Json :=
  match m with
  | none => .null
  | some es => .obj (es.map (fun e => (e.1, enc e.2)))

/-- Marshal a pointer: nil is `null`. -/
def encPtr {α : Type} (enc : α → Json) (p : Option α) : Json :=
  match p with
  | none => .null
  | some a => enc a

/-- `HexBytes.MarshalJSON`, `marshal.go:544-550`. -/
def encHex (b : Bytes) : Json := .str (hexEncode b)

/-- `marshal.go:368-375`. -/
def KeyVal.marshal (a : KeyVal) : Json := .obj (mkDict a.unrec [(b!"public", .str a.publicKey)])

/-- `marshal.go:239-248`. -/
def Key.marshal (a : Key) : Json :=
  .obj (mkDict a.unrec [(b!"keytype", .str a.type), (b!"scheme", .str a.scheme), (b!"keyval", a.value.marshal)])

/-- `marshal.go:394-402`. -/
def Role.marshal (a : Role) : Json :=
  .obj (mkDict a.unrec [(b!"keyids", encSlice .str a.keyIDs), (b!"threshold", .num a.threshold)])

/-- `marshal.go:172-186`: length and hashes are left out when zero / empty. -/
def MetaFiles.marshal (a : MetaFiles) : Json :=
  .obj (mkDict a.unrec (
    (if a.length ≠ 0 then [(b!"length", .num a.length)] else []) ++
    (if a.hashes.entries ≠ [] then [(b!"hashes", encMap encHex a.hashes)] else []) ++
    [(b!"version", .num a.version)]))

/-- `marshal.go:207-218`. -/
def TargetFiles.marshal (a : TargetFiles) : Json :=
  .obj (mkDict a.unrec (
    [(b!"length", .num a.length), (b!"hashes", encMap encHex a.hashes)] ++
    (match a.custom with
      | some c => [(b!"custom", c)]
      | none => [])))

/-- `marshal.go:456-475`: an error if both path lists are non-nil. -/
def DelegatedRole.marshal (a : DelegatedRole) : Res Json :=
  let base := [(b!"name", .str a.name), (b!"keyids", encSlice .str a.keyIDs), (b!"threshold", .num a.threshold),
    (b!"terminating", .bool a.terminating)]
  match a.paths, a.pathHashPrefixes with
  | some _, some _ => .err (.value "both paths and path_hash_prefixes")
  | some p, none => .ok (.obj (mkDict a.unrec (base ++ [(b!"paths", .arr (p.map .str))])))
  | none, some p => .ok (.obj (mkDict a.unrec (base ++ [(b!"path_hash_prefixes", .arr (p.map .str))])))
  | none, none => .ok (.obj (mkDict a.unrec base))

/-- `marshal.go:499-509`. -/
def SuccinctRoles.marshal (a : SuccinctRoles) : Json :=
  .obj (mkDict a.unrec [(b!"keyids", encSlice .str a.keyIDs), (b!"threshold", .num a.threshold),
    (b!"bit_length", .num a.bitLength), (b!"name_prefix", .str a.namePrefix)])

/-- Marshal every role of a list. `encoding/json` wraps the `ErrValue`, which no caller inspects. -/
def marshalRoles : List DelegatedRole → Res (List Json)
  | [] => .ok []
  | r :: rs => do
    let j ← r.marshal
    let js ← marshalRoles rs
    .ok (j :: js)

/-- `marshal.go:422-435`: `roles` wins over `succinct_roles`. -/
def Delegations.marshal (a : Delegations) : Res Json := do
  let keys := (b!"keys", encMap (encPtr Key.marshal) a.keys)
  match a.roles with
  | some rs =>
    let js ← marshalRoles rs
    .ok (.obj (mkDict a.unrec [keys, (b!"roles", .arr js)]))
  | none =>
    match a.succinctRoles with
    | some s => .ok (.obj (mkDict a.unrec [keys, (b!"succinct_roles", s.marshal)]))
    | none => .ok (.obj (mkDict a.unrec [keys]))

/-- `marshal.go:340-348`. -/
def Signature.marshal (a : Signature) : Json :=
  .obj (mkDict a.unrec [(b!"keyid", .str a.keyID), (b!"sig", encHex a.sig)])

/-- `marshal.go:23-36`. -/
def RootType.marshal (a : RootType) : Res Json :=
  .ok (.obj (mkDict a.unrec [(b!"_type", .str a.type), (b!"spec_version", .str a.specVersion),
    (b!"consistent_snapshot", .bool a.consistentSnapshot), (b!"version", .num a.version),
    (b!"expires", .str a.expires.text), (b!"keys", encMap (encPtr Key.marshal) a.keys),
    (b!"roles", encMap (encPtr Role.marshal) a.roles)]))

/-- `marshal.go:61-72`. -/
def SnapshotType.marshal (a : SnapshotType) : Res Json :=
  .ok (.obj (mkDict a.unrec [(b!"_type", .str a.type), (b!"spec_version", .str a.specVersion),
    (b!"version", .num a.version), (b!"expires", .str a.expires.text),
    (b!"meta", encMap (encPtr MetaFiles.marshal) a.metas)]))

/-- `marshal.go:95-106`. -/
def TimestampType.marshal (a : TimestampType) : Res Json :=
  .ok (.obj (mkDict a.unrec [(b!"_type", .str a.type), (b!"spec_version", .str a.specVersion),
    (b!"version", .num a.version), (b!"expires", .str a.expires.text),
    (b!"meta", encMap (encPtr MetaFiles.marshal) a.metas)]))

/-- `marshal.go:129-143`. -/
def TargetsType.marshal (a : TargetsType) : Res Json := do
  let base := [(b!"_type", .str a.type), (b!"spec_version", .str a.specVersion),
    (b!"version", .num a.version), (b!"expires", .str a.expires.text),
    (b!"targets", encMap (encPtr TargetFiles.marshal) a.targets)]
  match a.delegations with
  | none => .ok (.obj (mkDict a.unrec base))
  | some d =>
    let j ← d.marshal
    .ok (.obj (mkDict a.unrec (base ++ [(b!"delegations", j)])))

/-! ## The four metadata types -/

/-- The type set `Roles` (`types.go:20-22`): what the generic code does with `T` differs only in this. -/
class RoleType (T : Type) where
  /-- The `_type` that `checkType` expects (`metadata.go:885-904`). -/
  typeName : Str
  unmarshal : Env → Json → Res T
  marshal : T → Res Json
  zero : T
  any : Metadata T → AnyMeta

instance : RoleType RootType := ⟨ROOT, RootType.unmarshal, RootType.marshal, {}, .root⟩
instance : RoleType SnapshotType := ⟨SNAPSHOT, SnapshotType.unmarshal, SnapshotType.marshal, {}, .snapshot⟩
instance : RoleType TimestampType := ⟨TIMESTAMP, TimestampType.unmarshal, TimestampType.marshal, {}, .timestamp⟩
instance : RoleType TargetsType := ⟨TARGETS, TargetsType.unmarshal, TargetsType.marshal, {}, .targets⟩

def Metadata.names : List Str := [b!"signed", b!"signatures"]
def Metadata.setField {T : Type} [RoleType T] (env : Env) (f : Str) (j : Json) (a : Metadata T) : Res (Metadata T) :=
  if f = b!"signed" then do
    let v ← RoleType.unmarshal env j
    .ok { a with signed := v }
  else do
    let v ← decSlice (Signature.unmarshal env) j
    .ok { a with signatures := v }
/-- `marshal.go:280-338`. -/
def Metadata.unmarshal {T : Type} [RoleType T] (env : Env) : Json → Res (Metadata T) :=
  unmarshalStruct env Metadata.names (Metadata.setField env) { signed := RoleType.zero } .ok
    (fun u a => { a with unrec := u })

/-- `marshal.go:270-278`. -/
def Metadata.marshal {T : Type} [RoleType T] (m : Metadata T) : Res Json := do
  let s ← RoleType.marshal m.signed
  .ok (.obj (mkDict m.unrec [(b!"signed", s), (b!"signatures", encSlice Signature.marshal m.signatures)]))

/-! ## Canonical payload -/

/-- `cjson.EncodeCanonical(v)` given the marshalled form of `v`: decode with `UseNumber` (repeated keys, possible inside
`custom`, keep the last), then print canonically. -/
def canonical (j : Json) : Res Bytes :=
  match (Json.toAny some j).bind Json.canon with
  | some b => .ok b
  | none => .err (.other "cjson")

/-- `cjson.EncodeCanonical(meta.Signed)`, `metadata.go:208, 325, 335, 345, 355`. -/
def payload {T : Type} [RoleType T] (signed : T) : Res Bytes := RoleType.marshal signed >>= canonical

end Tuf
