import Verif.Model.Keys

/-!
# metadata/metadata.go

Pointers to metadata that the caller passes are taken to be non-nil, and distinct map entries and slices are taken not to alias
each other (they never do in metadata decoded from JSON). Logging is left out.
-/

namespace Tuf

/-! ## Constructors -/

/-- An empty role of threshold 1, `metadata.go:48-51`. -/
def newRole : Role := { keyIDs := some [], threshold := 1 }

/-- `Root`, `metadata.go:40-66`; the default expiry `time.Now()` is the argument. -/
def newRoot (expires : Time) : Metadata RootType where
  signed :=
    { type := ROOT
      specVersion := SPECIFICATION_VERSION
      version := 1
      expires := expires
      keys := some []
      roles := some [(ROOT, some newRole), (SNAPSHOT, some newRole), (TARGETS, some newRole), (TIMESTAMP, some newRole)]
      consistentSnapshot := true }
  signatures := some []

/-- `Snapshot`, `metadata.go:69-89`. -/
def newSnapshot (expires : Time) : Metadata SnapshotType where
  signed :=
    { type := SNAPSHOT
      specVersion := SPECIFICATION_VERSION
      version := 1
      expires := expires
      metas := some [(b!"targets.json", some { version := 1 })] }
  signatures := some []

/-- `Timestamp`, `metadata.go:92-112`. -/
def newTimestamp (expires : Time) : Metadata TimestampType where
  signed :=
    { type := TIMESTAMP
      specVersion := SPECIFICATION_VERSION
      version := 1
      expires := expires
      metas := some [(b!"snapshot.json", some { version := 1 })] }
  signatures := some []

/-- `Targets`, `metadata.go:115-131`. -/
def newTargets (expires : Time) : Metadata TargetsType where
  signed :=
    { type := TARGETS
      specVersion := SPECIFICATION_VERSION
      version := 1
      expires := expires
      targets := some [] }
  signatures := some []

/-- `TargetFile`, `metadata.go:134-139`. -/
def newTargetFile : TargetFiles := { length := 0, hashes := some [] }

/-- `MetaFile`, `metadata.go:142-153`. -/
def newMetaFile (version : Int) : MetaFiles :=
  { length := 0, hashes := some [], version := if version < 1 then 1 else version }

/-! ## Parsing and serialising -/

/-- `checkType`, `metadata.go:878-907`; the failed type assertions at line 884 panic. -/
def checkType (env : Env) (want : Str) (data : Bytes) : Res Unit := do
  let j ← Res.ofOption jsonErr (env.parse data)
  let m ← decAnyMap env j
  match Entries.get? m b!"signed" with
  | some (.obj signed) =>
    match Entries.get? signed b!"_type" with
    | some (.str signedType) =>
      if want ≠ signedType then .err (.value "unexpected metadata type") else .ok ()
    | _ => .panic
  | _ => .panic

/-- The loop of `checkUniqueSignatures`, `metadata.go:868-873`, with the key IDs seen so far. -/
def checkUnique : List Str → List Signature → Res Unit
  | _, [] => .ok ()
  | seen, s :: r => if s.keyID ∈ seen then .err (.value "multiple signatures for key ID") else checkUnique (s.keyID :: seen) r

/-- `checkUniqueSignatures`, `metadata.go:866-875`. -/
def checkUniqueSignatures {T : Type} (m : Metadata T) : Res Unit := checkUnique [] m.signatures.elems

/-- `fromBytes`, `metadata.go:848-863`; also `FromBytes`, `metadata.go:176-184`, which returns the same value. -/
def fromBytes {T : Type} [RoleType T] (env : Env) (data : Bytes) : Res (Metadata T) := do
  checkType env (RoleType.typeName T) data
  let j ← Res.ofOption jsonErr (env.parse data)
  let m ← Metadata.unmarshal env j
  checkUniqueSignatures m
  .ok m

/-- `ToBytes`, `metadata.go:187-193`. -/
def toBytes {T : Type} [RoleType T] (env : Env) (m : Metadata T) (pretty : Bool) : Res Bytes := do
  let j ← m.marshal
  .ok (env.print pretty j)

/-- `ClearSignatures`, `metadata.go:500-503`. -/
def clearSignatures {T : Type} (m : Metadata T) : Metadata T := { m with signatures := some [] }

/-! ## Signing -/

/-- sigstore's `signature.Signer`: `SignMessage` and `PublicKey`; `none` is an error. -/
structure Signer where
  signMessage : Bytes → Option Bytes
  publicKey : Option PublicKey

/-- `Sign`, `metadata.go:206-237`: the returned signature and the metadata afterwards. -/
def sign {T : Type} [RoleType T] (env : Env) (m : Metadata T) (s : Signer) : Res (Signature × Metadata T) := do
  let p ← payload m.signed
  let sb ← Res.ofOption (.unsignedMetadata "problem signing metadata") (s.signMessage p)
  let publ ← Res.ofOption (.other "signer") s.publicKey
  let key ← keyFromPublicKey env publ
  let (id, _) ← key.ID env
  let sig : Signature := { keyID := id, sig := sb }
  .ok (sig, { m with signatures := some (m.signatures.elems ++ [sig]) })

/-! ## Verification -/

/-- What a delegator says about a role: key map, key IDs, threshold. `metadata.go:251-288`. -/
def delegationOf (delegator : AnyMeta) (role : Str) : Res (GoMap (Option Key) × List Str × Int) :=
  match delegator with
  | .root m =>
    match m.signed.roles.get? role with
    | some r => do
      let r ← Res.deref r
      .ok (m.signed.keys, r.keyIDs.elems, r.threshold)
    | none => .err (.value "no delegation found")
  | .targets m =>
    match m.signed.delegations with
    | none => .err (.value "no delegations found")
    | some d =>
      match d.roles with
      | some rs =>
        match rs.find? (fun v => v.name = role) with
        | some v => .ok (d.keys, v.keyIDs.elems, v.threshold)
        | none => .err (.value "no delegation found")
      | none =>
        match d.succinctRoles with
        | some s => .ok (d.keys, s.keyIDs.elems, s.threshold)
        | none => .ok (d.keys, [], 0)
  | _ => .err (.type "call is valid only on delegator metadata")

/-- Signatures of the delegated metadata. -/
def AnyMeta.signatures : AnyMeta → List Signature
  | .root m => m.signatures.elems
  | .snapshot m => m.signatures.elems
  | .timestamp m => m.signatures.elems
  | .targets m => m.signatures.elems
  | .other => []

/-- Payload of the delegated metadata; the `default` case of `metadata.go:359-361`. -/
def AnyMeta.payload : AnyMeta → Res Bytes
  | .root m => Tuf.payload m.signed
  | .snapshot m => Tuf.payload m.signed
  | .timestamp m => Tuf.payload m.signed
  | .targets m => Tuf.payload m.signed
  | .other => .err (.type "unknown delegated metadata type")

/-- `metadata.go:299, 320-324`: the last signature with the key ID, else the zero signature. -/
def pickSignature (keyID : Str) (sigs : List Signature) : Signature :=
  sigs.foldl (fun sign s => if s.keyID = keyID then s else sign) {}

/-- `metadata.go:307-310`. -/
def hashFor (k : Key) : HashFn := if k.type ≠ KeyTypeEd25519 then .sha256 else .none

/-- One iteration of the loop `metadata.go:294-371`: whether the signature of `keyID` verifies. -/
def verifyWithKey (env : Env) (keys : GoMap (Option Key)) (d : AnyMeta) (keyID : Str) : Res Bool :=
  match keys.get? keyID with
  | none => .err (.value "key not found")
  | some key => do
    let key ← Res.deref key
    let publicKey ← key.toPublicKey env
    if env.loadVerifier publicKey (hashFor key) = false then .err (.other "verifier")
    else do
      let payload ← d.payload
      match env.verifySig publicKey (hashFor key) (pickSignature keyID d.signatures).sig payload with
      | .ok _ => .ok true
      | .err _ => .ok false
      | .panic => .panic

/-- The loop `metadata.go:294-371`; `acc` holds the key IDs in `signingKeys`, without repetition. -/
def verifyLoop (env : Env) (keys : GoMap (Option Key)) (d : AnyMeta) : List Str → List Str → Res (List Str)
  | [], acc => .ok acc
  | keyID :: r, acc => do
    let good ← verifyWithKey env keys d keyID
    verifyLoop env keys d r (if good ∧ keyID ∉ acc then keyID :: acc else acc)

/-- `VerifyDelegate`, `metadata.go:241-379`. -/
def verifyDelegate (env : Env) (delegator : AnyMeta) (role : Str) (d : AnyMeta) : Res Unit := do
  let (keys, keyIDs, threshold) ← delegationOf delegator role
  if keyIDs = [] then .err (.value "no delegation found")
  else do
    let signingKeys ← verifyLoop env keys d keyIDs []
    if (signingKeys.length : Int) < threshold then .err (.unsignedMetadata "not enough signatures")
    else .ok ()

/-- `IsExpired`, `metadata.go:383-403`: `referenceTime.After(signed.Expires)`. -/
def isExpired (expires ref : Time) : Bool := decide (expires.instant < ref.instant)

/-! ## Lengths and hashes -/

/-- Digest by algorithm name, `metadata.go:830-837` and `481-488`. -/
def digestOf (env : Env) (alg : Str) (data : Bytes) : Option Bytes :=
  if alg = b!"sha256" then some (env.sha256 data)
  else if alg = b!"sha512" then some (env.sha512 data)
  else none

/-- `verifyLength`, `metadata.go:815-824`. -/
def verifyLength (data : Bytes) (length : Int) : Res Unit :=
  if length ≠ (data.length : Int) then .err (.lengthOrHashMismatch "length") else .ok ()

/-- `verifyHashes`, `metadata.go:827-844`; hex strings are compared. -/
def verifyHashes (env : Env) (data : Bytes) : Entries Bytes → Res Unit
  | [] => .ok ()
  | (k, v) :: r =>
    match digestOf env k data with
    | none => .err (.lengthOrHashMismatch "unknown hashing algorithm")
    | some d => if hexEncode v ≠ hexEncode d then .err (.lengthOrHashMismatch "hash") else verifyHashes env data r

/-- `MetaFiles.VerifyLengthHashes`, `metadata.go:407-422`. -/
def MetaFiles.verifyLengthHashes (env : Env) (f : MetaFiles) (data : Bytes) : Res Unit := do
  if f.hashes.entries.length > 0 then verifyHashes env data f.hashes.entries
  if f.length ≠ 0 then verifyLength data f.length

/-- `TargetFiles.VerifyLengthHashes`, `metadata.go:426-436`. -/
def TargetFiles.verifyLengthHashes (env : Env) (f : TargetFiles) (data : Bytes) : Res Unit := do
  verifyHashes env data f.hashes.entries
  verifyLength data f.length

/-- The loop of `Hashes.Equal`, `metadata.go:801-810`. -/
def hashesEqualLoop (source : Hashes) : Entries Bytes → Bool → Bool
  | [], checked => checked
  | (typ, hash) :: r, checked =>
    match source.get? typ with
    | some h => if hmacEqual h hash then hashesEqualLoop source r true else false
    | none => hashesEqualLoop source r checked

/-- `Hashes.Equal`, `metadata.go:799-812`. -/
def hashesEqual (source expected : Hashes) : Bool := hashesEqualLoop source expected.entries false

/-- `TargetFiles.Equal`, `metadata.go:439-444`. -/
def TargetFiles.equal (source expected : TargetFiles) : Bool :=
  decide (source.length = expected.length) && hashesEqual source.hashes expected.hashes

/-- The loop of `TargetFiles.FromBytes`, `metadata.go:480-494`. -/
def hashAll (env : Env) (data : Bytes) : List Str → Entries Bytes → Res (Entries Bytes)
  | [], acc => .ok acc
  | a :: r, acc =>
    match digestOf env a data with
    | none => .err (.value "unsupported hashing algorithm")
    | some d => hashAll env data r (acc.set a d)

/-- `TargetFiles.FromBytes`, `metadata.go:464-497`. -/
def targetFileFromBytes (env : Env) (localPath : Str) (data : Bytes) (hashes : List Str) : Res TargetFiles := do
  let hs ← hashAll env data (if hashes.length = 0 then [b!"sha256"] else hashes) []
  .ok { length := (data.length : Int), hashes := some hs, path := localPath }

/-! ## Delegated paths -/

/-- The loop of `isTargetInPathPattern`, `metadata.go:541-545`: parts pairwise; a bad pattern does not match. -/
def matchParts (env : Env) : List Str → List Str → Bool
  | t :: ts, p :: ps => if env.glob p t = some true then matchParts env ts ps else false
  | _, _ => true

/-- `isTargetInPathPattern`, `metadata.go:530-548`. -/
def isTargetInPathPattern (env : Env) (targetpath pathpattern : Str) : Bool :=
  let targetParts := splitOn 47 targetpath
  let patternParts := splitOn 47 pathpattern
  if targetParts.length ≠ patternParts.length then false else matchParts env targetParts patternParts

/-- `DelegatedRole.IsDelegatedPath`, `metadata.go:507-527` (it never returns an error). -/
def DelegatedRole.isDelegatedPath (env : Env) (role : DelegatedRole) (targetFilepath : Str) : Bool :=
  if role.paths.elems.length > 0 then
    role.paths.elems.any (fun p => isTargetInPathPattern env targetFilepath p)
  else if role.pathHashPrefixes.elems.length > 0 then
    role.pathHashPrefixes.elems.any (fun p => hasPrefix (b64Encode (env.sha256 targetFilepath)) p)
  else false

/-- `binary.BigEndian.Uint32` of the first four bytes; fewer than four panic. -/
def bigEndian32 : Bytes → Res Nat
  | a :: b :: c :: d :: _ => .ok (((a.toNat * 256 + b.toNat) * 256 + c.toNat) * 256 + d.toNat)
  | _ => .panic

/-- `len(strconv.FormatInt(int64(math.Pow(2, b) - 1), 16))` as computed at `metadata.go:578-581` in float64, for `b ≤ 32`: for
negative `b` the float64 difference is strictly above -1 down to `b = -53` (truncated to 0), and exactly -1 below. -/
def suffixLenForTarget (bitLength : Int) : Nat :=
  if 0 ≤ bitLength then (formatInt 16 ((2 : Int) ^ bitLength.toNat - 1)).length
  else if -53 ≤ bitLength then (formatInt 16 0).length
  else (formatInt 16 (-1)).length

/-- `SuccinctRoles.GetRolesForTarget`, `metadata.go:573-596`; a negative shift count panics. -/
def SuccinctRoles.getRolesForTarget (env : Env) (r : SuccinctRoles) (targetFilepath : Str) : Res (Entries Bool) := do
  let h ← bigEndian32 (env.sha256 targetFilepath)
  let shiftValue := wrap64 (32 - r.bitLength)
  if shiftValue < 0 then .panic
  else
    let binNumber := h / 2 ^ shiftValue.toNat
    let suffix := padHex (suffixLenForTarget r.bitLength) binNumber
    .ok [(r.namePrefix ++ b!"-" ++ suffix, true)]

/-- `int(math.Pow(2, float64(b)))` at `metadata.go:611`: 0 for negative `b`; from `b = 63` on the conversion overflows, which
gives the smallest int64 on amd64. -/
def numberOfBins (bitLength : Int) : Int :=
  if bitLength < 0 then 0
  else if bitLength < 63 then (2 : Int) ^ bitLength.toNat
  else -(2 ^ 63)

/-- `GetSuffixLen`, `metadata.go:610-613`. -/
def SuccinctRoles.getSuffixLen (r : SuccinctRoles) : Nat × Int :=
  let n := numberOfBins r.bitLength
  ((formatInt 16 (wrap64 (n - 1))).length, n)

/-- `GetRoles`, `metadata.go:599-608`. -/
def SuccinctRoles.getRoles (r : SuccinctRoles) : List Str :=
  let (suffixLen, n) := r.getSuffixLen
  (List.range n.toNat).map (fun bin => r.namePrefix ++ b!"-" ++ padHex suffixLen bin)

/-- `SuccinctRoles.IsDelegatedRole`, `metadata.go:617-641`. -/
def SuccinctRoles.isDelegatedRole (r : SuccinctRoles) (roleName : Str) : Bool :=
  let (suffixLen, n) := r.getSuffixLen
  let expectedPrefix := r.namePrefix ++ b!"-"
  if hasPrefix roleName expectedPrefix = false then false
  else
    let suffix := roleName.drop expectedPrefix.length
    if suffix.length ≠ suffixLen then false
    else match parseInt16 suffix with
      | none => false
      | some value => decide (0 ≤ value) && decide (value < n)

/-- The loop `metadata.go:556-561`. -/
def rolesForTarget (env : Env) (targetFilepath : Str) : List DelegatedRole → Entries Bool → Entries Bool
  | [], res => res
  | r :: rs, res =>
    rolesForTarget env targetFilepath rs
      (if r.isDelegatedPath env targetFilepath then res.set r.name r.terminating else res)

/-- `Delegations.GetRolesForTarget`, `metadata.go:552-567`. The result is a Go map: its iteration order is not the
order of the entries here. -/
def Delegations.getRolesForTarget (env : Env) (d : Delegations) (targetFilepath : Str) : Res (Entries Bool) :=
  match d.roles with
  | some rs => .ok (rolesForTarget env targetFilepath rs [])
  | none => match d.succinctRoles with
    | some s => s.getRolesForTarget env targetFilepath
    | none => .ok []

/-! ## Key management

These methods modify the receiver; the result pairs the outcome with the receiver afterwards (also after a panic). -/

/-- `RootType.AddKey`, `metadata.go:647-659`. -/
def RootType.addKey (env : Env) (s : RootType) (key : Key) (role : Str) : Res Unit × RootType :=
  match s.roles.get? role with
  | none => (.err (.value "role doesn't exist"), s)
  | some none => (.panic, s)
  | some (some r) =>
    match key.ID env with
    | .ok (id, key) =>
      let r' := if id ∈ r.keyIDs.elems then r else { r with keyIDs := some (r.keyIDs.elems ++ [id]) }
      let s' := { s with roles := s.roles.map (fun es => es.set role (some r')) }
      match s.keys.set id (some key) with
      | .ok ks => (.ok (), { s' with keys := ks })
      | _ => (.panic, s')
    | _ => (.panic, s)

/-- The loop `metadata.go:683-687`: `true` if some role lists the key ID; a nil role panics. -/
def anyRoleLists (keyID : Str) : Entries (Option Role) → Res Bool
  | [] => .ok false
  | (_, none) :: _ => .panic
  | (_, some r) :: rest => if keyID ∈ r.keyIDs.elems then .ok true else anyRoleLists keyID rest

/-- `RootType.RevokeKey`, `metadata.go:664-691`. -/
def RootType.revokeKey (s : RootType) (keyID role : Str) : Res Unit × RootType :=
  match s.roles.get? role with
  | none => (.err (.value "role doesn't exist"), s)
  | some none => (.panic, s)
  | some (some r) =>
    if keyID ∈ r.keyIDs.elems then
      let r' := { r with keyIDs := some (r.keyIDs.elems.filter (fun k => k ≠ keyID)) }
      let s' := { s with roles := s.roles.map (fun es => es.set role (some r')) }
      match anyRoleLists keyID s'.roles.entries with
      | .ok true => (.ok (), s')
      | .ok false => (.ok (), { s' with keys := s'.keys.del keyID })
      | _ => (.panic, s')
    else (.err (.value "key is not used by role"), s)

/-- The loop `metadata.go:706-718` over the delegated roles: the roles afterwards, whether the role was found and whether the
key ID was added (which ends the loop). -/
def addToRole (role id : Str) : List DelegatedRole → List DelegatedRole × Bool × Bool
  | [] => ([], false, false)
  | d :: ds =>
    if d.name = role then
      if id ∈ d.keyIDs.elems then
        match addToRole role id ds with
        | (ds', _, added) => (d :: ds', true, added)
      else ({ d with keyIDs := some (d.keyIDs.elems ++ [id]) } :: ds, true, true)
    else match addToRole role id ds with
      | (ds', found, added) => (d :: ds', found, added)

/-- `TargetsType.AddKey`, `metadata.go:697-734`. In every successful branch the key is stored in `Delegations.Keys`. -/
def TargetsType.addKey (env : Env) (s : TargetsType) (key : Key) (role : Str) : Res Unit × TargetsType :=
  match s.delegations with
  | none => (.err (.value "delegated role doesn't exist"), s)
  | some d =>
    let store (d : Delegations) (id : Str) (key : Key) : Res Unit × TargetsType :=
      match d.keys.set id (some key) with
      | .ok ks => (.ok (), { s with delegations := some { d with keys := ks } })
      | _ => (.panic, { s with delegations := some d })
    match d.roles with
    | some rs =>
      if rs.any (fun r => r.name = role) then
        match key.ID env with
        | .ok (id, key) => store { d with roles := some (addToRole role id rs).1 } id key
        | _ => (.panic, s)
      else (.err (.value "delegated role doesn't exist"), s)
    | none =>
      match key.ID env with
      | .ok (id, key) =>
        match d.succinctRoles with
        | some sr =>
          let sr' := if id ∈ sr.keyIDs.elems then sr else { sr with keyIDs := some (sr.keyIDs.elems ++ [id]) }
          store { d with succinctRoles := some sr' } id key
        | none => store d id key
      | _ => (.panic, s)

/-- Remove the key ID from the first role of that name (`metadata.go:747-762`); `none` if there is no such role. -/
def revokeFromRole (role keyID : Str) : List DelegatedRole → Option (Res (List DelegatedRole))
  | [] => none
  | d :: ds =>
    if d.name = role then
      if keyID ∈ d.keyIDs.elems then
        some (.ok ({ d with keyIDs := some (d.keyIDs.elems.filter (fun k => k ≠ keyID)) } :: ds))
      else some (.err (.value "key is not used by role"))
    else (revokeFromRole role keyID ds).map (fun r => r.map (fun ds' => d :: ds'))

/-- `TargetsType.RevokeKey`, `metadata.go:739-796`. -/
def TargetsType.revokeKey (s : TargetsType) (keyID role : Str) : Res Unit × TargetsType :=
  match s.delegations with
  | none => (.err (.value "delegated role doesn't exist"), s)
  | some d =>
    match d.roles with
    | some rs =>
      match revokeFromRole role keyID rs with
      | none => (.err (.value "delegated role doesn't exist"), s)
      | some (.ok rs') =>
        let d' := { d with roles := some rs' }
        if rs'.any (fun r => decide (keyID ∈ r.keyIDs.elems)) then (.ok (), { s with delegations := some d' })
        else (.ok (), { s with delegations := some { d' with keys := d'.keys.del keyID } })
      | some (.err e) => (.err e, s)
      | some .panic => (.panic, s)
    | none =>
      match d.succinctRoles with
      | some sr =>
        if keyID ∈ sr.keyIDs.elems then
          let sr' := { sr with keyIDs := some (sr.keyIDs.elems.filter (fun k => k ≠ keyID)) }
          (.ok (), { s with delegations := some { d with succinctRoles := some sr', keys := d.keys.del keyID } })
        else (.err (.value "key is not used by SuccinctRoles"), s)
      | none => (.err (.value "delegated role doesn't exist"), s)

end Tuf
