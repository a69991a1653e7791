import Verif.Model.Metadata
import Verif.Model.Errors

/-! # metadata/trustedmetadata/trustedmetadata.go

Each method returns its outcome together with the trusted set afterwards; assignments made before an error or panic are kept. -/

namespace Tuf

/-- `TrustedMetadata`, `trustedmetadata.go:22-28`. `Root` is never nil after `New`. -/
structure Trusted where
  root : Metadata RootType
  snapshot : Option (Metadata SnapshotType) := none
  timestamp : Option (Metadata TimestampType) := none
  targets : Entries (Metadata TargetsType) := []
  refTime : Time

/-- `fmt.Sprintf("%s.json", role)`. -/
def jsonName (role : Str) : Str := role ++ b!".json"

/-- `loadTrustedRoot`, `trustedmetadata.go:330-351`. -/
def loadTrustedRoot (env : Env) (rootData : Bytes) : Res (Metadata RootType) := do
  let newRoot ← fromBytes (T := RootType) env rootData
  if newRoot.signed.type ≠ ROOT then .err (.repository "expected root")
  else do
    verifyDelegate env (.root newRoot) ROOT (.root newRoot)
    .ok newRoot

/-- `New`, `trustedmetadata.go:34-46`; `now` is `time.Now().UTC()`. -/
def Trusted.new (env : Env) (now : Time) (rootData : Bytes) : Res Trusted := do
  let root ← loadTrustedRoot env rootData
  .ok { root := root, refTime := now }

/-- The checks of `UpdateRoot`, `trustedmetadata.go:54-80`. -/
def Trusted.checkRoot (env : Env) (t : Trusted) (rootData : Bytes) : Res (Metadata RootType) :=
  if t.timestamp.isSome then .err (.runtime "cannot update root after timestamp")
  else do
    let newRoot ← fromBytes (T := RootType) env rootData
    if newRoot.signed.type ≠ ROOT then .err (.repository "expected root")
    else do
      verifyDelegate env (.root t.root) ROOT (.root newRoot)
      if newRoot.signed.version ≠ wrap64 (t.root.signed.version + 1) then .err (.badVersionNumber "root")
      else do
        verifyDelegate env (.root newRoot) ROOT (.root newRoot)
        .ok newRoot

/-- `UpdateRoot`, `trustedmetadata.go:51-85`. -/
def Trusted.updateRoot (env : Env) (t : Trusted) (rootData : Bytes) : Res (Metadata RootType) × Trusted :=
  match t.checkRoot env rootData with
  | .ok newRoot => (.ok newRoot, { t with root := newRoot })
  | .err e => (.err e, t)
  | .panic => (.panic, t)

/-- `checkFinalTimestamp`, `trustedmetadata.go:154-159`; a nil timestamp would panic. -/
def Trusted.checkFinalTimestamp (t : Trusted) : Res Unit := do
  let ts ← Res.deref t.timestamp
  if isExpired ts.signed.expires t.refTime then .err (.expiredMetadata "timestamp.json is expired") else .ok ()

/-- The rollback checks of `UpdateTimestamp`, `trustedmetadata.go:121-137`; nil meta entries panic. -/
def checkTimestampRollback (old new : TimestampType) : Res Unit :=
  if new.version < old.version then .err (.badVersionNumber "timestamp")
  else if new.version = old.version then .err (.equalVersionNumber "timestamp")
  else do
    let newSnapshotMeta ← Res.deref (new.metas.ptr (jsonName SNAPSHOT))
    let snapshotMeta ← Res.deref (old.metas.ptr (jsonName SNAPSHOT))
    if newSnapshotMeta.version < snapshotMeta.version then .err (.badVersionNumber "snapshot") else .ok ()

/-- The checks of `UpdateTimestamp` before the assignment, `trustedmetadata.go:96-137`. -/
def Trusted.checkTimestamp (env : Env) (t : Trusted) (data : Bytes) : Res (Metadata TimestampType) :=
  if t.snapshot.isSome then .err (.runtime "cannot update timestamp after snapshot")
  else if isExpired t.root.signed.expires t.refTime then .err (.expiredMetadata "final root.json is expired")
  else do
    let new ← fromBytes (T := TimestampType) env data
    if new.signed.type ≠ TIMESTAMP then .err (.repository "expected timestamp")
    else do
      verifyDelegate env (.root t.root) TIMESTAMP (.timestamp new)
      match t.timestamp with
      | none => .ok new
      | some old => do
        checkTimestampRollback old.signed new.signed
        .ok new

/-- `UpdateTimestamp`, `trustedmetadata.go:93-151`. -/
def Trusted.updateTimestamp (env : Env) (t : Trusted) (data : Bytes) : Res (Metadata TimestampType) × Trusted :=
  match t.checkTimestamp env data with
  | .ok new =>
    let t' := { t with timestamp := some new }
    match t'.checkFinalTimestamp with
    | .ok _ => (.ok new, t')
    | .err e => (.err e, t')
    | .panic => (.panic, t')
  | .err e => (.err e, t)
  | .panic => (.panic, t)

/-- `checkFinalSnapshot`, `trustedmetadata.go:241-250`; nil values panic. -/
def Trusted.checkFinalSnapshot (t : Trusted) : Res Unit := do
  let sn ← Res.deref t.snapshot
  if isExpired sn.signed.expires t.refTime then .err (.expiredMetadata "snapshot.json is expired")
  else do
    let ts ← Res.deref t.timestamp
    let snapshotMeta ← Res.deref (ts.signed.metas.ptr (jsonName SNAPSHOT))
    if sn.signed.version ≠ snapshotMeta.version then .err (.badVersionNumber "snapshot") else .ok ()

/-- The rollback loop of `UpdateSnapshot`, `trustedmetadata.go:213-223`; nil entries panic. The loop ranges over a map; which of several
failing entries is reported depends on the iteration order, here the list order. -/
def checkSnapshotRollback (new : GoMap (Option MetaFiles)) : Entries (Option MetaFiles) → Res Unit
  | [] => .ok ()
  | (name, info) :: r =>
    match new.get? name with
    | none => .err (.repository "new snapshot is missing info")
    | some newFileInfo => do
      let n ← Res.deref newFileInfo
      let o ← Res.deref info
      if n.version < o.version then .err (.badVersionNumber "snapshot meta") else checkSnapshotRollback new r

/-- The checks of `UpdateSnapshot` before the assignment, `trustedmetadata.go:172-224`. -/
def Trusted.checkSnapshot (env : Env) (t : Trusted) (data : Bytes) (isTrusted : Bool) : Res (Metadata SnapshotType) :=
  match t.timestamp with
  | none => .err (.runtime "cannot update snapshot before timestamp")
  | some ts =>
    if (t.targets.get? TARGETS).isSome then .err (.runtime "cannot update snapshot after targets")
    else do
      t.checkFinalTimestamp
      if isTrusted = false then do
        let snapshotMeta ← Res.deref (ts.signed.metas.ptr (jsonName SNAPSHOT))
        snapshotMeta.verifyLengthHashes env data
      let new ← fromBytes (T := SnapshotType) env data
      if new.signed.type ≠ SNAPSHOT then .err (.repository "expected snapshot")
      else do
        verifyDelegate env (.root t.root) SNAPSHOT (.snapshot new)
        match t.snapshot with
        | none => .ok new
        | some old => do
          checkSnapshotRollback new.signed.metas old.signed.metas.entries
          .ok new

/-- `UpdateSnapshot`, `trustedmetadata.go:169-238`. -/
def Trusted.updateSnapshot (env : Env) (t : Trusted) (data : Bytes) (isTrusted : Bool) :
    Res (Metadata SnapshotType) × Trusted :=
  match t.checkSnapshot env data isTrusted with
  | .ok new =>
    let t' := { t with snapshot := some new }
    match t'.checkFinalSnapshot with
    | .ok _ => (.ok new, t')
    | .err e => (.err e, t')
    | .panic => (.panic, t')
  | .err e => (.err e, t)
  | .panic => (.panic, t)

/-- The delegator metadata, `trustedmetadata.go:272-283, 303-309`. -/
def Trusted.delegator (t : Trusted) (delegatorName : Str) : Option AnyMeta :=
  if delegatorName = ROOT then some (.root t.root)
  else (t.targets.get? delegatorName).map .targets

/-- The checks of `UpdateDelegatedTargets`, `trustedmetadata.go:262-321`. -/
def Trusted.checkTargets (env : Env) (t : Trusted) (data : Bytes) (roleName delegatorName : Str) :
    Res (Metadata TargetsType) :=
  match t.snapshot with
  | none => .err (.runtime "cannot load targets before snapshot")
  | some sn => do
    t.checkFinalSnapshot
    match t.delegator delegatorName with
    | none => .err (.runtime "cannot load targets before delegator")
    | some delegator =>
      match sn.signed.metas.get? (jsonName roleName) with
      | none => .err (.repository "snapshot does not contain information")
      | some m => do
        let m ← Res.deref m
        m.verifyLengthHashes env data
        let new ← fromBytes (T := TargetsType) env data
        if new.signed.type ≠ TARGETS then .err (.repository "expected targets")
        else do
          verifyDelegate env delegator roleName (.targets new)
          if new.signed.version ≠ m.version then .err (.badVersionNumber "targets")
          else if isExpired new.signed.expires t.refTime then .err (.expiredMetadata "targets is expired")
          else .ok new

/-- `UpdateDelegatedTargets`, `trustedmetadata.go:258-325`. -/
def Trusted.updateDelegatedTargets (env : Env) (t : Trusted) (data : Bytes) (roleName delegatorName : Str) :
    Res (Metadata TargetsType) × Trusted :=
  match t.checkTargets env data roleName delegatorName with
  | .ok new => (.ok new, { t with targets := t.targets.set roleName new })
  | .err e => (.err e, t)
  | .panic => (.panic, t)

/-- `UpdateTargets`, `trustedmetadata.go:253-255`. -/
def Trusted.updateTargets (env : Env) (t : Trusted) (data : Bytes) : Res (Metadata TargetsType) × Trusted :=
  t.updateDelegatedTargets env data TARGETS ROOT

end Tuf
