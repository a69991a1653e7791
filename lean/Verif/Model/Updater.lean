import Verif.Model.World

/-! # metadata/updater/updater.go -/

namespace Tuf

/-- `ensureTrailingSlash`, `updater.go:646-651`. -/
def ensureTrailingSlash (url : Str) : Str := if hasSuffix url b!"/" then url else url ++ b!"/"

/-- The URL of a metadata file, `updater.go:610-616`. -/
def metadataURL (base : Str) (roleName version : Str) : Str :=
  if version = [] then ensureTrailingSlash base ++ queryEscape roleName ++ b!".json"
  else ensureTrailingSlash base ++ version ++ b!"." ++ queryEscape roleName ++ b!".json"

/-- `downloadMetadata`, `updater.go:609-618`. -/
def downloadMetadata (x : Ctx) (roleName : Str) (length : Int) (version : Str) : W Bytes :=
  doFetch x.host (metadataURL x.cfg.remoteMetadataURL roleName version) length

/-- The file that `persistMetadata` writes for a role, `updater.go:580`. -/
def persistPath (cfg : Cfg) (roleName : Str) : Str := joinPath cfg.localMetadataDir (queryEscape roleName ++ b!".json")

/-- The file that is read for a role: `loadLocalMetadata(filepath.Join(dir, role))`, `updater.go:295, 343, 409, 631-633`. -/
def localPath (cfg : Cfg) (roleName : Str) : Str := joinPath cfg.localMetadataDir roleName ++ b!".json"

/-- `persistMetadata`, `updater.go:573-606`. -/
def persistMetadata (x : Ctx) (roleName : Str) (data : Bytes) : W Unit :=
  if x.cfg.disableLocalCache then pure ()
  else do
    let file ← createTemp x.host
    match ← SM.try' (writeFile x.host file data) with
    | .error e => do
      removeFile x.host file
      SM.throw e
    | .ok _ => renameFile x.host file (persistPath x.cfg roleName)

/-- `loadLocalMetadata`, `updater.go:631-633`. -/
def loadLocalMetadata (x : Ctx) (roleName : Str) : W Bytes := readFile x.host (localPath x.cfg roleName)

/-- `EnsurePathsExist`, `config/config.go:71-83`. -/
def ensurePathsExist (x : Ctx) : W Unit :=
  if x.cfg.disableLocalCache then pure ()
  else do
    mkdirAll x.host x.cfg.localMetadataDir
    mkdirAll x.host x.cfg.localTargetsDir

/-- `New`, `updater.go:65-92`. On success the result is the trusted set of the new updater. -/
def newUpdater (x : Ctx) : W Trusted := fun w =>
  if x.cfg.localTrustedRoot = [] ∨ x.cfg.remoteMetadataURL = [] then (.err (.other "no trusted root or URL"), w)
  else match Trusted.new x.env (x.host.now w.trace) x.cfg.localTrustedRoot with
    | .ok t => (do
        ensurePathsExist x
        persistMetadata x ROOT x.cfg.localTrustedRoot
        pure t) w
    | .err e => (.err e, w)
    | .panic => (.panic, w)

/-- The loop of `loadRoot`, `updater.go:475-502`, with `n` rounds left. -/
def loadRootLoop (x : Ctx) : Nat → Int → M Unit
  | 0, _ => pure ()
  | n + 1, nextVersion => do
    match ← SM.try' (onWorld (downloadMetadata x ROOT x.cfg.rootMaxLength (formatInt 10 nextVersion))) with
    | .error (.downloadHTTP status url) =>
      if status ≠ 404 ∧ status ≠ 403 then SM.throw (.downloadHTTP status url) else pure ()
    | .error e => SM.throw e
    | .ok data => do
      let _ ← onTrusted (fun t => t.updateRoot x.env data)
      onWorld (persistMetadata x ROOT data)
      loadRootLoop x n (nextVersion + 1)

/-- `loadRoot`, `updater.go:469-504`. -/
def loadRoot (x : Ctx) : M Unit := do
  let t ← getTrusted
  let lowerBound := wrap64 (t.root.signed.version + 1)
  let upperBound := wrap64 (lowerBound + x.cfg.maxRootRotations)
  loadRootLoop x (upperBound - lowerBound).toNat lowerBound

/-- Load a local file if it is there (`updater.go:295-313` etc.): `none` if it cannot be read, is refused with a
repository error; other errors are returned. -/
def tryLocal {α : Type} (x : Ctx) (roleName : Str) (update : Bytes → Trusted → Res α × Trusted) : M (Option α) := do
  match ← SM.try' (onWorld (loadLocalMetadata x roleName)) with
  | .error _ => pure none
  | .ok data =>
    match ← SM.try' (onTrusted (update data)) with
    | .ok a => pure (some a)
    | .error e => if e.isRepository then pure none else SM.throw e

/-- `loadTimestamp`, `updater.go:292-337`. -/
def loadTimestamp (x : Ctx) : M Unit := do
  let _ ← tryLocal x TIMESTAMP (fun data t => t.updateTimestamp x.env data)
  let data ← onWorld (downloadMetadata x TIMESTAMP x.cfg.timestampMaxLength [])
  match ← SM.try' (onTrusted (fun t => t.updateTimestamp x.env data)) with
  | .error e => if e.isEqualVersion then pure () else SM.throw e
  | .ok _ => onWorld (persistMetadata x TIMESTAMP data)

/-- `updater.go:373-376, 439-442`. -/
def metaLength (m : MetaFiles) (dflt : Int) : Int := if m.length = 0 then dflt else m.length

/-- `updater.go:378-381, 444-447`. -/
def metaVersion (t : Trusted) (m : MetaFiles) : Str :=
  if t.root.signed.consistentSnapshot then formatInt 10 m.version else []

/-- `loadSnapshot`, `updater.go:340-398`; a missing snapshot entry in the timestamp panics at line 373. -/
def loadSnapshot (x : Ctx) : M Unit := do
  match ← tryLocal x SNAPSHOT (fun data t => t.updateSnapshot x.env data true) with
  | some _ => pure ()
  | none =>
    let t ← getTrusted
    match t.timestamp with
    | none => SM.throw (.other "trusted timestamp not set")
    | some ts => do
      let snapshotMeta ← SM.lift (Res.deref (ts.signed.metas.ptr (jsonName SNAPSHOT)))
      let data ← onWorld (downloadMetadata x SNAPSHOT (metaLength snapshotMeta x.cfg.snapshotMaxLength)
        (metaVersion t snapshotMeta))
      let _ ← onTrusted (fun t => t.updateSnapshot x.env data false)
      onWorld (persistMetadata x SNAPSHOT data)

/-- `loadTargets`, `updater.go:401-464`; a role that the snapshot does not list panics at line 439. -/
def loadTargets (x : Ctx) (roleName parentName : Str) : M (Metadata TargetsType) := do
  let t ← getTrusted
  match t.targets.get? roleName with
  | some role => pure role
  | none =>
    match ← tryLocal x roleName (fun data t => t.updateDelegatedTargets x.env data roleName parentName) with
    | some m => pure m
    | none =>
      let t ← getTrusted
      match t.snapshot with
      | none => SM.throw (.other "trusted snapshot not set")
      | some sn => do
        let metaInfo ← SM.lift (Res.deref (sn.signed.metas.ptr (jsonName roleName)))
        let data ← onWorld (downloadMetadata x roleName (metaLength metaInfo x.cfg.targetsMaxLength)
          (metaVersion t metaInfo))
        let m ← onTrusted (fun t => t.updateDelegatedTargets x.env data roleName parentName)
        onWorld (persistMetadata x roleName data)
        pure m

/-- `onlineRefresh`, `updater.go:118-136`. -/
def onlineRefresh (x : Ctx) : M Unit := do
  loadRoot x
  loadTimestamp x
  loadSnapshot x
  let _ ← loadTargets x TARGETS ROOT
  pure ()

/-- `unsafeLocalRefresh`, `updater.go:143-180`. -/
def unsafeLocalRefresh (x : Ctx) : M Unit := do
  let data ← onWorld (loadLocalMetadata x TIMESTAMP)
  let _ ← onTrusted (fun t => t.updateTimestamp x.env data)
  let data ← onWorld (loadLocalMetadata x SNAPSHOT)
  let _ ← onTrusted (fun t => t.updateSnapshot x.env data false)
  let data ← onWorld (loadLocalMetadata x TARGETS)
  let _ ← onTrusted (fun t => t.updateDelegatedTargets x.env data TARGETS ROOT)
  pure ()

/-- `Refresh`, `updater.go:109-114`. -/
def refresh (x : Ctx) : M Unit := if x.cfg.unsafeLocalMode then unsafeLocalRefresh x else onlineRefresh x

/-! ## The delegation search -/

/-- `roleParentTuple`, `updater.go:59-62`. -/
structure RoleParent where
  role : Str
  parent : Str
  deriving DecidableEq, Repr

/-- The inner loop `updater.go:547-555`: children up to and including the first terminating one, and whether there was one. -/
def collectChildren (parent : Str) : List (Str × Bool) → List RoleParent × Bool
  | [] => ([], false)
  | (child, terminating) :: r =>
    if terminating then ([⟨child, parent⟩], true)
    else
      let (cs, t) := collectChildren parent r
      (⟨child, parent⟩ :: cs, t)

/-- The stack after a role without the target was visited, `updater.go:542-561`. The head of the list is the top of Go's stack:
children are pushed in reverse and popped from the end. -/
def pushChildren (x : Ctx) (targetFilePath : Str) (role : Str) (m : Metadata TargetsType) (rest : List RoleParent) :
    W (List RoleParent) :=
  match m.signed.delegations with
  | none => pure rest
  | some d => do
    let roles ← SM.lift (d.getRolesForTarget x.env targetFilePath)
    let ordered ← iterateMap x.host roles
    let (children, terminated) := collectChildren role ordered
    pure (children ++ (if terminated then [] else rest))

/-- The loop of `preOrderDepthFirstWalk`, `updater.go:519-569`. `k` is `MaxDelegations + 1 - len(visited)`; popping visited roles
(lines 521-528) does not change it. -/
def walk (x : Ctx) (targetFilePath : Str) : Nat → List RoleParent → List Str → M (Option TargetFiles)
  | 0, _, _ => SM.throw (.other "target not found")
  | k + 1, stack, visited =>
    match stack.dropWhile (fun d => decide (d.role ∈ visited)) with
    | [] => SM.throw (.other "target not found")
    | delegation :: rest => do
      let targets ← loadTargets x delegation.role delegation.parent
      match targets.signed.targets.get? targetFilePath with
      | some target => pure target
      | none => do
        let stack' ← onWorld (pushChildren x targetFilePath delegation.role targets rest)
        walk x targetFilePath k stack' (delegation.role :: visited)

/-- `preOrderDepthFirstWalk`, `updater.go:509-570`. -/
def preOrderDepthFirstWalk (x : Ctx) (targetFilePath : Str) : M (Option TargetFiles) :=
  walk x targetFilePath (x.cfg.maxDelegations + 1).toNat [⟨TARGETS, ROOT⟩] []

/-- `GetTargetInfo`, `updater.go:189-198`. The result is a pointer. -/
def getTargetInfo (x : Ctx) (targetPath : Str) : M (Option TargetFiles) := do
  let t ← getTrusted
  if (t.targets.get? TARGETS).isSome then preOrderDepthFirstWalk x targetPath
  else do
    refresh x
    preOrderDepthFirstWalk x targetPath

/-- `GetTopLevelTargets`, `updater.go:636-638`; panics before targets are loaded. -/
def getTopLevelTargets (t : Trusted) : Res (GoMap (Option TargetFiles)) := do
  let m ← Res.deref (t.targets.get? TARGETS)
  .ok m.signed.targets

/-! ## Target files -/

/-- `generateTargetFilePath`, `updater.go:621-628`. -/
def generateTargetFilePath (x : Ctx) (tf : TargetFiles) : Res Str :=
  if x.cfg.localTargetsDir = [] ∧ x.cfg.disableLocalCache = false then .err (.value "LocalTargetsDir must be set")
  else Res.ofOption (.other "url") (x.env.urlJoin x.cfg.localTargetsDir (queryEscape tf.path))

/-- The path part of the target URL, `updater.go:219-236`; `hash` is the hex of the first hash of the map iteration. -/
def prefixedPath (path hash : Str) : Str :=
  match cutSlash path with
  | (dirName, _, false) => hash ++ b!"." ++ dirName
  | (dirName, baseName, true) => dirName ++ b!"/" ++ hash ++ b!"." ++ baseName

/-- The path that is appended to the base URL, `updater.go:219-236`. -/
def targetURLPath (x : Ctx) (t : Trusted) (tf : TargetFiles) : W Str :=
  if t.root.signed.consistentSnapshot && x.cfg.prefixTargetsWithHash then do
    let hs ← iterateMap x.host tf.hashes.entries
    let hash := match hs with
      | [] => []
      | (_, v) :: _ => hexEncode v
    pure (prefixedPath tf.path hash)
  else pure tf.path

/-- The file for a target: the given one or, if empty, the generated one, `updater.go:205-210, 267-274`. -/
def targetFilePath (x : Ctx) (tf : TargetFiles) (filePath : Str) : Res Str :=
  if filePath = [] then generateTargetFilePath x tf else .ok filePath

/-- The base URL of a target download, `updater.go:211-218`. -/
def targetBase (x : Ctx) (targetBaseURL : Str) : Res Str :=
  if targetBaseURL = [] then
    if x.cfg.remoteTargetsURL = [] then .err (.value "targetBaseURL must be set")
    else .ok (ensureTrailingSlash x.cfg.remoteTargetsURL)
  else .ok (ensureTrailingSlash targetBaseURL)

/-- Write a verified target unless caching is off, `updater.go:248-253`. -/
def storeTarget (x : Ctx) (filePath : Str) (data : Bytes) : W Unit :=
  if x.cfg.disableLocalCache then pure () else writeFile x.host filePath data

/-- `DownloadTarget`, `updater.go:201-256`; `tf` is not nil. -/
def downloadTarget (x : Ctx) (tf : TargetFiles) (filePath targetBaseURL : Str) : M (Str × Bytes) := do
  let filePath ← SM.lift (targetFilePath x tf filePath)
  let base ← SM.lift (targetBase x targetBaseURL)
  let t ← getTrusted
  let path ← onWorld (targetURLPath x t tf)
  let data ← onWorld (doFetch x.host (base ++ path) tf.length)
  SM.lift (tf.verifyLengthHashes x.env data)
  onWorld (storeTarget x filePath data)
  pure (filePath, data)

/-- `FindCachedTarget`, `updater.go:259-289`: the empty path stands for "no cached target". -/
def findCachedTarget (x : Ctx) (tf : TargetFiles) (filePath : Str) : M (Str × Bytes) :=
  if x.cfg.disableLocalCache then pure ([], [])
  else do
    let targetFilePath ← SM.lift (targetFilePath x tf filePath)
    match ← SM.try' (onWorld (readFile x.host targetFilePath)) with
    | .error _ => pure ([], [])
    | .ok data =>
      match tf.verifyLengthHashes x.env data with
      | .err _ => pure ([], [])
      | .panic => SM.panic
      | .ok _ => pure (targetFilePath, data)

end Tuf
