import Verif.Model.Updater

/-!
# The updater, one operation at a time

`Model/Updater.lean` runs every call at once, on files that nothing else changes. Here the same code is a tree of the operations it performs on disk and
network, so that other processes can run between two operations. `Props/Shared.lean` proves (`C140_same_code`) that a process running alone does what
`Model/Updater.lean` says.

Granularity. Creating a temporary file (`O_EXCL`), opening with truncation, writing, removing, renaming and reading a file are single operations; a write
may be cut short at any byte, and a process may be killed between any two operations. Reads are of whole files: a reader never sees part of a write
other than one that was cut short (for files in the cache there is nothing to see, as they are only renamed). Two processes may have the same target file open;
a file that was replaced by a rename while it was open counts as the new file.
-/

namespace Tuf.Small

/-- Operations on disk, network, clock and map iteration; see `Model/World.lean` for their places in the code. -/
inductive Op where
  | fetch (url : Str) (maxLength : Int)
  | read (path : Str)
  | mkdir (path : Str)
  | temp
  | trunc (path : Str)
  | write (path : Str) (data : Bytes)
  | remove (path : Str)
  | rename (src dst : Str)
  | order (n : Nat)
  | now

/-- What an operation answers. -/
def Op.Ans : Op → Type
  | .fetch .. => Except Err Bytes
  | .read _ => Option Bytes
  | .mkdir _ => Bool
  | .temp => Option Str
  | .trunc _ => Bool
  /- The number of bytes written. -/
  | .write .. => Nat
  | .remove _ => Unit
  | .rename .. => Bool
  | .order _ => List Nat
  | .now => Time

/-- A program: ends, or performs an operation and continues with the answer. -/
inductive Prog (α : Type) : Type where
  | ret (a : α) : Prog α
  | op (o : Op) (k : o.Ans → Prog α) : Prog α

/-- First one program, then another. -/
def Prog.bind {α β : Type} : Prog α → (α → Prog β) → Prog β
  | .ret a, f => f a
  | .op o k, f => .op o (fun a => (k a).bind f)

/-- Writing to an open file from its start: longer contents that another process has put there in the meantime keep their end. -/
def overwrite (fs : FS) (path : Str) (data : Bytes) : FS := fs.put path (some (data ++ ((fs path).getD []).drop data.length))

/-- Perform an operation: `doFetch`, `readFile`, `mkdirAll`, `createTemp`, the two steps of `writeFile`, `removeFile`, `renameFile` and `iterateMap` of `Model/World.lean`, and
`time.Now().UTC()` of `trustedmetadata.go:31`. -/
def perform (h : Host) (w : World) : (o : Op) → o.Ans × World
  | .fetch url n => (h.fetch w.trace url n, w.emit (.fetch url n (h.fetch w.trace url n)))
  | .read path =>
    let r := if h.readFails w.trace path then none else w.fs path
    (r, w.emit (.read path r))
  | .mkdir path =>
    let ok := path ≠ [] && !h.mkdirFails w.trace path
    (ok, w.emit (.mkdir path ok))
  | .temp =>
    match h.cwd w.trace, h.tempName w.trace with
    | some cwd, some n =>
      let name := cwd ++ b!"/tuf_tmp" ++ formatNat 10 n
      if (w.fs name).isSome then (none, w.emit (.failed b!"CreateTemp")) else (some name, w.emit (.createTemp name))
    | _, _ => (none, w.emit (.failed b!"CreateTemp"))
  | .trunc path => if h.openFails w.trace path then (false, w.emit (.failed b!"open")) else (true, w.emit (.truncate path))
  | .write path data =>
    let n := h.writeCount w.trace data.length
    (n, { fs := overwrite w.fs path (data.take n), trace := w.trace ++ [.write path (data.take n)] })
  | .remove path => ((), if h.removeFails w.trace path then w.emit (.failed b!"remove") else w.emit (.remove path))
  | .rename src dst =>
    if h.renameFails w.trace src dst then (false, w.emit (.failed b!"rename")) else (true, w.emit (.rename src dst))
  | .order n =>
    let o := h.order w.trace n
    let o := if o.isPerm (List.range n) then o else List.range n
    (o, w.emit (.iterate o))
  | .now => (h.now w.trace, w)

/-- Run a program to its end with nothing between its operations. -/
def Prog.run {α : Type} (h : Host) : Prog α → World → α × World
  | .ret a, w => (a, w)
  | .op o k, w => (k (perform h w o).1).run h (perform h w o).2

/-- Code with a private state `σ` (the trusted set) that ends in a value, an error or a panic. -/
def Code (σ α : Type) := σ → Prog (Res α × σ)

namespace Code
variable {σ α β : Type}

/-- Continue after a value. -/
def next (f : α → Code σ β) : Res α × σ → Prog (Res β × σ)
  | (.ok a, t) => f a t
  | (.err e, t) => .ret (.err e, t)
  | (.panic, t) => .ret (.panic, t)

instance : Monad (Code σ) where
  pure a := fun t => .ret (.ok a, t)
  bind m f := fun t => (m t).bind (next f)

/-- Return an error. -/
def throw (e : Err) : Code σ α := fun t => .ret (.err e, t)
/-- A pure outcome. -/
def lift (r : Res α) : Code σ α := fun t => .ret (r, t)
/-- Hand an error to the continuation as a value. -/
def caught : Res α × σ → Prog (Res (Except Err α) × σ)
  | (.ok a, t) => .ret (.ok (.ok a), t)
  | (.err e, t) => .ret (.ok (.error e), t)
  | (.panic, t) => .ret (.panic, t)
def try' (m : Code σ α) : Code σ (Except Err α) := fun t => (m t).bind caught
/-- Perform an operation. -/
def perform (o : Op) : Code σ o.Ans := fun t => .op o (fun a => .ret (.ok a, t))
/-- Use the private state. -/
def onState (f : σ → Res α × σ) : Code σ α := fun t => .ret (f t)
def get : Code σ σ := fun t => .ret (.ok t, t)
end Code

variable {σ : Type}

/-! ## Operations with errors -/

/-- `Fetcher.DownloadFile`. -/
def fetch (url : Str) (n : Int) : Code σ Bytes := do
  match ← Code.perform (.fetch url n) with
  | .ok b => pure b
  | .error e => Code.throw e

/-- `readFile`, `updater.go:661-672`. -/
def readFile (path : Str) : Code σ Bytes := do
  match ← Code.perform (.read path) with
  | some b => pure b
  | none => Code.throw ioErr

/-- `os.MkdirAll`. -/
def mkdirAll (path : Str) : Code σ Unit := do
  match ← Code.perform (.mkdir path) with
  | true => pure ()
  | false => Code.throw ioErr

/-- `os.WriteFile`. -/
def writeFile (path : Str) (data : Bytes) : Code σ Unit := do
  match ← Code.perform (.trunc path) with
  | false => Code.throw ioErr
  | true => do
    let n ← Code.perform (.write path data)
    Code.lift (if (show Nat from n) < data.length then .err ioErr else .ok ())

/-- `os.CreateTemp` in the working directory, `updater.go:581-589`. -/
def createTemp : Code σ Str := do
  match ← Code.perform .temp with
  | some name => pure name
  | none => Code.throw ioErr

/-- `os.Rename`. -/
def renameFile (src dst : Str) : Code σ Unit := do
  match ← Code.perform (.rename src dst) with
  | true => pure ()
  | false => Code.throw ioErr

/-- One iteration over a Go map. -/
def iterateMap {α : Type} (es : List α) : Code σ (List α) := do
  let o ← Code.perform (.order es.length)
  pure ((show List Nat from o).filterMap (fun i => es[i]?))

/-! ## updater.go -/

/-- `downloadMetadata`, `updater.go:609-618`. -/
def downloadMetadata (x : Ctx) (roleName : Str) (length : Int) (version : Str) : Code σ Bytes :=
  fetch (metadataURL x.cfg.remoteMetadataURL roleName version) length

/-- `persistMetadata`, `updater.go:573-606`. -/
def persistMetadata (x : Ctx) (roleName : Str) (data : Bytes) : Code σ Unit :=
  if x.cfg.disableLocalCache then pure ()
  else do
    let file ← createTemp
    match ← Code.try' (writeFile file data) with
    | .error e => do
      let _ ← Code.perform (.remove file)
      Code.throw e
    | .ok _ => renameFile file (persistPath x.cfg roleName)

/-- `loadLocalMetadata`, `updater.go:631-633`. -/
def loadLocalMetadata (x : Ctx) (roleName : Str) : Code σ Bytes := readFile (localPath x.cfg roleName)

/-- `EnsurePathsExist`, `config/config.go:71-83`. -/
def ensurePathsExist (x : Ctx) : Code σ Unit :=
  if x.cfg.disableLocalCache then pure ()
  else do
    mkdirAll x.cfg.localMetadataDir
    mkdirAll x.cfg.localTargetsDir

/-- `New`, `updater.go:65-92`. -/
def newUpdater (x : Ctx) : Code Unit Trusted :=
  if x.cfg.localTrustedRoot = [] ∨ x.cfg.remoteMetadataURL = [] then Code.throw (.other "no trusted root or URL")
  else do
    let now ← Code.perform .now
    let t ← Code.lift (Trusted.new x.env now x.cfg.localTrustedRoot)
    ensurePathsExist x
    persistMetadata x ROOT x.cfg.localTrustedRoot
    pure t

/-- The loop of `loadRoot`, `updater.go:475-502`. -/
def loadRootLoop (x : Ctx) : Nat → Int → Code Trusted Unit
  | 0, _ => pure ()
  | n + 1, nextVersion => do
    match ← Code.try' (downloadMetadata x ROOT x.cfg.rootMaxLength (formatInt 10 nextVersion)) with
    | .error (.downloadHTTP status url) =>
      if status ≠ 404 ∧ status ≠ 403 then Code.throw (.downloadHTTP status url) else pure ()
    | .error e => Code.throw e
    | .ok data => do
      let _ ← Code.onState (fun t => t.updateRoot x.env data)
      persistMetadata x ROOT data
      loadRootLoop x n (nextVersion + 1)

/-- `loadRoot`, `updater.go:469-504`. -/
def loadRoot (x : Ctx) : Code Trusted Unit := do
  let t ← Code.get
  let lowerBound := wrap64 (t.root.signed.version + 1)
  let upperBound := wrap64 (lowerBound + x.cfg.maxRootRotations)
  loadRootLoop x (upperBound - lowerBound).toNat lowerBound

/-- Load a local file if it is there (`updater.go:295-313` etc.). -/
def tryLocal {α : Type} (x : Ctx) (roleName : Str) (update : Bytes → Trusted → Res α × Trusted) : Code Trusted (Option α) := do
  match ← Code.try' (loadLocalMetadata x roleName) with
  | .error _ => pure none
  | .ok data =>
    match ← Code.try' (Code.onState (update data)) with
    | .ok a => pure (some a)
    | .error e => if e.isRepository then pure none else Code.throw e

/-- `loadTimestamp`, `updater.go:292-337`. -/
def loadTimestamp (x : Ctx) : Code Trusted Unit := do
  let _ ← tryLocal x TIMESTAMP (fun data t => t.updateTimestamp x.env data)
  let data ← downloadMetadata x TIMESTAMP x.cfg.timestampMaxLength []
  match ← Code.try' (Code.onState (fun t => t.updateTimestamp x.env data)) with
  | .error e => if e.isEqualVersion then pure () else Code.throw e
  | .ok _ => persistMetadata x TIMESTAMP data

/-- `loadSnapshot`, `updater.go:340-398`. -/
def loadSnapshot (x : Ctx) : Code Trusted Unit := do
  match ← tryLocal x SNAPSHOT (fun data t => t.updateSnapshot x.env data true) with
  | some _ => pure ()
  | none =>
    let t ← Code.get
    match t.timestamp with
    | none => Code.throw (.other "trusted timestamp not set")
    | some ts => do
      let snapshotMeta ← Code.lift (Res.deref (ts.signed.metas.ptr (jsonName SNAPSHOT)))
      let data ← downloadMetadata x SNAPSHOT (metaLength snapshotMeta x.cfg.snapshotMaxLength) (metaVersion t snapshotMeta)
      let _ ← Code.onState (fun t => t.updateSnapshot x.env data false)
      persistMetadata x SNAPSHOT data

/-- `loadTargets`, `updater.go:401-464`. -/
def loadTargets (x : Ctx) (roleName parentName : Str) : Code Trusted (Metadata TargetsType) := do
  let t ← Code.get
  match t.targets.get? roleName with
  | some role => pure role
  | none =>
    match ← tryLocal x roleName (fun data t => t.updateDelegatedTargets x.env data roleName parentName) with
    | some m => pure m
    | none =>
      let t ← Code.get
      match t.snapshot with
      | none => Code.throw (.other "trusted snapshot not set")
      | some sn => do
        let metaInfo ← Code.lift (Res.deref (sn.signed.metas.ptr (jsonName roleName)))
        let data ← downloadMetadata x roleName (metaLength metaInfo x.cfg.targetsMaxLength) (metaVersion t metaInfo)
        let m ← Code.onState (fun t => t.updateDelegatedTargets x.env data roleName parentName)
        persistMetadata x roleName data
        pure m

/-- `onlineRefresh`, `updater.go:118-136`. -/
def onlineRefresh (x : Ctx) : Code Trusted Unit := do
  loadRoot x
  loadTimestamp x
  loadSnapshot x
  let _ ← loadTargets x TARGETS ROOT
  pure ()

/-- `unsafeLocalRefresh`, `updater.go:143-180`. -/
def unsafeLocalRefresh (x : Ctx) : Code Trusted Unit := do
  let data ← loadLocalMetadata x TIMESTAMP
  let _ ← Code.onState (fun t => t.updateTimestamp x.env data)
  let data ← loadLocalMetadata x SNAPSHOT
  let _ ← Code.onState (fun t => t.updateSnapshot x.env data false)
  let data ← loadLocalMetadata x TARGETS
  let _ ← Code.onState (fun t => t.updateDelegatedTargets x.env data TARGETS ROOT)
  pure ()

/-- `Refresh`, `updater.go:109-114`. -/
def refresh (x : Ctx) : Code Trusted Unit := if x.cfg.unsafeLocalMode then unsafeLocalRefresh x else onlineRefresh x

/-- The stack after a role without the target was visited, `updater.go:542-561`. -/
def pushChildren (x : Ctx) (targetFilePath : Str) (role : Str) (m : Metadata TargetsType) (rest : List RoleParent) : Code σ (List RoleParent) :=
  match m.signed.delegations with
  | none => pure rest
  | some d => do
    let roles ← Code.lift (d.getRolesForTarget x.env targetFilePath)
    let ordered ← iterateMap roles
    let (children, terminated) := collectChildren role ordered
    pure (children ++ (if terminated then [] else rest))

/-- The loop of `preOrderDepthFirstWalk`, `updater.go:519-569`. -/
def walk (x : Ctx) (targetFilePath : Str) : Nat → List RoleParent → List Str → Code Trusted (Option TargetFiles)
  | 0, _, _ => Code.throw (.other "target not found")
  | k + 1, stack, visited =>
    match stack.dropWhile (fun d => decide (d.role ∈ visited)) with
    | [] => Code.throw (.other "target not found")
    | delegation :: rest => do
      let targets ← loadTargets x delegation.role delegation.parent
      match targets.signed.targets.get? targetFilePath with
      | some target => pure target
      | none => do
        let stack' ← pushChildren x targetFilePath delegation.role targets rest
        walk x targetFilePath k stack' (delegation.role :: visited)

/-- `preOrderDepthFirstWalk`, `updater.go:509-570`. -/
def preOrderDepthFirstWalk (x : Ctx) (targetFilePath : Str) : Code Trusted (Option TargetFiles) :=
  walk x targetFilePath (x.cfg.maxDelegations + 1).toNat [⟨TARGETS, ROOT⟩] []

/-- `GetTargetInfo`, `updater.go:189-198`. -/
def getTargetInfo (x : Ctx) (targetPath : Str) : Code Trusted (Option TargetFiles) := do
  let t ← Code.get
  if (t.targets.get? TARGETS).isSome then preOrderDepthFirstWalk x targetPath
  else do
    refresh x
    preOrderDepthFirstWalk x targetPath

/-- The path that is appended to the base URL, `updater.go:219-236`. -/
def targetURLPath (x : Ctx) (t : Trusted) (tf : TargetFiles) : Code σ Str :=
  if t.root.signed.consistentSnapshot && x.cfg.prefixTargetsWithHash then do
    let hs ← iterateMap tf.hashes.entries
    let hash := match hs with
      | [] => []
      | (_, v) :: _ => hexEncode v
    pure (prefixedPath tf.path hash)
  else pure tf.path

/-- Write a verified target unless caching is off, `updater.go:248-253`. -/
def storeTarget (x : Ctx) (filePath : Str) (data : Bytes) : Code σ Unit :=
  if x.cfg.disableLocalCache then pure () else writeFile filePath data

/-- `DownloadTarget`, `updater.go:201-256`. -/
def downloadTarget (x : Ctx) (tf : TargetFiles) (filePath targetBaseURL : Str) : Code Trusted (Str × Bytes) := do
  let filePath ← Code.lift (targetFilePath x tf filePath)
  let base ← Code.lift (targetBase x targetBaseURL)
  let t ← Code.get
  let path ← targetURLPath x t tf
  let data ← fetch (base ++ path) tf.length
  Code.lift (tf.verifyLengthHashes x.env data)
  storeTarget x filePath data
  pure (filePath, data)

/-- `FindCachedTarget`, `updater.go:259-289`. -/
def findCachedTarget (x : Ctx) (tf : TargetFiles) (filePath : Str) : Code Trusted (Str × Bytes) :=
  if x.cfg.disableLocalCache then pure ([], [])
  else do
    let targetFilePath ← Code.lift (targetFilePath x tf filePath)
    match ← Code.try' (readFile targetFilePath) with
    | .error _ => pure ([], [])
    | .ok data =>
      match tf.verifyLengthHashes x.env data with
      | .err _ => pure ([], [])
      | .panic => Code.lift .panic
      | .ok _ => pure (targetFilePath, data)

end Tuf.Small
