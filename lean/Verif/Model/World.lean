import Verif.Model.Trusted

/-!
# File system, network and other nondeterminism

Everything outside the process is decided by a `Host`, a set of functions of the complete history of events so far. Theorems quantify over all
hosts, so the network, IO failures, temporary names and Go's random map iteration are adversarial.

Simplifications. Files are named by their path strings: links and case-insensitive or relative aliases are not modelled, and directories exist
implicitly (`MkdirAll` has no effect on files). Nothing else writes to the file system during a call;
`Model/Small.lean` has the same code without this simplification.
-/

namespace Tuf

/-- What the process does to the outside world, in order. -/
inductive Event where
  /-- `Fetcher.DownloadFile(url, maxLength, _)` and its result. -/
  | fetch (url : Str) (maxLength : Int) (result : Except Err Bytes)
  /-- Open and read a file; `none` if that failed. -/
  | read (path : Str) (result : Option Bytes)
  /-- `os.MkdirAll`. -/
  | mkdir (path : Str) (ok : Bool)
  /-- `os.CreateTemp`; the file now exists and is empty. -/
  | createTemp (path : Str)
  /-- Opening a file for writing with `O_TRUNC`: it is now empty. -/
  | truncate (path : Str)
  /-- Writing bytes to a file just truncated (all the bytes or, on an error, some). -/
  | write (path : Str) (written : Bytes)
  /-- `os.Remove`. -/
  | remove (path : Str)
  /-- `os.Rename`, atomic. -/
  | rename (src dst : Str)
  /-- An operation that failed without effect. -/
  | failed (what : Str)
  /-- A range over a Go map: the order of the indices. -/
  | iterate (order : List Nat)

/-- File contents by path. -/
abbrev FS := Str → Option Bytes

/-- Set or remove one file. -/
def FS.put (fs : FS) (path : Str) (v : Option Bytes) : FS := fun p => if p = path then v else fs p

/-- Effect of a completed event on the files. -/
def applyEvent (fs : FS) : Event → FS
  | .createTemp p => fs.put p (some [])
  | .truncate p => fs.put p (some [])
  | .write p b => fs.put p (some b)
  | .remove p => fs.put p none
  | .rename a b => (fs.put b (fs a)).put a none
  | _ => fs

/-- The outside world: files and the history of events. -/
structure World where
  fs : FS
  trace : List Event := []

/-- All outside choices. Every function gets the history so far. -/
structure Host where
  fetch : List Event → Str → Int → Except Err Bytes
  readFails : List Event → Str → Bool
  mkdirFails : List Event → Str → Bool
  /-- `os.Getwd`. -/
  cwd : List Event → Option Str
  /-- The random part of the temporary name; `none` if creation fails. -/
  tempName : List Event → Option Nat
  openFails : List Event → Str → Bool
  /-- How many bytes a write manages; fewer than all is an error. -/
  writeCount : List Event → Nat → Nat
  removeFails : List Event → Str → Bool
  renameFails : List Event → Str → Str → Bool
  /-- Order of a map iteration over `n` entries. -/
  order : List Event → Nat → List Nat
  /-- `time.Now().UTC()`. -/
  now : List Event → Time

/-- `config.UpdaterConfig`, `config/config.go:21-41`; the fetcher is part of the host. -/
structure Cfg where
  maxRootRotations : Int := 32
  maxDelegations : Int := 32
  rootMaxLength : Int := 512000
  timestampMaxLength : Int := 16384
  snapshotMaxLength : Int := 2000000
  targetsMaxLength : Int := 5000000
  localTrustedRoot : Bytes := []
  localMetadataDir : Str := []
  localTargetsDir : Str := []
  remoteMetadataURL : Str := []
  remoteTargetsURL : Str := []
  disableLocalCache : Bool := false
  prefixTargetsWithHash : Bool := true
  unsafeLocalMode : Bool := false

/-- `config.New`, `config/config.go:45-69`. -/
def Cfg.new (env : Env) (remoteURL : Str) (rootBytes : Bytes) : Res Cfg :=
  match env.urlJoin remoteURL b!"targets" with
  | none => .err (.other "url")
  | some targetsURL =>
    .ok { localTrustedRoot := rootBytes, remoteMetadataURL := remoteURL, remoteTargetsURL := targetsURL }

/-- The parameters of every call of an `Updater` method. -/
structure Ctx where
  env : Env
  host : Host
  cfg : Cfg

/-- State of an `Updater`: its trusted set and the world. -/
structure St where
  trusted : Trusted
  world : World

/-- Code that reads and changes a state and ends in a value, an error or a panic. -/
abbrev SM (σ α : Type) := σ → Res α × σ
abbrev M (α : Type) := SM St α

namespace SM
variable {σ α β : Type}

protected def pure (a : α) : SM σ α := fun s => (.ok a, s)
protected def bind (m : SM σ α) (f : α → SM σ β) : SM σ β := fun s =>
  match m s with
  | (.ok a, s') => f a s'
  | (.err e, s') => (.err e, s')
  | (.panic, s') => (.panic, s')

/-- Return an error. -/
def throw (e : Err) : SM σ α := fun s => (.err e, s)
/-- Run-time panic. -/
def panic : SM σ α := fun s => (.panic, s)
/-- Run, handing an error to the continuation as a value (`x, err := f()`). -/
def try' (m : SM σ α) : SM σ (Except Err α) := fun s =>
  match m s with
  | (.ok a, s') => (.ok (.ok a), s')
  | (.err e, s') => (.ok (.error e), s')
  | (.panic, s') => (.panic, s')
/-- A pure outcome. -/
def lift (r : Res α) : SM σ α := fun s => (r, s)

instance : Monad (SM σ) where
  pure := SM.pure
  bind := SM.bind
end SM

/-! ## Primitive operations -/

/-- Perform an event. -/
def World.emit (w : World) (e : Event) : World := { fs := applyEvent w.fs e, trace := w.trace ++ [e] }

/-- Code that only touches the world. -/
abbrev W (α : Type) := SM World α

/-- The error of a failed system call. -/
def ioErr : Err := .other "io"

/-- `Fetcher.DownloadFile`. -/
def doFetch (h : Host) (url : Str) (maxLength : Int) : W Bytes := fun w =>
  let r := h.fetch w.trace url maxLength
  let w' := w.emit (.fetch url maxLength r)
  match r with
  | .ok b => (.ok b, w')
  | .error e => (.err e, w')

/-- `readFile`, `updater.go:661-672`. -/
def readFile (h : Host) (path : Str) : W Bytes := fun w =>
  let r := if h.readFails w.trace path then none else w.fs path
  let w' := w.emit (.read path r)
  match r with
  | some b => (.ok b, w')
  | none => (.err ioErr, w')

/-- `os.MkdirAll`; the empty path fails. -/
def mkdirAll (h : Host) (path : Str) : W Unit := fun w =>
  let ok := path ≠ [] && !h.mkdirFails w.trace path
  let w' := w.emit (.mkdir path ok)
  if ok then (.ok (), w') else (.err ioErr, w')

/-- `os.WriteFile`: open with truncation, then write; after a short write the bytes written stay in the file. -/
def writeFile (h : Host) (path : Str) (data : Bytes) : W Unit := fun w =>
  if h.openFails w.trace path then (.err ioErr, w.emit (.failed b!"open"))
  else
    let w1 := w.emit (.truncate path)
    let n := h.writeCount w1.trace data.length
    let w2 := w1.emit (.write path (data.take n))
    if n < data.length then (.err ioErr, w2) else (.ok (), w2)

/-- `os.Getwd` and `os.CreateTemp(cwd, "tuf_tmp")`, `updater.go:581-589`: the name is new and is the prefix followed by digits. A name that is taken
counts as failure (Go retries with other names). -/
def createTemp (h : Host) : W Str := fun w =>
  match h.cwd w.trace, h.tempName w.trace with
  | some cwd, some n =>
    let name := cwd ++ b!"/tuf_tmp" ++ formatNat 10 n
    if (w.fs name).isSome then (.err ioErr, w.emit (.failed b!"CreateTemp"))
    else (.ok name, w.emit (.createTemp name))
  | _, _ => (.err ioErr, w.emit (.failed b!"CreateTemp"))

/-- `os.Remove`; the caller ignores the error. -/
def removeFile (h : Host) (path : Str) : W Unit := fun w =>
  if h.removeFails w.trace path then (.ok (), w.emit (.failed b!"remove"))
  else (.ok (), w.emit (.remove path))

/-- `os.Rename`. -/
def renameFile (h : Host) (src dst : Str) : W Unit := fun w =>
  if h.renameFails w.trace src dst then (.err ioErr, w.emit (.failed b!"rename"))
  else (.ok (), w.emit (.rename src dst))

/-- The entries of a Go map in the order of one iteration. -/
def iterateMap {α : Type} (h : Host) (es : List α) : W (List α) := fun w =>
  let o := h.order w.trace es.length
  let o := if o.isPerm (List.range es.length) then o else List.range es.length
  (.ok (o.filterMap (fun i => es[i]?)), w.emit (.iterate o))

/-- Run world code inside an updater. -/
def onWorld {α : Type} (m : W α) : M α := fun s =>
  match m s.world with
  | (r, w) => (r, { s with world := w })

/-- Run a method of the trusted set. -/
def onTrusted {α : Type} (f : Trusted → Res α × Trusted) : M α := fun s =>
  match f s.trusted with
  | (r, t) => (r, { s with trusted := t })

/-- Read the trusted set. -/
def getTrusted : M Trusted := fun s => (.ok s.trusted, s)

end Tuf
