import Verif.Model.Updater

/-!
# examples/cli/tuf-client/cmd

The commands `init`, `get` and `reset` of the command line client. The logger, the messages and the parsing of the command line are not modelled; `os.Exit(1)` is an error
like any other, for the exit status is 1 in both cases (`root.go:50-52`).
-/

namespace Tuf

/-- The outside world of the command line client: besides that of an updater, `os.Stat`, the HTTP client of `init` and the user. -/
structure CliHost extends Host where
  /-- `os.Stat` fails although the file or folder is there. -/
  statFails : List Event → Str → Bool
  /-- `http.DefaultClient.Do` and `io.ReadAll` of the body, whatever the status. -/
  httpGet : List Event → Str → Except Err Bytes
  /-- Files below a folder that `os.RemoveAll` fails to delete. -/
  keeps : List Event → (folder file : Str) → Bool
  /-- The answer to a question (`askForConfirmation`, `reset.go:72-88`); `none`: reading it failed and the process exits. A user who never gives an answer that counts is not
  modelled. -/
  answer : List Event → (folder : Str) → Option Bool

/-- The flags, `get.go:27-28`, `init.go:29`, `reset.go:23`, `root.go:26-27`. -/
structure CliArgs where
  repositoryURL : Str
  targetsURL : Str := []
  nonPrefixed : Bool := false
  rootPath : Str := []
  force : Bool := false

/-- Files, history and existing folders. -/
structure CliSt where
  world : World
  folder : Str → Bool

/-- Run code that only touches files and network. -/
def onFiles {α : Type} (m : W α) : SM CliSt α := fun s =>
  match m s.world with
  | (r, w) => (r, { s with world := w })

/-- `os.Getwd`. -/
def getwd (h : CliHost) : SM CliSt Str := fun s =>
  match h.cwd s.world.trace with
  | some d => (.ok d, s)
  | none => (.err ioErr, s)

/-- `DefaultMetadataDir` below the working directory, `root.go:22`. -/
def metadataFolder (cwd : Str) : Str := joinPath cwd b!"tuf_metadata"

/-- `DefaultDownloadDir` below the working directory, `root.go:23`. -/
def downloadFolder (cwd : Str) : Str := joinPath cwd b!"tuf_download"

/-- `os.Stat` of a folder. -/
def statFolder (h : CliHost) (path : Str) : SM CliSt Unit := fun s =>
  if s.folder path && !h.statFails s.world.trace path then (.ok (), s) else (.err ioErr, s)

/-- `os.Stat` of a file. -/
def statFile (h : CliHost) (path : Str) : SM CliSt Unit := fun s =>
  if (s.world.fs path).isSome && !h.statFails s.world.trace path then (.ok (), s) else (.err ioErr, s)

/-- `os.Mkdir`: fails if something is there. -/
def mkdir (h : CliHost) (path : Str) : SM CliSt Unit := fun s =>
  if s.folder path || (s.world.fs path).isSome || h.mkdirFails s.world.trace path then
    (.err ioErr, { s with world := s.world.emit (.mkdir path false) })
  else (.ok (), { world := s.world.emit (.mkdir path true), folder := fun p => p = path || s.folder p })

/-! ## get -/

/-- `verifyEnv`, `get.go:125-162`: the working directory, if the folders and the root file are there. -/
def verifyEnv (h : CliHost) : SM CliSt Str := do
  let cwd ← getwd h
  statFolder h (metadataFolder cwd)
  statFolder h (downloadFolder cwd)
  statFile h (metadataFolder cwd ++ b!"/" ++ ROOT ++ b!".json")
  pure cwd

/-- The configuration of the updater, `get.go:75-84, 132-141`. -/
def cliConfig (env : Env) (a : CliArgs) (cwd : Str) (rootBytes : Bytes) : Res Cfg := do
  let cfg ← Cfg.new env a.repositoryURL rootBytes
  .ok { cfg with
    localMetadataDir := metadataFolder cwd
    localTargetsDir := downloadFolder cwd
    remoteTargetsURL := if a.targetsURL = [] then a.repositoryURL else a.targetsURL
    prefixTargetsWithHash := !a.nonPrefixed }

/-- What `get` prints. -/
inductive GetResult where
  | present (path : Str)
  | downloaded (path : Str)
  deriving DecidableEq, Repr

/-- The file that `get` names. -/
def GetResult.file : GetResult → Str
  | .present p => p
  | .downloaded p => p

/-- The part of `GetCmd` that uses the updater, `get.go:92-120`. -/
def getWith (x : Ctx) (target : Str) : M GetResult := do
  refresh x
  let info ← getTargetInfo x target
  let tf ← SM.lift (Res.deref info)
  let cached ← findCachedTarget x tf []
  if cached.1 ≠ [] then pure (.present cached.1)
  else do
    let new ← downloadTarget x tf [] []
    pure (.downloaded new.1)

/-- A new updater and its use, `get.go:86-120`. -/
def withUpdater (x : Ctx) (target : Str) : W GetResult := fun w =>
  match newUpdater x w with
  | (.ok t, w') =>
    match getWith x target ⟨t, w'⟩ with
    | (r, s) => (r, s.world)
  | (.err e, w') => (.err e, w')
  | (.panic, w') => (.panic, w')

/-- `tuf-client get target`, `get.go:39-46, 57-123`. -/
def getCmd (env : Env) (h : CliHost) (a : CliArgs) (target : Str) : SM CliSt GetResult :=
  if a.repositoryURL = [] then SM.throw (.other "exit")
  else do
    let cwd ← verifyEnv h
    let rootBytes ← onFiles (readFile h.toHost (joinPath (metadataFolder cwd) b!"root.json"))
    let cfg ← SM.lift (cliConfig env a cwd rootBytes)
    onFiles (withUpdater ⟨env, h.toHost, cfg⟩ target)

/-! ## init -/

/-- `prepareEnvironment`, `init.go:103-124`. -/
def prepareEnvironment (h : CliHost) : SM CliSt Str := do
  let cwd ← getwd h
  mkdir h (metadataFolder cwd)
  mkdir h (downloadFolder cwd)
  pure (metadataFolder cwd)

/-- A GET request without limit on the size and without a look at the status, `init.go:134-151`. -/
def plainGet (h : CliHost) (url : Str) : W Bytes := fun w =>
  let r := h.httpGet w.trace url
  let w' := w.emit (.fetch url (-1) r)
  match r with
  | .ok b => (.ok b, w')
  | .error e => (.err e, w')

/-- `fetchTrustedRoot`, `init.go:127-159`. -/
def fetchTrustedRoot (env : Env) (h : CliHost) (a : CliArgs) (metadataDir : Str) : W Unit := do
  let url ← SM.lift (Res.ofOption (.other "url") (env.urlJoin a.repositoryURL b!"1.root.json"))
  let data ← plainGet h url
  writeFile h.toHost (joinPath metadataDir b!"root.json") data

/-- `trustedmetadata.New`, of which only the error is used, `init.go:83-86`. -/
def checkTrustedRoot (env : Env) (h : CliHost) (data : Bytes) : W Unit := fun w =>
  match Trusted.new env (h.now w.trace) data with
  | .ok _ => (.ok (), w)
  | .err e => (.err e, w)
  | .panic => (.panic, w)

/-- `tuf-client init`, `init.go:36-43, 50-101`. -/
def initCmd (env : Env) (h : CliHost) (a : CliArgs) : SM CliSt Unit :=
  if a.repositoryURL = [] then SM.throw (.other "exit")
  else do
    let dir ← prepareEnvironment h
    if a.rootPath = [] then do
      onFiles (fetchTrustedRoot env h a dir)
      let data ← onFiles (readFile h.toHost (dir ++ b!"/" ++ ROOT ++ b!".json"))
      onFiles (checkTrustedRoot env h data)
    else do
      let data ← onFiles (readFile h.toHost a.rootPath)
      onFiles (checkTrustedRoot env h data)
      onFiles (writeFile h.toHost (joinPath dir a.rootPath) data)

/-! ## reset -/

/-- The file is the folder or lies below it. -/
def below (folder file : Str) : Bool := file = folder || hasPrefix file (folder ++ b!"/")

/-- `os.RemoveAll`, whose error is ignored. -/
def removeAll (h : CliHost) (folder : Str) : SM CliSt Unit := fun s =>
  let kept := fun p => below folder p && h.keeps s.world.trace folder p
  (.ok (), { world := { s.world with fs := fun p => if below folder p && !kept p then none else s.world.fs p }
             folder := fun p => s.folder p && (!below folder p || kept p) })

/-- One of the two questions of `reset` and its consequence, `reset.go:52-58, 61-67`: whether the folder is said to be deleted. -/
def resetFolder (h : CliHost) (a : CliArgs) (folder : Str) : SM CliSt Bool := fun s =>
  if a.force then (do removeAll h folder; pure true) s
  else match h.answer s.world.trace folder with
    | none => (.err (.other "exit"), s)
    | some true => (do removeAll h folder; pure true) s
    | some false => (.ok false, s)

/-- `tuf-client reset`, `reset.go:40-70`: which of the two folders are said to be deleted. -/
def resetCmd (h : CliHost) (a : CliArgs) : SM CliSt (Bool × Bool) := do
  let cwd ← getwd h
  let m ← resetFolder h a (metadataFolder cwd)
  let d ← resetFolder h a (downloadFolder cwd)
  pure (m, d)

end Tuf
