import Verif.Model.Cli
import Verif.Model.MultiRepo

/-!
# examples/client and examples/multirepo/client

The example client with trust on first use and the example client for several repositories. The constants of the programs (URLs and target names) are arguments. Messages and the
logger are not modelled; `panic(err)` of a `main` is an error like any other. `generateRandomFolder` is the constant `false` (`client/client_example.go:36`), so the other branch of
`InitEnvironment` is not modelled.
-/

namespace Tuf

/-! ## examples/client/client_example.go -/

/-- The URLs, `client/client_example.go:32-33` and `multirepo/client/client_example.go:30-31`. -/
structure DemoURLs where
  metadata : Str
  targets : Str

/-- `InitEnvironment`, `client/client_example.go:66-88`: the errors of `os.Mkdir` are ignored. -/
def initEnvironment (h : CliHost) : SM CliSt Str := do
  let cwd ← getwd h
  let _ ← SM.try' (mkdir h (joinPath cwd b!"tmp"))
  let _ ← SM.try' (mkdir h (joinPath (joinPath cwd b!"tmp") b!"download"))
  pure (joinPath cwd b!"tmp")

/-- `InitTrustOnFirstUse`, `client/client_example.go:91-130`. -/
def trustOnFirstUse (env : Env) (h : CliHost) (u : DemoURLs) (dir : Str) : SM CliSt Unit := do
  match ← SM.try' (statFile h (joinPath dir b!"root.json")) with
  | .ok _ => pure ()
  | .error _ => do
    let url ← SM.lift (Res.ofOption (.other "url") (env.urlJoin u.metadata b!"1.root.json"))
    let data ← onFiles (plainGet h url)
    onFiles (writeFile h.toHost (joinPath dir b!"root.json") data)

/-- The configuration of the updater, `client/client_example.go:143-150`. -/
def demoConfig (env : Env) (u : DemoURLs) (dir : Str) (rootBytes : Bytes) : Res Cfg := do
  let cfg ← Cfg.new env u.metadata rootBytes
  .ok { cfg with
    localMetadataDir := dir
    localTargetsDir := joinPath dir b!"download"
    remoteTargetsURL := u.targets
    prefixTargetsWithHash := true }

/-- The use of the updater, `client/client_example.go:158-187`: a cached target is only reported and then downloaded again. The result is the path that is logged. -/
def demoGet (x : Ctx) (target : Str) : M Str := do
  refresh x
  let info ← getTargetInfo x target
  let tf ← SM.lift (Res.deref info)
  let _ ← findCachedTarget x tf []
  let new ← downloadTarget x tf [] []
  pure new.1

/-- Create an updater and use it; when its creation fails, that is the result. -/
def usingUpdater {α : Type} (x : Ctx) (use : M α) : W α := fun w =>
  match newUpdater x w with
  | (.ok t, w') =>
    match use ⟨t, w'⟩ with
    | (r, s) => (r, s.world)
  | (.err e, w') => (.err e, w')
  | (.panic, w') => (.panic, w')

/-- `DownloadTarget`, `client/client_example.go:135-188`. -/
def demoDownload (env : Env) (h : CliHost) (u : DemoURLs) (dir target : Str) : W Str := do
  let rootBytes ← readFile h.toHost (joinPath dir b!"root.json")
  let cfg ← SM.lift (demoConfig env u dir rootBytes)
  usingUpdater ⟨env, h.toHost, cfg⟩ (demoGet ⟨env, h.toHost, cfg⟩ target)

/-- The folder with which `main` carries on, `client/client_example.go:47-50`. -/
def demoDir : Except Err Str → Str
  | .ok dir => dir
  | .error _ => []

/-- `main`, `client/client_example.go:39-63`: after an error it carries on, with the empty folder name if `InitEnvironment` failed. The result is that of the download, which only the
log shows; the process ends with status 0. -/
def demoMain (env : Env) (h : CliHost) (u : DemoURLs) (target : Str) : SM CliSt (Except Err Str) := do
  let dir := demoDir (← SM.try' (initEnvironment h))
  let _ ← SM.try' (trustOnFirstUse env h u dir)
  SM.try' (onFiles (demoDownload env h u dir target))

/-! ## examples/multirepo/client/client_example.go -/

/-- The folder of `filepath.Split` on Unix: everything up to the last slash. -/
def splitDir (path : Str) : Str := (path.reverse.dropWhile (· ≠ 47)).reverse

/-- The first element of `strings.Split(name, "/")`. -/
def firstPart (name : Str) : Str := name.takeWhile (· ≠ 47)

/-- The loop over the top-level targets, `multirepo/client/client_example.go:123-156`; the map file and the trusted roots found so far. A nil target info (impossible for parsed
metadata) makes `FindCachedTarget` panic. -/
def bootstrapTargets (x : Ctx) (targetsDir : Str) : List (Str × Option TargetFiles) → Bytes → Entries Bytes → M (Bytes × Entries Bytes)
  | [], mapBytes, roots => pure (mapBytes, roots)
  | (name, info) :: r, mapBytes, roots => do
    let tf ← SM.lift (Res.deref info)
    let _ ← findCachedTarget x tf []
    let location := joinPath targetsDir name
    onWorld (mkdirAll x.host (splitDir location))
    let new ← downloadTarget x tf location []
    if name = b!"map.json" then bootstrapTargets x targetsDir r new.2 roots
    else bootstrapTargets x targetsDir r mapBytes (roots.set (firstPart name) new.2)

/-- The use of the updater in `BootstrapTUF`, `multirepo/client/client_example.go:117-158`. -/
def bootstrapWith (x : Ctx) (targetsDir : Str) : M (Bytes × Entries Bytes) := do
  refresh x
  let t ← getTrusted
  let ts ← SM.lift (getTopLevelTargets t)
  let es ← onWorld (iterateMap x.host ts.entries)
  bootstrapTargets x targetsDir es [] []

/-- The configuration of the updater, `multirepo/client/client_example.go:102-108`. -/
def bootstrapConfig (env : Env) (u : DemoURLs) (cwd : Str) (rootBytes : Bytes) : Res Cfg := do
  let cfg ← Cfg.new env u.metadata rootBytes
  .ok { cfg with
    localMetadataDir := joinPath cwd b!"bootstrap"
    localTargetsDir := joinPath cwd b!"bootstrap/targets"
    remoteTargetsURL := u.targets }

/-- `os.Getwd`. -/
def workingDir (h : Host) : W Str := fun w =>
  match h.cwd w.trace with
  | some d => (.ok d, w)
  | none => (.err ioErr, w)

/-- `BootstrapTUF`, `multirepo/client/client_example.go:77-159`. -/
def bootstrapTUF (env : Env) (h : Host) (u : DemoURLs) : W (Bytes × Entries Bytes) := do
  let cwd ← workingDir h
  mkdirAll h (joinPath cwd b!"bootstrap/targets")
  let rootBytes ← readFile h (joinPath cwd b!"root.json")
  let cfg ← SM.lift (bootstrapConfig env u cwd rootBytes)
  usingUpdater ⟨env, h, cfg⟩ (bootstrapWith ⟨env, h, cfg⟩ (joinPath cwd b!"bootstrap/targets"))

/-- `InitMultiRepoTUF`, `multirepo/client/client_example.go:161-178`: the configuration of the client, whose parts are in the state. -/
def initMultiRepo (env : Env) (h : Host) (mapBytes : Bytes) (roots : Entries Bytes) : MM MultiCfg := do
  let cwd ← mWorld (workingDir h)
  let cfg ← SM.lift (newMultiConfig env mapBytes roots)
  let cfg := { cfg with localMetadataDir := joinPath cwd b!"metadata", localTargetsDir := joinPath cwd b!"download" }
  newMultiRepo env h cfg
  pure cfg

/-- `main`, `multirepo/client/client_example.go:35-74`: what the last call returns. -/
def multiDemoMain (env : Env) (h : Host) (u : DemoURLs) (target : Str) : MM (Str × Bytes) := do
  let boot ← mWorld (bootstrapTUF env h u)
  let cfg ← initMultiRepo env h boot.1 boot.2
  multiRefresh env h
  let g ← multiGetTargetInfo env h cfg target
  multiDownloadTarget env h g.targetInfo [] [] g.repositories

end Tuf
