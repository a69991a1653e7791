import Verif.Model.Simulator

/-!
# `Write` of testutils/simulator/repository_simulator.go, and testutils/simulator/repository_simulator_setup.go

The dump of the simulator to disk for debugging, and how tests get a simulator and the root that their clients start with. Logging is left out; `log.Fatal` ends the program and is a panic here.
-/

namespace Tuf

/-- The simulator with its fields `DumpDir` and `DumpVersion` (`repository_simulator.go:100-101`), which only `Write` uses, and the files. -/
structure DumpSt where
  sim : Sim
  dumpDir : Str := []
  dumpVersion : Int := 0
  world : World

/-- Run code of the simulator. -/
def onSim {α : Type} (m : SM Sim α) : SM DumpSt α := fun s =>
  match m s.sim with
  | (r, sim) => (r, { s with sim := sim })

/-- Run world code. -/
def onDumpWorld {α : Type} (m : W α) : SM DumpSt α := fun s =>
  match m s.world with
  | (r, w) => (r, { s with world := w })

/-- `os.Create`; false if it failed, and the file is nil. -/
def createFile (h : Host) (path : Str) : W Bool := fun w =>
  if h.openFails w.trace path then (.ok false, w.emit (.failed b!"open")) else (.ok true, w.emit (.truncate path))

/-- `f.Write` into the file that was created; an error if it is nil. -/
def writeCreated (h : Host) (path : Str) (opened : Bool) (data : Bytes) : W Unit := fun w =>
  if opened then
    let n := h.writeCount w.trace data.length
    let w1 := w.emit (.write path (data.take n))
    if n < data.length then (.err ioErr, w1) else (.ok (), w1)
  else (.err ioErr, w)

/-- `url.PathEscape`. -/
def pathEscape (s : Str) : Str :=
  Std.escapeBy (fun c => unreserved c || c == 36 || c == 38 || c == 43 || c == 58 || c == 61 || c == 64) s

namespace Sim

/-- The body of the loops of `Write`, `repository_simulator.go:582-592, 595-605, 608-618`: errors are only logged; metadata that cannot be fetched is nil. -/
def dumpFile (q : SimEnv) (h : Host) (path role : Str) (version : Int) : SM DumpSt Unit := do
  let opened ← onDumpWorld (createFile h path)
  let data := match (← SM.try' (onSim (fetchMetadata q role version))) with
    | .ok data => data
    | .error _ => []
  let _ ← SM.try' (onDumpWorld (writeCreated h path opened data))
  pure ()

/-- A loop of `Write` over file names, roles and versions. -/
def dumpFiles (q : SimEnv) (h : Host) (dir : Str) : List (Str × Str × Int) → SM DumpSt Unit
  | [] => pure ()
  | (name, role, version) :: rest => do
    dumpFile q h (joinPath dir name) role version
    dumpFiles q h dir rest

/-- The folder of the next dump, `repository_simulator.go:573-578`; `temp` is `os.TempDir()`. -/
def dumpFolder (temp : Str) : SM DumpSt Str := fun s =>
  let dir := if s.dumpDir = [] then temp else s.dumpDir
  let version := wrap64 (s.dumpVersion + 1)
  (.ok (joinPath dir (formatInt 10 version)), { s with dumpDir := dir, dumpVersion := version })

/-- `Write`, `repository_simulator.go:572-620`. -/
def dump (q : SimEnv) (h : Host) (temp : Str) : SM DumpSt Unit := do
  let dir ← dumpFolder temp
  let _ ← SM.try' (onDumpWorld (mkdirAll h dir))
  let roots ← onSim (get (fun s => s.signedRoots.length))
  dumpFiles q h dir ((List.range roots).map (fun (i : Nat) => (formatInt 10 ((i : Int) + 1) ++ b!".root.json", ROOT, (i : Int) + 1)))
  dumpFiles q h dir ([TIMESTAMP, SNAPSHOT, TARGETS].map (fun role => (role ++ b!".json", role, -1)))
  let roles ← onSim (do iterate q (← get (fun s => s.delegates.map Prod.fst)))
  dumpFiles q h dir (roles.map (fun role => (pathEscape role ++ b!".json", role, -1)))

end Sim

/-- `InitMetadataDir` and `InitLocalEnv`, `repository_simulator_setup.go:37-83`: the simulator, the folder for metadata and the folder for targets. `temp` is the new folder that `os.MkdirTemp` makes (none if it fails);
errors of making folders are only logged; the error of writing the root is returned, with the simulator. -/
def initMetadataDir (q : SimEnv) (h : Host) (temp : Option Str) (expiry : Time) : W (Sim × Str × Str × Option Err) := do
  match temp with
  | none => SM.panic
  | some tmp =>
    let _ ← SM.try' (mkdirAll h (tmp ++ b!"/metadata"))
    let _ ← SM.try' (mkdirAll h (tmp ++ b!"/targets"))
    let sim ← SM.lift (Sim.new q expiry)
    let opened ← createFile h (tmp ++ b!"/metadata" ++ b!"/root.json")
    if opened then do
      let root ← SM.lift (Res.deref sim.signedRoots[0]?)
      let err := match (← SM.try' (writeCreated h (tmp ++ b!"/metadata" ++ b!"/root.json") true root)) with
        | .ok _ => none
        | .error e => some e
      pure ({ sim with localDir := tmp }, tmp ++ b!"/metadata", tmp ++ b!"/targets", err)
    else SM.panic

/-- `GetRootBytes`, `repository_simulator_setup.go:85-87`. -/
def getRootBytes (h : Host) (localMetadataDir : Str) : W Bytes := readFile h (localMetadataDir ++ b!"/root.json")

end Tuf
