import Verif.Props.SimulatorCase

/-!
# The tests of the updater, run on the model

The tests in `metadata/updater/updater_top_level_update_test.go` and `updater_consistent_snapshot_test.go` as programs on the model of the simulator and of the client. These are not properties: they
show that the model gives what the authors expect of the code. As the texts of error messages are not modelled, only the type of an error is compared.
-/

namespace Tuf
open Tuf.Spec Tuf.Sample Tuf.Std

namespace GoTest

/-- The variables of the tests: `simulator.Sim`, the files, and `simulator.RootBytes`; and the order of iterations over maps. -/
structure Bench where
  sim : Sim
  fs : FS
  rootBytes : Bytes
  order : Nat → List Nat := List.range

/-- A test; `assert` fails it. -/
abbrev Test := SM Bench

/-- `simulator.MetadataDir`. -/
def metadataDir : Str := simDir ++ b!"/metadata"
def pathOf (role : Str) : Str := metadataDir ++ b!"/" ++ role ++ b!".json"

/-- `loadOrResetTrustedRootMetadata`, `updater_top_level_update_test.go:43-58`. -/
def start : Bench :=
  let root := simStart.signedRoots.headD []
  { sim := simStart, fs := disk [(pathOf ROOT, root)], rootBytes := root }

/-- The test ends without a failed assertion. -/
def passes (t : Test Unit) : Bool := (t start).1 matches .ok ()
/-- The same, with another order of the three entries of a map. -/
def passesWith (o : List Nat) (t : Test Unit) : Bool := (t { start with order := fun n => if n = 3 then o else List.range n }).1 matches .ok ()
def orders : List (List Nat) := [[0, 1, 2], [2, 1, 0]]

def assert (b : Bool) : Test Unit := if b then pure () else SM.throw (.other "assertion")
def get {α : Type} (f : Bench → α) : Test α := fun b => (.ok (f b), b)
/-- A call of the simulator. -/
def sim {α : Type} (m : SM Sim α) : Test α := fun b => let r := m b.sim; (r.1, { b with sim := r.2 })
/-- Assignments to fields of the simulator. -/
def set (f : Sim → Sim) : Test Unit := sim (Sim.modify f)

def setRoot (f : RootType → RootType) : Test Unit := set (fun s => { s with root := { s.root with signed := f s.root.signed } })
def setTimestamp (f : TimestampType → TimestampType) : Test Unit := set (fun s => { s with timestamp := { s.timestamp with signed := f s.timestamp.signed } })
def setSnapshot (f : SnapshotType → SnapshotType) : Test Unit := set (fun s => { s with snapshot := { s.snapshot with signed := f s.snapshot.signed } })
def setTargets (f : TargetsType → TargetsType) : Test Unit := set (fun s => { s with targets := { s.targets with signed := f s.targets.signed } })

/-- Days after the start of the tests. -/
def day (n : Nat) : Time := timeOf ⟨2025, 3, 1 + n, 0, 0, 0, 0, 0⟩
def today : Time := day 5
/-- `simulator.PastDateTime`. -/
def pastDateTime : Time := day 0

/-- `loadUpdaterConfig`, `updater_top_level_update_test.go:60-66`. -/
def loadUpdaterConfig : Test Cfg := fun b =>
  match Cfg.new (std env0) metadataDir b.rootBytes with
  | .ok cfg => (.ok { cfg with localMetadataDir := metadataDir, localTargetsDir := simDir ++ b!"/targets" }, b)
  | .err e => (.err e, b)
  | .panic => (.panic, b)

def ctxOf (cfg : Cfg) (order : Nat → List Nat) (t : Time) (s : Sim) : Ctx :=
  ⟨std env0, { hostOf (fun _ => .ok []) with fetch := fun _ url n => answer (Sim.downloadFile simEnv url n s).1, now := fun _ => t, order := fun _ n => order n }, cfg⟩

/-- What the simulator is after the downloads of a run. -/
def after (s : Sim) (w : World) : Sim := afterDownloads simEnv ((downloads w.trace).map (fun d => (d.1, d.2.1))) s

/-- `New`, and then a method; the result has the trusted set. -/
def runWith (cfg : Cfg) (t : Time) {α : Type} (m : Ctx → M α) : Test (Res α × Option Trusted) := fun b =>
  let x := ctxOf cfg b.order t b.sim
  match newUpdater x { fs := b.fs } with
  | (.ok tr, w) =>
    let r := m x ⟨tr, w⟩
    (.ok (r.1, some r.2.trusted), { b with fs := r.2.world.fs, sim := after b.sim r.2.world })
  | (.err e, w) => (.ok (.err e, none), { b with fs := w.fs, sim := after b.sim w })
  | (.panic, w) => (.panic, { b with fs := w.fs })

/-- `runRefresh`, `updater_top_level_update_test.go:78-94`. -/
def runRefresh (cfg : Cfg) (t : Time) : Test (Res Unit) := do
  let r ← runWith cfg t refresh
  pure r.1

/-- `assertFilesExist`, `updater_top_level_update_test.go:108-127`. -/
def assertFilesExist (roles : List Str) : Test Unit := do
  let fs ← get Bench.fs
  assert (roles.all (fun r => (fs (pathOf r)).isSome))

def topLevel : List Str := [ROOT, TIMESTAMP, SNAPSHOT, TARGETS]

/-- `assertFilesExact`, `updater_top_level_update_test.go:129-147`, as to the files of the top-level roles. -/
def assertFilesExact (roles : List Str) : Test Unit := do
  let fs ← get Bench.fs
  assert (topLevel.all (fun r => (fs (pathOf r)).isSome == roles.contains r))

/-- `assertContentEquals`, `updater_top_level_update_test.go:150-158`. -/
def assertContentEquals (role : Str) (version : Int) : Test Unit := do
  let data ← sim (Sim.fetchMetadata simEnv role version)
  let fs ← get Bench.fs
  assert (fs (pathOf role) == some data)

/-- `assertVersionEquals`, `updater_top_level_update_test.go:160-184`; what is read becomes the metadata of the simulator. -/
def assertVersionEquals (role : Str) (version : Int) : Test Unit := do
  let fs ← get Bench.fs
  match fs (pathOf role) with
  | none => assert false
  | some data =>
    if role = ROOT then
      let m ← SM.lift (fromBytes (T := RootType) (std env0) data)
      set (fun s => { s with root := m })
      assert (m.signed.version == version)
    else if role = TARGETS then
      let m ← SM.lift (fromBytes (T := TargetsType) (std env0) data)
      set (fun s => { s with targets := m })
      assert (m.signed.version == version)
    else if role = TIMESTAMP then
      let m ← SM.lift (fromBytes (T := TimestampType) (std env0) data)
      set (fun s => { s with timestamp := m })
      assert (m.signed.version == version)
    else
      let m ← SM.lift (fromBytes (T := SnapshotType) (std env0) data)
      set (fun s => { s with snapshot := m })
      assert (m.signed.version == version)

def noError (r : Res Unit) : Test Unit := assert (r matches .ok ())
def unsignedMetadata (r : Res Unit) : Test Unit := assert (r matches .err (.unsignedMetadata _))
def badVersionNumber (r : Res Unit) : Test Unit := assert (r matches .err (.badVersionNumber _))
def expiredMetadata (r : Res Unit) : Test Unit := assert (r matches .err (.expiredMetadata _))
def lengthOrHashMismatch (r : Res Unit) : Test Unit := assert (r matches .err (.lengthOrHashMismatch _))
def downloadLengthMismatch (r : Res Unit) : Test Unit := assert (r matches .err (.downloadLengthMismatch _))

/-- `simulator.Sim.MDRoot.Signed.Version += 1; simulator.Sim.PublishRoot()`. -/
def nextRoot : Test Unit := do
  setRoot (fun r => { r with version := r.version + 1 })
  sim (Sim.publishRoot simEnv)

/-- `delete(simulator.Sim.Signers, role)`. -/
def deleteSigners (role : Str) : Test Unit := set (fun s => { s with signers := s.signers.filter (fun e => e.1 ≠ role) })

/-- `simulator.Sim.MDTimestamp.Signed.Meta["snapshot.json"].Version = v`. -/
def setSnapshotMeta (v : Int) : Test Unit :=
  setTimestamp (fun t => { t with metas := t.metas.map (fun es => es.map (fun e => if e.1 = b!"snapshot.json" then (e.1, e.2.map (fun f => { f with version := v })) else e)) })
/-- `simulator.Sim.MDSnapshot.Signed.Meta["targets.json"].Version = v`. -/
def setTargetsMeta (v : Int) : Test Unit :=
  setSnapshot (fun t => { t with metas := t.metas.map (fun es => es.map (fun e => if e.1 = b!"targets.json" then (e.1, e.2.map (fun f => { f with version := v })) else e)) })

def computeHashes (b : Bool) : Test Unit := set (fun s => { s with computeHashes := b })
def updateTimestamp : Test Unit := sim (Sim.updateTimestamp simEnv)
def updateSnapshot : Test Unit := sim (Sim.updateSnapshot simEnv)
def rotateKeys (role : Str) : Test Unit := sim (Sim.rotateKeys simEnv role)
def publishRoot : Test Unit := sim (Sim.publishRoot simEnv)

/-- The trusted set of a new updater, as `TestLoadTrustedRootMetadata` and `TestUnsafeLoadTrustedRootMetadata` want it. -/
def assertLoaded (cfg : Cfg) : Test Unit := do
  let r ← runWith cfg today (fun _ => pure ())
  noError r.1
  match r.2 with
  | some t =>
    assert (t.root.signed.type == ROOT && t.root.signed.specVersion == b!"1.0.31" && t.root.signed.consistentSnapshot && t.root.signed.version == 1)
    assert (t.snapshot.isNone && t.timestamp.isNone && t.targets.isEmpty)
  | none => assert false

/-- A role delegated to in `updater_consistent_snapshot_test.go`. -/
def addRole (name : Str) : Test Unit :=
  sim (Sim.addDelegation simEnv TARGETS { name := name, keyIDs := some [], threshold := 1, terminating := false, paths := some [b!"*"] } (newTargets simExpiry).signed)

/-- `TestLoadTrustedRootMetadata`, `updater_top_level_update_test.go:177-196`. -/
def loadTrustedRootMetadata : Test Unit := do
  assertLoaded (← loadUpdaterConfig)

/-- `TestUnsafeLoadTrustedRootMetadata`, `updater_top_level_update_test.go:198-217`. -/
def unsafeLoadTrustedRootMetadata : Test Unit := do
  assertLoaded { (← loadUpdaterConfig) with unsafeLocalMode := true }

/-- `TestFirstTimeRefresh`, `updater_top_level_update_test.go:219-240`. -/
def firstTimeRefresh : Test Unit := do
  assertFilesExist [ROOT]
  nextRoot
  let cfg ← loadUpdaterConfig
  noError (← runRefresh cfg today)
  assertFilesExist topLevel
  assertContentEquals ROOT 2
  assertContentEquals TIMESTAMP 0
  assertContentEquals SNAPSHOT 0
  assertContentEquals TARGETS 0

/-- `TestFirstUnsafeTimeRefresh`, `updater_top_level_update_test.go:242-256`. -/
def firstUnsafeTimeRefresh : Test Unit := do
  assertFilesExist [ROOT]
  nextRoot
  let cfg ← loadUpdaterConfig
  let r ← runRefresh { cfg with unsafeLocalMode := true } today
  assert (r matches .err _)
  assertFilesExact [ROOT]

/-- `TestUnsafeRefresh`, `updater_top_level_update_test.go:258-298`. -/
def unsafeRefresh : Test Unit := do
  assertFilesExist [ROOT]
  nextRoot
  let cfg ← loadUpdaterConfig
  noError (← runRefresh cfg today)
  assertFilesExist topLevel
  let r ← runWith { cfg with unsafeLocalMode := true } today refresh
  noError r.1
  assertFilesExist topLevel
  assertContentEquals ROOT 1
  assertContentEquals TIMESTAMP 0
  assertContentEquals SNAPSHOT 0
  assertContentEquals TARGETS 0
  match r.2 with
  | some t =>
    assert (t.root.signed.type == ROOT && t.root.signed.consistentSnapshot && t.root.signed.version == 1)
    assert (t.snapshot.isSome && t.timestamp.isSome && t.targets.length == 1)
  | none => assert false

/-- `TestTrustedRootMissing`, `updater_top_level_update_test.go:300-311`. -/
def trustedRootMissing : Test Unit := do
  let cfg ← loadUpdaterConfig
  let r ← runRefresh { cfg with localTrustedRoot := [] } today
  assert (r matches .err (.other _))

/-- `TestTrustedRootExpired`, `updater_top_level_update_test.go:313-342`. -/
def trustedRootExpired : Test Unit := do
  setRoot (fun r => { r with expires := pastDateTime })
  nextRoot
  let cfg ← loadUpdaterConfig
  expiredMetadata (← runRefresh cfg today)
  assertFilesExist [ROOT]
  assertContentEquals ROOT 2
  let cfg ← loadUpdaterConfig
  setRoot (fun r => { r with expires := simExpiry })
  nextRoot
  noError (← runRefresh cfg today)
  assertFilesExist topLevel
  assertContentEquals ROOT 3

/-- `TestTrustedRootUnsigned`, `updater_top_level_update_test.go:344-375`. -/
def trustedRootUnsigned : Test Unit := do
  let m ← SM.lift (fromBytes (T := RootType) (std env0) (← get Bench.rootBytes))
  let data ← SM.lift (toBytes (std env0) (clearSignatures m) true)
  (fun b => (.ok (), { b with rootBytes := data, fs := fun p => if p = pathOf ROOT then some data else b.fs p }) : Test Unit)
  let cfg ← loadUpdaterConfig
  unsignedMetadata (← runRefresh cfg today)
  assertFilesExist [ROOT]
  let fs ← get Bench.fs
  assert (fs (pathOf ROOT) == some data)

/-- `TestMaxRootRotations`, `updater_top_level_update_test.go:377-400`. -/
def maxRootRotations : Test Unit := do
  let cfg ← loadUpdaterConfig
  nextRoot
  nextRoot
  nextRoot
  nextRoot
  nextRoot
  assert ((← get (fun b => b.sim.root.signed.version)) == 3 + 3)
  noError (← runRefresh { cfg with maxRootRotations := 3 } today)
  assertVersionEquals ROOT (1 + 3)

/-- `TestIntermediateRootInclorrectlySigned`, `updater_top_level_update_test.go:402-424`. -/
def intermediateRootIncorrectlySigned : Test Unit := do
  setRoot (fun r => { r with version := r.version + 1 })
  deleteSigners ROOT
  publishRoot
  let cfg ← loadUpdaterConfig
  unsignedMetadata (← runRefresh cfg today)
  assertFilesExist [ROOT]
  assertContentEquals ROOT 1

/-- `TestIntermediateRootExpired`, `updater_top_level_update_test.go:426-452`. -/
def intermediateRootExpired : Test Unit := do
  setRoot (fun r => { r with expires := pastDateTime })
  nextRoot
  setRoot (fun r => { r with expires := simExpiry })
  nextRoot
  let cfg ← loadUpdaterConfig
  noError (← runRefresh cfg today)
  assertFilesExist topLevel
  assertContentEquals ROOT 3

/-- `TestNewRootSameVersion`, `updater_top_level_update_test.go:454-471`. -/
def newRootSameVersion : Test Unit := do
  publishRoot
  let cfg ← loadUpdaterConfig
  badVersionNumber (← runRefresh cfg today)
  assertFilesExist [ROOT]
  assertContentEquals ROOT 1

/-- `TestNewRootNonconsecutiveVersion`, `updater_top_level_update_test.go:473-490`. -/
def newRootNonconsecutiveVersion : Test Unit := do
  setRoot (fun r => { r with version := r.version + 2 })
  publishRoot
  let cfg ← loadUpdaterConfig
  badVersionNumber (← runRefresh cfg today)
  assertFilesExist [ROOT]
  assertContentEquals ROOT 1

/-- `TestFinalRootExpired`, `updater_top_level_update_test.go:492-511`. -/
def finalRootExpired : Test Unit := do
  setRoot (fun r => { r with expires := pastDateTime })
  nextRoot
  let cfg ← loadUpdaterConfig
  expiredMetadata (← runRefresh cfg today)
  assertFilesExist [ROOT]
  assertContentEquals ROOT 2

/-- `TestNewTimestampUnsigned`, `updater_top_level_update_test.go:513-526`. -/
def newTimestampUnsigned : Test Unit := do
  deleteSigners TIMESTAMP
  let cfg ← loadUpdaterConfig
  unsignedMetadata (← runRefresh cfg today)
  assertFilesExist [ROOT]

/-- `TestNewSnapshotUnsigned`, `updater_top_level_update_test.go:676-688`. -/
def newSnapshotUnsigned : Test Unit := do
  deleteSigners SNAPSHOT
  let cfg ← loadUpdaterConfig
  unsignedMetadata (← runRefresh cfg today)
  assertFilesExist [ROOT, TIMESTAMP]

/-- `TestNewTargetsUnsigned`, `updater_top_level_update_test.go:809-822`. -/
def newTargetsUnsigned : Test Unit := do
  deleteSigners TARGETS
  let cfg ← loadUpdaterConfig
  unsignedMetadata (← runRefresh cfg today)
  assertFilesExist [ROOT, TIMESTAMP, SNAPSHOT]

/-- `TestExpiredTimestampVersionRollback`, `updater_top_level_update_test.go:528-561`. -/
def expiredTimestampVersionRollback : Test Unit := do
  setTimestamp (fun t => { t with expires := day (5 + 7), version := 2 })
  let cfg ← loadUpdaterConfig
  noError (← runRefresh cfg today)
  setTimestamp (fun t => { t with expires := day (5 + 21), version := 1 })
  badVersionNumber (← runRefresh cfg (day (5 + 18)))
  assertVersionEquals TIMESTAMP 2

/-- `TestNewTimestampVersionRollback`, `updater_top_level_update_test.go:563-578`. -/
def newTimestampVersionRollback : Test Unit := do
  setTimestamp (fun t => { t with version := 2 })
  let cfg ← loadUpdaterConfig
  noError (← runRefresh cfg today)
  setTimestamp (fun t => { t with version := 1 })
  badVersionNumber (← runRefresh cfg today)
  assertVersionEquals TIMESTAMP 2

/-- `TestNewTimestampSnapshotRollback`, `updater_top_level_update_test.go:580-598`. -/
def newTimestampSnapshotRollback : Test Unit := do
  setSnapshot (fun t => { t with version := 2 })
  updateTimestamp
  let cfg ← loadUpdaterConfig
  noError (← runRefresh cfg today)
  setSnapshotMeta 1
  setTimestamp (fun t => { t with version := t.version + 1 })
  badVersionNumber (← runRefresh cfg today)
  assertVersionEquals TIMESTAMP 2

/-- `TestNewTimestampExpired`, `updater_top_level_update_test.go:600-612`. -/
def newTimestampExpired : Test Unit := do
  setTimestamp (fun t => { t with expires := pastDateTime })
  updateTimestamp
  let cfg ← loadUpdaterConfig
  expiredMetadata (← runRefresh cfg today)
  assertFilesExist [ROOT]

/-- `TestNewTimestampFastForwardRecovery`, `updater_top_level_update_test.go:614-646`. -/
def newTimestampFastForwardRecovery : Test Unit := do
  setTimestamp (fun t => { t with version := 99999 })
  let cfg ← loadUpdaterConfig
  noError (← runRefresh cfg today)
  assertVersionEquals TIMESTAMP 99999
  rotateKeys TIMESTAMP
  nextRoot
  setTimestamp (fun t => { t with version := 1 })
  noError (← runRefresh cfg today)
  assertVersionEquals TIMESTAMP 1

/-- `TestNewSnapshotHashMismatch`, `updater_top_level_update_test.go:648-674`. -/
def newSnapshotHashMismatch : Test Unit := do
  computeHashes true
  updateTimestamp
  let cfg ← loadUpdaterConfig
  noError (← runRefresh cfg today)
  setSnapshot (fun t => { t with expires := timeOf { exCivil 2030 with year := 2031 }, version := t.version + 1 })
  setSnapshotMeta (← get (fun b => b.sim.snapshot.signed.version))
  setTimestamp (fun t => { t with version := t.version + 1 })
  lengthOrHashMismatch (← runRefresh cfg today)
  assertVersionEquals TIMESTAMP 3
  assertVersionEquals SNAPSHOT 1

/-- `TestNewSnapshotVersionMismatch`, `updater_top_level_update_test.go:690-705`. -/
def newSnapshotVersionMismatch : Test Unit := do
  setSnapshot (fun t => { t with version := t.version + 1 })
  let cfg ← loadUpdaterConfig
  badVersionNumber (← runRefresh cfg today)
  assertFilesExist [ROOT, TIMESTAMP]

/-- `TestNewSnapshotVersionRollback`, `updater_top_level_update_test.go:707-725`. -/
def newSnapshotVersionRollback : Test Unit := do
  setSnapshot (fun t => { t with version := 2 })
  updateTimestamp
  let cfg ← loadUpdaterConfig
  noError (← runRefresh cfg today)
  setSnapshot (fun t => { t with version := 1 })
  updateTimestamp
  badVersionNumber (← runRefresh cfg today)
  assertVersionEquals SNAPSHOT 2

/-- `TestNewSnapshotFastForwardRecovery`, `updater_top_level_update_test.go:727-765`. -/
def newSnapshotFastForwardRecovery : Test Unit := do
  setSnapshot (fun t => { t with version := 99999 })
  updateTimestamp
  let cfg ← loadUpdaterConfig
  noError (← runRefresh cfg today)
  assertVersionEquals SNAPSHOT 99999
  rotateKeys SNAPSHOT
  rotateKeys TIMESTAMP
  nextRoot
  setSnapshot (fun t => { t with version := 1 })
  updateTimestamp
  noError (← runRefresh cfg today)
  assertVersionEquals SNAPSHOT 1

/-- `TestNewSnapshotExpired`, `updater_top_level_update_test.go:767-781`. -/
def newSnapshotExpired : Test Unit := do
  setSnapshot (fun t => { t with expires := pastDateTime })
  updateSnapshot
  let cfg ← loadUpdaterConfig
  expiredMetadata (← runRefresh cfg today)
  assertFilesExist [ROOT]

/-- `TestNewTargetsHashMismatch`, `updater_top_level_update_test.go:783-807`. -/
def newTargetsHashMismatch : Test Unit := do
  computeHashes true
  updateSnapshot
  let cfg ← loadUpdaterConfig
  noError (← runRefresh cfg today)
  setTargets (fun t => { t with version := t.version + 1 })
  setTargetsMeta (← get (fun b => b.sim.targets.signed.version))
  setSnapshot (fun t => { t with version := t.version + 1 })
  updateTimestamp
  lengthOrHashMismatch (← runRefresh cfg today)
  assertVersionEquals SNAPSHOT 3
  assertVersionEquals TARGETS 1

/-- `TestNewTargetsVersionMismatch`, `updater_top_level_update_test.go:824-838`. -/
def newTargetsVersionMismatch : Test Unit := do
  setTargets (fun t => { t with version := t.version + 1 })
  let cfg ← loadUpdaterConfig
  badVersionNumber (← runRefresh cfg today)
  assertFilesExist [ROOT, TIMESTAMP, SNAPSHOT]

/-- `TestNewTargetsExpired`, `updater_top_level_update_test.go:840-854`. -/
def newTargetsExpired : Test Unit := do
  setTargets (fun t => { t with expires := pastDateTime })
  updateSnapshot
  let cfg ← loadUpdaterConfig
  expiredMetadata (← runRefresh cfg today)
  assertFilesExist [ROOT, TIMESTAMP, SNAPSHOT]

/-- `TestComputeMetafileHashesLength`, `updater_top_level_update_test.go:856-877`. -/
def computeMetafileHashesLength : Test Unit := do
  computeHashes true
  updateSnapshot
  let cfg ← loadUpdaterConfig
  noError (← runRefresh cfg today)
  assertVersionEquals TIMESTAMP 2
  assertVersionEquals SNAPSHOT 2
  computeHashes false
  updateSnapshot
  noError (← runRefresh cfg today)
  assertVersionEquals TIMESTAMP 3
  assertVersionEquals SNAPSHOT 3

/-- `TestNewTargetsFastForwardRecovery`, `updater_top_level_update_test.go:879-915`. -/
def newTargetsFastForwardRecovery : Test Unit := do
  setTargets (fun t => { t with version := 99999 })
  updateSnapshot
  let cfg ← loadUpdaterConfig
  noError (← runRefresh cfg today)
  assertVersionEquals TARGETS 99999
  rotateKeys SNAPSHOT
  nextRoot
  setTargets (fun t => { t with version := 1 })
  updateSnapshot
  noError (← runRefresh cfg today)
  assertVersionEquals TARGETS 1

/-- `TestSnapshotRollbackWithLocalSnapshotHashMismatch`, `updater_top_level_update_test.go:917-954`. -/
def snapshotRollbackWithLocalSnapshotHashMismatch : Test Unit := do
  computeHashes true
  setTargets (fun t => { t with version := 2 })
  updateSnapshot
  let cfg ← loadUpdaterConfig
  noError (← runRefresh cfg today)
  setTargets (fun t => { t with version := 1 })
  updateSnapshot
  badVersionNumber (← runRefresh cfg today)

/-- `TestExpiredMetadata`, `updater_top_level_update_test.go:956-1005`. -/
def expiredLocalMetadata : Test Unit := do
  setTimestamp (fun t => { t with expires := day (5 + 7) })
  let cfg ← loadUpdaterConfig
  noError (← runRefresh cfg today)
  setTargets (fun t => { t with version := t.version + 1 })
  updateSnapshot
  setTimestamp (fun t => { t with expires := day (5 + 21) })
  noError (← runRefresh cfg (day (5 + 18)))
  assertVersionEquals TIMESTAMP 2
  assertVersionEquals SNAPSHOT 2
  assertVersionEquals TARGETS 2

/-- `TestMaxMetadataLengths`, `updater_top_level_update_test.go:1007-1044`. -/
def maxMetadataLengths : Test Unit := do
  nextRoot
  let cfg ← loadUpdaterConfig
  let cfg := { cfg with rootMaxLength := 100 }
  downloadLengthMismatch (← runRefresh cfg today)
  let cfg := { cfg with timestampMaxLength := 100 }
  downloadLengthMismatch (← runRefresh cfg today)
  let cfg := { cfg with snapshotMaxLength := 100 }
  downloadLengthMismatch (← runRefresh cfg today)
  let cfg := { cfg with targetsMaxLength := 100 }
  downloadLengthMismatch (← runRefresh cfg today)
  downloadLengthMismatch (← runRefresh cfg today)

/-- `TestTimestampEqVersionsCheck`, `updater_top_level_update_test.go:1046-1071`. -/
def timestampEqVersionsCheck : Test Unit := do
  let cfg ← loadUpdaterConfig
  noError (← runRefresh cfg today)
  setSnapshotMeta 100
  noError (← runRefresh cfg today)
  match (← get Bench.fs) (pathOf TIMESTAMP) with
  | some data =>
    let m ← SM.lift (fromBytes (T := TimestampType) (std env0) data)
    assert (((m.signed.metas.entries.get? b!"snapshot.json").map (fun f => f.map MetaFiles.version)) == some (some 1))
  | none => assert false

/-- `TestTopLevelRolesUpdateWithConsistentSnapshotDisabled`, `updater_consistent_snapshot_test.go:23-53`. -/
def topLevelRolesConsistentSnapshotDisabled : Test Unit := do
  setRoot (fun r => { r with consistentSnapshot := false })
  nextRoot
  let cfg ← loadUpdaterConfig
  set (fun s => { s with fetchedMetadata := [] })
  noError (← runRefresh cfg today)
  assert ((← get (fun b => b.sim.fetchedMetadata)) == [(ROOT, 2), (ROOT, 3), (TIMESTAMP, -1), (SNAPSHOT, -1), (TARGETS, -1)])
  assertFilesExist topLevel

/-- `TestTopLevelRolesUpdateWithConsistentSnapshotEnabled`, `updater_consistent_snapshot_test.go:55-85`. -/
def topLevelRolesConsistentSnapshotEnabled : Test Unit := do
  setRoot (fun r => { r with consistentSnapshot := true })
  nextRoot
  let cfg ← loadUpdaterConfig
  set (fun s => { s with fetchedMetadata := [] })
  noError (← runRefresh cfg today)
  assert ((← get (fun b => b.sim.fetchedMetadata)) == [(ROOT, 2), (ROOT, 3), (TIMESTAMP, -1), (SNAPSHOT, 1), (TARGETS, 1)])
  assertFilesExist topLevel

/-- `TestDelegatesRolesUpdateWithConsistentSnapshotDisabled`, `updater_consistent_snapshot_test.go:87-149`. -/
def delegatesRolesConsistentSnapshotDisabled : Test Unit := do
  setRoot (fun r => { r with consistentSnapshot := false })
  nextRoot
  addRole b!"role1"
  addRole b!".."
  addRole b!"."
  updateSnapshot
  let cfg ← loadUpdaterConfig
  set (fun s => { s with fetchedMetadata := [] })
  let r ← runWith cfg today (fun x => do refresh x; SM.try' (getTargetInfo x b!"anything"))
  assert (r.1 matches .ok (.error (.other _)))
  assert ((← get (fun b => b.sim.fetchedMetadata)).drop 5 == [(b!"role1", -1), (b!"..", -1), (b!".", -1)])
  assertFilesExist topLevel

/-- `TestDelegatesRolesUpdateWithConsistentSnapshotEnabled`, `updater_consistent_snapshot_test.go:151-213`. -/
def delegatesRolesConsistentSnapshotEnabled : Test Unit := do
  setRoot (fun r => { r with consistentSnapshot := true })
  nextRoot
  addRole b!"role1"
  addRole b!".."
  addRole b!"."
  updateSnapshot
  let cfg ← loadUpdaterConfig
  set (fun s => { s with fetchedMetadata := [] })
  let r ← runWith cfg today (fun x => do refresh x; SM.try' (getTargetInfo x b!"anything"))
  assert (r.1 matches .ok (.error (.other _)))
  assert (((← get (fun b => b.sim.fetchedMetadata)).drop 5).isPerm [(b!"role1", 1), (b!"..", 1), (b!".", 1)])
  assertFilesExist topLevel

end GoTest

open GoTest

example : passes loadTrustedRootMetadata = true := by decide +kernel
example : passes unsafeLoadTrustedRootMetadata = true := by decide +kernel
example : passes firstTimeRefresh = true := by decide +kernel
example : passes firstUnsafeTimeRefresh = true := by decide +kernel
example : passes unsafeRefresh = true := by decide +kernel
example : passes trustedRootMissing = true := by decide +kernel
example : passes trustedRootExpired = true := by decide +kernel
example : passes trustedRootUnsigned = true := by decide +kernel
example : passes maxRootRotations = true := by decide +kernel
example : passes intermediateRootIncorrectlySigned = true := by decide +kernel
example : passes intermediateRootExpired = true := by decide +kernel
example : passes newRootSameVersion = true := by decide +kernel
example : passes newRootNonconsecutiveVersion = true := by decide +kernel
example : passes finalRootExpired = true := by decide +kernel
example : passes newTimestampUnsigned = true := by decide +kernel
example : passes newSnapshotUnsigned = true := by decide +kernel
example : passes newTargetsUnsigned = true := by decide +kernel
example : passes expiredTimestampVersionRollback = true := by decide +kernel
example : passes newTimestampVersionRollback = true := by decide +kernel
example : passes newTimestampSnapshotRollback = true := by decide +kernel
example : passes newTimestampExpired = true := by decide +kernel
example : passes newTimestampFastForwardRecovery = true := by decide +kernel
example : passes newSnapshotHashMismatch = true := by decide +kernel
example : passes newSnapshotVersionMismatch = true := by decide +kernel
example : passes newSnapshotVersionRollback = true := by decide +kernel
example : passes newSnapshotFastForwardRecovery = true := by decide +kernel
example : passes newSnapshotExpired = true := by decide +kernel
example : passes newTargetsHashMismatch = true := by decide +kernel
example : passes newTargetsVersionMismatch = true := by decide +kernel
example : passes newTargetsExpired = true := by decide +kernel
example : passes computeMetafileHashesLength = true := by decide +kernel
example : passes newTargetsFastForwardRecovery = true := by decide +kernel
example : passes snapshotRollbackWithLocalSnapshotHashMismatch = true := by decide +kernel
example : passes expiredLocalMetadata = true := by decide +kernel
example : passes maxMetadataLengths = true := by decide +kernel
example : passes timestampEqVersionsCheck = true := by decide +kernel
example : passes topLevelRolesConsistentSnapshotDisabled = true := by decide +kernel
example : passes topLevelRolesConsistentSnapshotEnabled = true := by decide +kernel

/-- This test wants the roles in the order of the delegations. The client iterates over a map, so the test passes with one order, and not with another. -/
example : orders.filter (passesWith · delegatesRolesConsistentSnapshotDisabled) = [[2, 1, 0]] := by decide +kernel

example : orders.all (passesWith · delegatesRolesConsistentSnapshotEnabled) = true := by decide +kernel

end Tuf
