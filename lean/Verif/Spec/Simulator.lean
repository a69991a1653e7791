import Verif.Model.Simulator
import Verif.Spec.Edits
import Verif.Spec.Std.Url

/-! # Specification of the repository simulator of the tests -/

namespace Tuf.Spec
open Tuf Tuf.Std

/-- The keys that are made work, and different keys have different key IDs. -/
structure FreshKeys (q : SimEnv) : Prop where
  work : ∀ n, ∃ m, EdSigner q.env (q.fresh n) m
  distinct : ∀ n n' id, SignerID q.env (q.fresh n) id → SignerID q.env (q.fresh n') id → q.fresh n = q.fresh n'

/-- Run one after the other. -/
def inTurn {α : Type} (f : α → SM Sim Unit) : List α → SM Sim Unit
  | [] => pure ()
  | a :: as => do
    f a
    inTurn f as

/-- `MDRoot.Signed.Version += 1; PublishRoot()` -/
def nextRoot (q : SimEnv) : SM Sim Unit := do
  Sim.modify (fun s => { s with root := { s.root with signed := { s.root.signed with version := wrap64 (s.root.signed.version + 1) } } })
  Sim.publishRoot q

/-- What a test does with the simulator. -/
inductive SimStep where
  /-- Rotate the keys of roles and publish a root with them, if there are any; add delegations of the top-level targets and target files; publish all that: targets with the next version, and
  `UpdateSnapshot`. -/
  | release (rotated : List Str) (roles : List (DelegatedRole × TargetsType)) (files : List (Str × Bytes))
  /-- Rotate the keys of root, keeping the old signers, and publish a root. -/
  | rotateRoot
  /-- `UpdateTimestamp` -/
  | timestamp
  /-- `ComputeMetafileHashesAndLength = on` -/
  | hashes (on : Bool)

def SimStep.run (q : SimEnv) : SimStep → SM Sim Unit
  | .release rotated roles files => do
    inTurn (Sim.rotateKeys q) rotated
    if rotated = [] then pure () else nextRoot q
    inTurn (fun r => Sim.addDelegation q TARGETS r.1 r.2) roles
    inTurn (fun f => Sim.addTarget q TARGETS f.2 f.1) files
    Sim.modify (fun s => { s with targets := { s.targets with signed := { s.targets.signed with version := wrap64 (s.targets.signed.version + 1) } } })
    Sim.updateSnapshot q
  | .rotateRoot => do
    let old ← Sim.get (fun s => (s.signers.get? ROOT).getD [])
    Sim.rotateKeys q ROOT
    inTurn (fun e => Sim.addSigner ROOT e.1 e.2) old
    nextRoot q
  | .timestamp => Sim.updateTimestamp q
  | .hashes on => Sim.modify (fun s => { s with computeHashes := on })

/-- Rotated are roles other than root; delegated roles are not called like top-level ones, are of texts and integers of 64 bits, and so are the target files. -/
def SimStep.Fine (env : Env) : SimStep → Prop
  | .release rotated roles files =>
    (∀ role ∈ rotated, role ∈ [b!"timestamp", b!"snapshot", b!"targets"]) ∧
    (∀ r ∈ roles, r.1.name ∉ [b!"root", b!"timestamp", b!"snapshot", b!"targets"] ∧ Utf8 r.1.name ∧ GoodDelegations env { keys := some [], roles := some [r.1] } ∧
      WholeDelegations { keys := some [], roles := some [r.1] } ∧ DelegationsText 9994 { keys := some [], roles := some [r.1] } ∧
      inInt64 r.2.version = true) ∧
    ∀ f ∈ files, Utf8 f.1 ∧ f.2.length < 2 ^ 63
  | _ => True

/-- The simulator after downloads, whatever their results. -/
def afterDownloads (q : SimEnv) : List (Str × Int) → Sim → Sim
  | [], s => s
  | d :: ds, s => afterDownloads q ds (Sim.downloadFile q d.1 d.2 s).2

/-- A result of the simulator as a client gets it; a crash ends the process of both, here the client gets an error. -/
def answer : Res Bytes → Except Err Bytes
  | .ok data => .ok data
  | .err e => .error e
  | .panic => .error (.other "crash")

/-- A visit: what the test does before it, the client and the time, and the downloads that the simulator has answered when the test goes on. -/
structure SimVisit where
  steps : List SimStep
  x : Ctx
  now : Time
  downloads : List (Str × Int)

/-- `/a/b` with names of letters, digits, `-`, `_`, `.` and `~`; or nothing. -/
def SimDir (d : Str) : Prop := ∃ ps : List Str, (∀ p ∈ ps, SafeName p) ∧ d = ps.flatMap (fun p => b!"/" ++ p)

/-- A client of the simulator `s`, whose cache is in `dir`: its trusted root is one that was published, the simulator is its fetcher (every answer is one that the simulator gives after some
downloads; answers to the same request are the same during the visit, though the signatures of delegated roles with several keys might come in another order), its disk works, and the documents
are within its limits. -/
structure SimClient (q : SimEnv) (dir : Str) (s : Sim) (x : Ctx) (now : Time) : Prop where
  sameEnv : x.env = q.env
  root : x.cfg.localTrustedRoot ∈ s.signedRoots
  url : x.cfg.remoteMetadataURL = s.localDir ++ b!"/metadata"
  online : x.cfg.unsafeLocalMode = false
  caching : x.cfg.disableLocalCache = false
  sameDir : x.cfg.localMetadataDir = dir
  dirs : dir ≠ [] ∧ x.cfg.localTargetsDir ≠ []
  disk : GoodDisk x.host
  mkdir : ∀ tr p, x.host.mkdirFails tr p = false
  clock : ∀ tr, x.host.now tr = now
  network : ∃ srv, Serves x.host srv ∧ ∀ url n, ∃ ds, srv url n = answer (Sim.downloadFile q url n (afterDownloads q ds s)).1
  rotations : (s.signedRoots.length : Int) ≤ x.cfg.maxRootRotations ∧ x.cfg.maxRootRotations < 2 ^ 62
  rootLimit : ∀ d ∈ s.signedRoots, (d.length : Int) ≤ x.cfg.rootMaxLength
  limits : ∀ role n, (role, n) ∈ [(b!"timestamp", x.cfg.timestampMaxLength), (b!"snapshot", x.cfg.snapshotMaxLength), (b!"targets", x.cfg.targetsMaxLength)] →
    ∀ d, (Sim.fetchMetadata q role (-1) s).1 = .ok d → (d.length : Int) ≤ n
  lengths : ∀ name f, s.snapshot.signed.metas.get? name = some (some f) ∨ s.timestamp.signed.metas.get? name = some (some f) → f.length < 2 ^ 63
  fresh : ¬ Expired s.safeExpiry now

/-- The visits happen under good conditions. -/
def GoodVisits (q : SimEnv) (dir : Str) : Sim → List SimVisit → Prop
  | _, [] => True
  | s, v :: vs => (∀ st ∈ v.steps, st.Fine q.env) ∧
    ∀ s1, inTurn (SimStep.run q) v.steps s = (.ok (), s1) → SimClient q dir s1 v.x v.now ∧ GoodVisits q dir (afterDownloads q v.downloads s1) vs

/-- What the test does succeeds, and all visits, one after the other in the world `w`, succeed: the client then trusts what the simulator has. -/
inductive VisitsSucceed (q : SimEnv) : Sim → World → List SimVisit → Prop
  | nil {s : Sim} {w : World} : VisitsSucceed q s w []
  | cons {s s1 : Sim} {w w1 : World} {t0 : Trusted} {c : St} {v : SimVisit} {vs : List SimVisit} {ts : Metadata TimestampType} {sn : Metadata SnapshotType} {tg : Metadata TargetsType} :
      inTurn (SimStep.run q) v.steps s = (.ok (), s1) → Tuf.newUpdater v.x w = (.ok t0, w1) → Tuf.refresh v.x ⟨t0, w1⟩ = (.ok (), c) →
      c.trusted.root.signed = readRoot s1.root.signed → c.trusted.timestamp = some ts → ts.signed = viewTimestamp s1.timestamp.signed →
      c.trusted.snapshot = some sn → sn.signed = viewSnapshot s1.snapshot.signed → c.trusted.targets = [(b!"targets", tg)] → tg.signed = readTargets s1.targets.signed →
      VisitsSucceed q (afterDownloads q v.downloads s1) c.world vs → VisitsSucceed q s w (v :: vs)

end Tuf.Spec
