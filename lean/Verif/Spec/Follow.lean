import Verif.Spec.Publish

/-!
# Specification of repositories that publish one release after the other
-/

namespace Tuf.Spec
open Tuf

/-- The files of a release, the values in them, and the entries that list snapshot and targets. -/
structure Files where
  ts : TimestampType
  sn : SnapshotType
  tg : TargetsType
  dts : Bytes
  dsn : Bytes
  dtg : Bytes
  fsn : MetaFiles
  ftg : MetaFiles

/-- A release, now or once: its documents were built and signed, by whatever keys, and list each other. -/
structure WasReleased (env : Env) (R : Files) : Prop where
  goodTimestamp : GoodTimestamp env R.ts
  goodSnapshot : GoodSnapshot env R.sn
  goodTargets : GoodTargets env R.tg
  timestamp : ∃ ss, ss ≠ [] ∧ Publishes env R.ts ss R.dts
  snapshot : ∃ ss, ss ≠ [] ∧ Publishes env R.sn ss R.dsn
  targets : ∃ ss, ss ≠ [] ∧ Publishes env R.tg ss R.dtg
  snapshotListed : R.ts.metas.get? b!"snapshot.json" = some (some R.fsn)

/-- `new` may be released after `old`: versions do not decrease, no file disappears from the snapshot, and a new document has a new version. -/
structure MayFollow (old new : Files) : Prop where
  timestamp : old.ts.version < new.ts.version ∨ old.dts = new.dts
  snapshotEntry : old.fsn.version ≤ new.fsn.version
  snapshot : old.sn.version ≠ new.sn.version ∨ old.dsn = new.dsn
  listed : ∀ name f, old.sn.metas.get? name = some (some f) → ∃ f', new.sn.metas.get? name = some (some f') ∧ f.version ≤ f'.version
  targets : old.tg.version ≠ new.tg.version ∨ old.dtg = new.dtg

/-- The two files are read as the same document. -/
def SameDocument (T : Type) [RoleType T] (env : Env) (d d' : Bytes) : Prop := ∀ m : Metadata T, ParsesTo env d m ↔ ParsesTo env d' m

/-- The cached top-level metadata, where there is any, is from releases after which `new` may be released (possibly different ones). -/
structure CacheBefore (env : Env) (dir : Str) (fs : FS) (new : Files) : Prop where
  timestamp : ∀ d, fs (joinPath dir b!"timestamp.json") = some d → ∃ R, WasReleased env R ∧ MayFollow R new ∧ SameDocument TimestampType env d R.dts
  snapshot : ∀ d, fs (joinPath dir b!"snapshot.json") = some d → ∃ R, WasReleased env R ∧ MayFollow R new ∧ SameDocument SnapshotType env d R.dsn
  targets : ∀ d, fs (joinPath dir b!"targets.json") = some d → ∃ R, WasReleased env R ∧ MayFollow R new ∧ SameDocument TargetsType env d R.dtg

/-- The file is some version of a targets role that was published, by whatever keys, and if it has the version of the current file `p`, then it is that. -/
def RoleBefore (env : Env) (p : PubRole) (d : Bytes) : Prop :=
  ∃ v ss d', GoodTargets env v ∧ ss ≠ [] ∧ Publishes env v ss d' ∧ SameDocument TargetsType env d d' ∧ (v.version ≠ p.value.version ∨ d' = p.file)

/-- The cached files of delegated roles, where there are any, are from earlier releases (possibly different ones). -/
def RolesBefore (env : Env) (dir : Str) (fs : FS) (docs : Str → Option PubRole) : Prop :=
  ∀ role p d, docs role = some p → role ≠ b!"targets" → fs (joinPath dir (role ++ b!".json")) = some d → RoleBefore env p d

/-- The current release of a repository with root `r`. -/
def Released (env : Env) (now : Time) (r : RootType) (R : Files) : Prop := Release env now r R.ts R.sn R.tg R.dts R.dsn R.dtg R.fsn R.ftg

/-- The server has the files of the release. -/
def ServingFiles (x : Ctx) (srv : Str → Int → Except Err Bytes) (r : RootType) (R : Files) : Prop := Serving x srv r R.dts R.dsn R.dtg R.fsn R.ftg

/-! ## Visits: a client process that calls `New` and `Refresh` -/

/-- A client, the server it talks to, the time, and what the repository then has: root and release. -/
structure ClientRun where
  x : Ctx
  srv : Str → Int → Except Err Bytes
  now : Time
  r : RootType
  R : Files

/-- The visit happens under good conditions: caching is on in the directory `dir`, disk and network work, the server has a release, and the client's initial root leads to the
current root within the limit. -/
structure ClientRun.Good (env : Env) (dir : Str) (v : ClientRun) : Prop where
  sameEnv : v.x.env = env
  sameDir : v.x.cfg.localMetadataDir = dir
  online : v.x.cfg.unsafeLocalMode = false
  caching : v.x.cfg.disableLocalCache = false
  url : v.x.cfg.remoteMetadataURL ≠ []
  dirs : dir ≠ [] ∧ v.x.cfg.localTargetsDir ≠ []
  disk : GoodDisk v.x.host
  mkdir : ∀ tr p, v.x.host.mkdirFails tr p = false
  network : Serves v.x.host v.srv
  clock : ∀ tr, v.x.host.now tr = v.now
  released : Released env v.now v.r v.R
  served : ServingFiles v.x v.srv v.r v.R
  roots : ∃ t0 t, v.x.cfg.localTrustedRoot ≠ [] ∧ Tuf.Trusted.new env v.now v.x.cfg.localTrustedRoot = .ok t0 ∧
    0 ≤ v.x.cfg.maxRootRotations ∧ wrap64 (t0.root.signed.version + 1) + v.x.cfg.maxRootRotations < 2 ^ 63 ∧
    RootsLeadTo v.x v.srv v.x.cfg.maxRootRotations.toNat t0 t ∧ t.root.signed = readRoot v.r

/-- The visits, one after the other in the world `w`, all succeed, and after each the client trusts what the repository then has. -/
inductive AllSucceed : World → List ClientRun → Prop
  | nil {w : World} : AllSucceed w []
  | cons {w w1 : World} {t0 : Trusted} {s' : St} {v : ClientRun} {vs : List ClientRun} {ts : Metadata TimestampType} {sn : Metadata SnapshotType} {tg : Metadata TargetsType} :
      Tuf.newUpdater v.x w = (.ok t0, w1) → Tuf.refresh v.x ⟨t0, w1⟩ = (.ok (), s') →
      s'.trusted.root.signed = readRoot v.r → s'.trusted.timestamp = some ts → ts.signed = viewTimestamp v.R.ts →
      s'.trusted.snapshot = some sn → sn.signed = viewSnapshot v.R.sn → s'.trusted.targets = [(b!"targets", tg)] → tg.signed = readTargets v.R.tg →
      AllSucceed s'.world vs → AllSucceed w (v :: vs)

end Tuf.Spec
