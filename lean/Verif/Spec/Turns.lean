import Verif.Spec.Updater

/-!
# Specification of clients that take turns
-/

namespace Tuf.Spec
open Tuf

/-- The root demands of timestamps and snapshots what `D` demands. -/
structure SameDemands (env : Env) (D r : Metadata RootType) : Prop where
  timestamp : ∀ m, Verifies env (.root r) b!"timestamp" (.timestamp m) ↔ Verifies env (.root D) b!"timestamp" (.timestamp m)
  snapshot : ∀ m, Verifies env (.root r) b!"snapshot" (.snapshot m) ↔ Verifies env (.root D) b!"snapshot" (.snapshot m)

/-- The bytes are a timestamp that meets the demands of `D`. -/
structure IsTimestamp (env : Env) (D : Metadata RootType) (data : Bytes) (m : Metadata TimestampType) : Prop where
  parsed : ParsesTo env data m
  type : m.signed.type = b!"timestamp"
  signed : Verifies env (.root D) b!"timestamp" (.timestamp m)

/-- The bytes are a snapshot that meets the demands of `D`. -/
structure IsSnapshot (env : Env) (D : Metadata RootType) (data : Bytes) (m : Metadata SnapshotType) : Prop where
  parsed : ParsesTo env data m
  type : m.signed.type = b!"snapshot"
  signed : Verifies env (.root D) b!"snapshot" (.snapshot m)

/-- Whatever the one lists, the other lists, in no lower version. -/
def ListsNoLess (a b : GoMap (Option MetaFiles)) : Prop := ∀ name v, Lists a name v → ∃ v', Lists b name v' ∧ v ≤ v'

/-- The second cache is not behind the first: a timestamp that it holds is replaced only by a timestamp that is not older and lists no older snapshot, and a snapshot only by one that lists
the same roles in no lower versions. -/
structure NotBehind (env : Env) (D : Metadata RootType) (dir : Str) (fs fs' : FS) : Prop where
  timestamp : ∀ d m, fs (joinPath dir b!"timestamp.json") = some d → IsTimestamp env D d m →
    ∃ d' m', fs' (joinPath dir b!"timestamp.json") = some d' ∧ IsTimestamp env D d' m' ∧ m.signed.version ≤ m'.signed.version ∧
      ∀ v, Lists m.signed.metas b!"snapshot.json" v → ∃ v', Lists m'.signed.metas b!"snapshot.json" v' ∧ v ≤ v'
  snapshot : ∀ d m, fs (joinPath dir b!"snapshot.json") = some d → IsSnapshot env D d m →
    ∃ d' m', fs' (joinPath dir b!"snapshot.json") = some d' ∧ IsSnapshot env D d' m' ∧ ListsNoLess m.signed.metas m'.signed.metas

/-- What may happen to the files while clients take turns: a call, with any server, IO failures (but reading the cache works) and clock, is finished or interrupted before the next begins, which may be
another client's. Each client refreshes once after `New`, with or without success, to a root that demands what `D` demands; after a success it makes any calls. Neither snapshots list files of the names
`timestamp.json` and `snapshot.json`, nor are targets downloaded to these. -/
inductive Turns (env : Env) (D : Metadata RootType) (dir : Str) (fs : FS) : FS → Prop
  | start : Turns env D dir fs fs
  | new {x : Ctx} {w : World} {evs : List Event} {fs' : FS} : Turns env D dir fs w.fs → x.cfg.localMetadataDir = dir →
      (Tuf.newUpdater x w).2.trace = w.trace ++ evs → CrashState w.fs evs fs' → Turns env D dir fs fs'
  | refresh {x : Ctx} {now : Time} {s : St} {evs : List Event} {fs' : FS} : Turns env D dir fs s.world.fs → x.env = env → x.cfg.localMetadataDir = dir → x.cfg.unsafeLocalMode = false →
      (∀ tr p, x.host.readFails tr p = false) → Tuf.Trusted.new env now x.cfg.localTrustedRoot = .ok s.trusted → SameDemands env D (Tuf.refresh x s).2.trusted.root →
      (Tuf.refresh x s).2.world.trace = s.world.trace ++ evs → CrashState s.world.fs evs fs' → Turns env D dir fs fs'
  | call {x : Ctx} {s : St} {sn : Metadata SnapshotType} {a : Api} {evs : List Event} {fs' : FS} : Turns env D dir fs s.world.fs → x.cfg.localMetadataDir = dir →
      s.trusted.snapshot = some sn → (s.trusted.targets.get? b!"targets").isSome → (∀ name ∈ [b!"timestamp.json", b!"snapshot.json"], ∀ f, sn.signed.metas.get? name ≠ some (some f)) →
      (∀ tf f u, a = .downloadTarget tf f u → ∀ name ∈ [b!"timestamp.json", b!"snapshot.json"], targetFilePath x tf f ≠ .ok (joinPath dir name)) →
      (a.run x s).2.world.trace = s.world.trace ++ evs → CrashState s.world.fs evs fs' → Turns env D dir fs fs'

end Tuf.Spec
