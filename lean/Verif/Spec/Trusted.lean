import Verif.Model.Trusted
import Verif.Spec.Delegation
import Verif.Spec.Hashes

/-!
# Specification of the trusted metadata set

When a document may become trusted, and what histories of API calls are.
-/

namespace Tuf.Spec
open Tuf

/-- Expired at the reference time. -/
def Expired (expires ref : Time) : Prop := expires.instant < ref.instant

/-- The meta map lists version `v` for the file name. -/
def Lists (metas : GoMap (Option MetaFiles)) (name : Str) (v : Int) : Prop :=
  ∃ f, metas.get? name = some (some f) ∧ f.version = v

/-- The bytes parse to this metadata (`FromBytes`). -/
def ParsesTo {T : Type} [RoleType T] (env : Env) (data : Bytes) (m : Metadata T) : Prop := fromBytes env data = .ok m

/-- What must hold for bytes to become the trusted root after `t`. Go's `int64` addition wraps around. -/
structure RootAccepted (env : Env) (t : Trusted) (data : Bytes) (new : Metadata RootType) : Prop where
  early : t.timestamp = none
  parsed : ParsesTo env data new
  type : new.signed.type = b!"root"
  byOld : Verifies env (.root t.root) b!"root" (.root new)
  version : new.signed.version = wrap64 (t.root.signed.version + 1)
  byNew : Verifies env (.root new) b!"root" (.root new)

/-- What must hold for bytes to be stored as timestamp. -/
structure TimestampAccepted (env : Env) (t : Trusted) (data : Bytes) (new : Metadata TimestampType) : Prop where
  early : t.snapshot = none
  rootFresh : ¬ Expired t.root.signed.expires t.refTime
  parsed : ParsesTo env data new
  type : new.signed.type = b!"timestamp"
  signed : Verifies env (.root t.root) b!"timestamp" (.timestamp new)
  newer : ∀ old, t.timestamp = some old → old.signed.version < new.signed.version
  snapshotVersion : ∀ old, t.timestamp = some old →
    ∃ v v', Lists old.signed.metas b!"snapshot.json" v ∧ Lists new.signed.metas b!"snapshot.json" v' ∧ v ≤ v'

/-- What must hold for bytes to be stored as snapshot. -/
structure SnapshotAccepted (env : Env) (t : Trusted) (data : Bytes) (isTrusted : Bool) (new : Metadata SnapshotType) : Prop where
  timestamp : ∃ ts, t.timestamp = some ts ∧ ¬ Expired ts.signed.expires t.refTime ∧
    (isTrusted = false → ∃ f, ts.signed.metas.get? b!"snapshot.json" = some (some f) ∧ MetaMatches env f data)
  early : t.targets.get? b!"targets" = none
  parsed : ParsesTo env data new
  type : new.signed.type = b!"snapshot"
  signed : Verifies env (.root t.root) b!"snapshot" (.snapshot new)
  noRollback : ∀ old, t.snapshot = some old → ∀ name f, (name, f) ∈ old.signed.metas.entries →
    ∃ o n, f = some o ∧ new.signed.metas.get? name = some (some n) ∧ o.version ≤ n.version

/-- The metadata that a delegator name stands for: the root, or a trusted targets role. -/
inductive DelegatorIs (t : Trusted) : Str → AnyMeta → Prop
  | root : DelegatorIs t b!"root" (.root t.root)
  | targets {name : Str} {m : Metadata TargetsType} : name ≠ b!"root" → t.targets.get? name = some m → DelegatorIs t name (.targets m)

/-- What must hold for bytes to be stored as targets role `role` under `delegator`. -/
structure TargetsAccepted (env : Env) (t : Trusted) (data : Bytes) (role delegator : Str) (new : Metadata TargetsType) : Prop where
  snapshot : ∃ sn ts f D, t.snapshot = some sn ∧ t.timestamp = some ts ∧ ¬ Expired sn.signed.expires t.refTime ∧
    Lists ts.signed.metas b!"snapshot.json" sn.signed.version ∧
    sn.signed.metas.get? (role ++ b!".json") = some (some f) ∧ MetaMatches env f data ∧ new.signed.version = f.version ∧
    DelegatorIs t delegator D ∧ Verifies env D role (.targets new)
  parsed : ParsesTo env data new
  type : new.signed.type = b!"targets"
  fresh : ¬ Expired new.signed.expires t.refTime

/-- A call of the trusted set's API. -/
inductive Call where
  | root (data : Bytes)
  | timestamp (data : Bytes)
  | snapshot (data : Bytes) (isTrusted : Bool)
  | targets (data : Bytes) (role delegator : Str)

/-- Outcome of a call without its value. -/
def outcome {α : Type} : Res α → Res Unit
  | .ok _ => .ok ()
  | .err e => .err e
  | .panic => .panic

/-- Outcome of a call and the trusted set after it (also after a panic). -/
def Call.run (env : Env) (t : Trusted) : Call → Res Unit × Trusted
  | .root d => (outcome (t.updateRoot env d).1, (t.updateRoot env d).2)
  | .timestamp d => (outcome (t.updateTimestamp env d).1, (t.updateTimestamp env d).2)
  | .snapshot d b => (outcome (t.updateSnapshot env d b).1, (t.updateSnapshot env d b).2)
  | .targets d r p => (outcome (t.updateDelegatedTargets env d r p).1, (t.updateDelegatedTargets env d r p).2)

/-- `History env t t'`: some sequence of calls, with any bytes and any outcomes, leads from `t` to `t'`. -/
inductive History (env : Env) (t : Trusted) : Trusted → Prop
  | refl : History env t t
  | step {t' : Trusted} (c : Call) : History env t t' → History env t (c.run env t').2

/-- The calls a client may make in state `t`: any, but targets roles other than the top-level one only after it. -/
def ClientCall (t : Trusted) : Call → Prop
  | .targets _ role _ => role = b!"targets" ∨ (t.targets.get? b!"targets").isSome
  | _ => True

/-- Histories of client calls. -/
inductive ClientHistory (env : Env) (t : Trusted) : Trusted → Prop
  | refl : ClientHistory env t t
  | step {t' : Trusted} (c : Call) : ClientHistory env t t' → ClientCall t' c → ClientHistory env t (c.run env t').2

end Tuf.Spec
