import Verif.Spec.Follow

/-!
# Specification of recovery from stolen keys
-/

namespace Tuf.Spec
open Tuf

/-- The bytes are a document of a role, of the declared type `type`, that the keys of some root once signed sufficiently (so that clients may have it in their cache), but not
those of `root`. Its version can be any. -/
structure Disowned {T : Type} [RoleType T] (env : Env) (root : Metadata RootType) (role : Str) (m : Metadata T) (type : Str) (data : Bytes) : Prop where
  parsed : ParsesTo env data m
  typed : type = role
  once : ∃ old : Metadata RootType, Verifies env (.root old) role (RoleType.any m)
  notNow : ¬ Verifies env (.root root) role (RoleType.any m)

/-- Every cached top-level document is from a release after which `new` may be released, or disowned by `root`. -/
structure CacheRecoverable (env : Env) (dir : Str) (fs : FS) (root : Metadata RootType) (new : Files) : Prop where
  timestamp : ∀ d, fs (joinPath dir b!"timestamp.json") = some d → (∃ R, WasReleased env R ∧ MayFollow R new ∧ SameDocument TimestampType env d R.dts) ∨
    ∃ m : Metadata TimestampType, Disowned env root b!"timestamp" m m.signed.type d
  snapshot : ∀ d, fs (joinPath dir b!"snapshot.json") = some d → (∃ R, WasReleased env R ∧ MayFollow R new ∧ SameDocument SnapshotType env d R.dsn) ∨
    ∃ m : Metadata SnapshotType, Disowned env root b!"snapshot" m m.signed.type d
  targets : ∀ d, fs (joinPath dir b!"targets.json") = some d → (∃ R, WasReleased env R ∧ MayFollow R new ∧ SameDocument TargetsType env d R.dtg) ∨
    ∃ m : Metadata TargetsType, Disowned env root b!"targets" m m.signed.type d

end Tuf.Spec
