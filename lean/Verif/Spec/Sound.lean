import Verif.Spec.Updater

/-! # Chains of trust -/

namespace Tuf.Spec

/-- The trusted metadata of a targets role is authentic: enough keys that the root assigns to the role have signed it, or enough keys that another authentic role
assigns to it. -/
inductive Authentic (env : Env) (t : Trusted) : Str → Metadata TargetsType → Prop
  | byRoot {role : Str} {m : Metadata TargetsType} : t.targets.get? role = some m → Verifies env (.root t.root) role (.targets m) → Authentic env t role m
  | byRole {role parent : Str} {m p : Metadata TargetsType} : t.targets.get? role = some m → Authentic env t parent p →
      Verifies env (.targets p) role (.targets m) → Authentic env t role m

/-- What a client may rely on in any state. -/
structure SoundSet (env : Env) (t : Trusted) : Prop where
  root : Verifies env (.root t.root) b!"root" (.root t.root)
  timestamp : ∀ ts, t.timestamp = some ts → ¬ Expired t.root.signed.expires t.refTime ∧ Verifies env (.root t.root) b!"timestamp" (.timestamp ts)
  snapshot : ∀ sn, t.snapshot = some sn → (∃ ts, t.timestamp = some ts ∧ ¬ Expired ts.signed.expires t.refTime) ∧
    Verifies env (.root t.root) b!"snapshot" (.snapshot sn)
  targets : ∀ role m, t.targets.get? role = some m → CompleteSet env t ∧ Authentic env t role m ∧ ¬ Expired m.signed.expires t.refTime ∧
    ∃ sn, t.snapshot = some sn ∧ Lists sn.signed.metas (role ++ b!".json") m.signed.version

end Tuf.Spec
