import Verif.Model.Cli
import Verif.Spec.Search
import Verif.Spec.Sound
import Verif.Props.Trusted

/-! # Specification of the command line client -/

namespace Tuf.Spec
open Tuf

/-- The file with the trust anchor. -/
def anchorFile (cwd : Str) : Str := joinPath (joinPath cwd b!"tuf_metadata") b!"root.json"

/-- A file with exactly the bytes that authentic, complete and current metadata lists for the target. The chain of trust begins with the root `first`; `now` is the time of the
command. -/
def Delivered (env : Env) (first : Metadata RootType) (now : Time) (target file : Str) (fs : FS) : Prop :=
  ∃ t role m tf data, RootChain env first t.root ∧ CompleteSet env t ∧ t.refTime = now ∧ Authentic env t role m ∧ Reached env t target (· = b!"targets") role ∧
    ¬ Expired m.signed.expires now ∧ m.signed.targets.get? target = some (some tf) ∧ fs file = some data ∧ TargetMatches env tf data

/-- Whoever takes these bytes as the trusted root has a root that a chain of rotations leads to. -/
def Anchored (env : Env) (first : Metadata RootType) (data : Bytes) : Prop :=
  ∀ now t, Trusted.new env now data = .ok t → RootChain env first t.root

/-- What may happen to the files of a client in a working directory: any number of `get` commands with any flags, targets, servers and disk errors, each of which may be interrupted
at any moment, and any changes of files other than the trust anchor. -/
inductive Later (env : Env) (cwd : Str) (fs : FS) : FS → Prop
  | refl : Later env cwd fs fs
  | get {fs1 fs2 : FS} {h : CliHost} {a : CliArgs} {target : Str} {s : CliSt} {evs : List Event} : Later env cwd fs fs1 → s.world.fs = fs1 → (∀ tr, h.cwd tr = some cwd) →
      (getCmd env h a target s).2.world.trace = s.world.trace ++ evs → CrashState fs1 evs fs2 → Later env cwd fs fs2
  | other {fs1 fs2 : FS} : Later env cwd fs fs1 → fs2 (anchorFile cwd) = fs1 (anchorFile cwd) → Later env cwd fs fs2

end Tuf.Spec
