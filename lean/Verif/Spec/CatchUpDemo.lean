import Verif.Spec.CatchUp
import Verif.Spec.ClientExample

/-!
# Specification of runs of the example client that is many root rotations behind
-/

namespace Tuf.Spec
open Tuf

/-- A run of the example client under good conditions against a server with these root files. Nothing is said about the other files of the server: the run may fail. -/
structure DemoGood (env : Env) (cwd : Str) (rs : List RootFile) (h : CliHost) (u : DemoURLs) (s : CliSt) : Prop where
  getwd : h.cwd s.world.trace = some cwd
  stat : ∀ tr p, h.statFails tr p = false
  read : ∀ tr p, h.readFails tr p = false
  mkdir : ∀ tr p, h.mkdirFails tr p = false
  disk : GoodDisk h.toHost
  temps : NoTemps s.world.fs
  url : u.metadata ≠ [] ∧ (env.urlJoin u.metadata b!"targets").isSome
  server : ∃ srv, Serves h.toHost srv ∧ HasRoots u.metadata 512000 srv rs ∧ NoRootTargets env u.metadata srv

/-- `k` such runs for any targets, and any changes of files other than the trusted root in between. -/
inductive DemoRuns (env : Env) (cwd : Str) (rs : List RootFile) (fs : FS) : Nat → FS → Prop
  | start : DemoRuns env cwd rs fs 0 fs
  | run {k : Nat} {fs1 : FS} {h : CliHost} {u : DemoURLs} {target : Str} {s : CliSt} : DemoRuns env cwd rs fs k fs1 → s.world.fs = fs1 → DemoGood env cwd rs h u s →
      DemoRuns env cwd rs fs (k + 1) (demoMain env h u target s).2.world.fs
  | other {k : Nat} {fs1 fs2 : FS} : DemoRuns env cwd rs fs k fs1 → fs2 (demoAnchor (joinPath cwd b!"tmp")) = fs1 (demoAnchor (joinPath cwd b!"tmp")) → DemoRuns env cwd rs fs k fs2

end Tuf.Spec
