import Verif.Model.ClientExample
import Verif.Spec.Cli

/-! # Specification of the example clients -/

namespace Tuf.Spec
open Tuf

/-! ## The client with trust on first use -/

/-- The folder of the client: `tmp` below the working directory, or nothing if there is no working directory. -/
inductive DemoFolder : Option Str → Str → Prop
  | found {cwd : Str} : DemoFolder (some cwd) (joinPath cwd b!"tmp")
  | missing : DemoFolder none []

/-- The file with the trust anchor. -/
def demoAnchor (dir : Str) : Str := joinPath dir b!"root.json"

/-- What may happen to the files of the client in a folder: any number of runs with any targets, URLs, servers and disk errors, each of which may be interrupted at any moment, and any
changes of files other than the trust anchor. Only asking whether the trust anchor is there works always. -/
inductive DemoLater (env : Env) (dir : Str) (fs : FS) : FS → Prop
  | refl : DemoLater env dir fs fs
  | run {fs1 fs2 : FS} {h : CliHost} {u : DemoURLs} {target : Str} {s : CliSt} {evs : List Event} : DemoLater env dir fs fs1 → s.world.fs = fs1 → (∀ tr, DemoFolder (h.cwd tr) dir) →
      (∀ tr, h.statFails tr (demoAnchor dir) = false) → (demoMain env h u target s).2.world.trace = s.world.trace ++ evs → CrashState fs1 evs fs2 → DemoLater env dir fs fs2
  | other {fs1 fs2 : FS} : DemoLater env dir fs fs1 → fs2 (demoAnchor dir) = fs1 (demoAnchor dir) → DemoLater env dir fs fs2

/-! ## The client for several repositories -/

/-- The data has the length and the hashes that the targets metadata lists for the path. -/
def ListedData (env : Env) (m : Metadata TargetsType) (path : Str) (data : Bytes) : Prop :=
  ∃ tf, m.signed.targets.get? path = some (some tf) ∧ tf.path = path ∧ TargetMatches env tf data

/-- The name before the first slash, or the whole path if there is none. -/
inductive FolderOf (path repo : Str) : Prop
  | plain : 47 ∉ path → repo = path → FolderOf path repo
  | inside {rest : Str} : 47 ∉ repo → path = repo ++ b!"/" ++ rest → FolderOf path repo

/-- A map file and roots that are, all and only, what the targets metadata lists: under `map.json` the map file (without it, nothing), under any other path a root for the repository
called like its first folder. -/
structure Bootstrapped (env : Env) (m : Metadata TargetsType) (mapFile : Bytes) (roots : Entries Bytes) : Prop where
  mapped : ListedData env m b!"map.json" mapFile ∨ (m.signed.targets.get? b!"map.json" = none ∧ mapFile = [])
  rooted : ∀ repo data, roots.get? repo = some data → ∃ path, path ≠ b!"map.json" ∧ FolderOf path repo ∧ ListedData env m path data
  complete : ∀ path repo, (m.signed.targets.get? path).isSome → path ≠ b!"map.json" → FolderOf path repo → (roots.get? repo).isSome

/-- The top-level targets metadata of a complete and current trusted set to which a chain of trust leads from the root `first`. -/
def CurrentTargets (env : Env) (first : Metadata RootType) (now : Time) (m : Metadata TargetsType) : Prop :=
  ∃ t, RootChain env first t.root ∧ CompleteSet env t ∧ t.refTime = now ∧ t.targets.get? b!"targets" = some m ∧ Verifies env (.root t.root) b!"targets" (.targets m) ∧
    ¬ Expired m.signed.expires now

end Tuf.Spec
