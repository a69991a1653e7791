import Verif.Model.MultiRepo
import Verif.Spec.Search
import Verif.Spec.Sound
import Verif.Props.Trusted

/-! # Specification: sessions of a multi-repository client -/

namespace Tuf.Spec
open Tuf

/-- A call of a method of the client, with any arguments. -/
inductive MultiApi where
  | refresh
  | getTargetInfo (path : Str)
  | getTopLevelTargets
  | downloadTarget (tf : TargetFiles) (filePath targetBaseURL : Str) (repos : List Str)

/-- The state after a call, whatever its outcome. -/
def MultiApi.after (env : Env) (h : Host) (c : MultiCfg) (s : MSt) : MultiApi → MSt
  | .refresh => (multiRefresh env h s).2
  | .getTargetInfo p => (multiGetTargetInfo env h c p s).2
  | .getTopLevelTargets => (multiGetTopLevelTargets env h c s).2
  | .downloadTarget tf f u repos => (multiDownloadTarget env h tf f u repos s).2

/-- Some sequence of calls leads from `s` to `s'`. -/
inductive MultiSession (env : Env) (h : Host) (c : MultiCfg) (s : MSt) : MSt → Prop
  | refl : MultiSession env h c s s
  | step {s' : MSt} (a : MultiApi) : MultiSession env h c s s' → MultiSession env h c s (a.after env h c s')

/-- Authentic, complete and current metadata, to which a chain of trust leads from the root `first`, lists the info for the path. -/
def ListsInfo (env : Env) (first : Metadata RootType) (now : Time) (path : Str) (info : TargetFiles) : Prop :=
  ∃ t role m, RootChain env first t.root ∧ CompleteSet env t ∧ t.refTime = now ∧ Authentic env t role m ∧ Reached env t path (· = b!"targets") role ∧ ¬ Expired m.signed.expires now ∧
    m.signed.targets.get? path = some (some info) ∧ info.path = path

/-- The repository, trusted by nothing but its own root in the configuration, lists the info for the path. -/
def RepoLists (env : Env) (c : MultiCfg) (repo path : Str) (info : TargetFiles) : Prop :=
  (c.repoMap.repositories.get? repo).isSome ∧ ∃ bytes now t0, c.trustedRoots.get? repo = some bytes ∧ Trusted.new env now bytes = .ok t0 ∧ ListsInfo env t0.root now path info

/-- The repositories, all different, each list this info or one that `Equal` takes for the same. -/
def Supports (env : Env) (c : MultiCfg) (path : Str) (info : TargetFiles) (repos : List Str) : Prop :=
  repos.Nodup ∧ ∀ repo ∈ repos, ∃ i, RepoLists env c repo path i ∧ (i = info ∨ info.equal i = true)

end Tuf.Spec
