import Verif.Model.MultiRepo

/-! # Specification of the multi-repository client -/

namespace Tuf.Spec
open Tuf

/-- The answers of repositories: a target info, or none if the repository returned an error. -/
abbrev Answers := List (Str × Option TargetFiles)

/-- `Asked env h path repos s answers s'`: asking the repositories one after the other gives these answers. -/
inductive Asked (env : Env) (h : Host) (path : Str) : List Str → MSt → Answers → MSt → Prop
  | nil {s : MSt} : Asked env h path [] s [] s
  | info {repo : Str} {repos : List Str} {s s1 s' : MSt} {info : TargetFiles} {as : Answers} :
      onClient env h repo (fun x => Tuf.getTargetInfo x path) s = (.ok (some info), s1) → Asked env h path repos s1 as s' →
      Asked env h path (repo :: repos) s ((repo, some info) :: as) s'
  | error {repo : Str} {repos : List Str} {s s1 s' : MSt} {e : Err} {as : Answers} :
      onClient env h repo (fun x => Tuf.getTargetInfo x path) s = (.err e, s1) → Asked env h path repos s1 as s' →
      Asked env h path (repo :: repos) s ((repo, none) :: as) s'

/-- Asking crashes at one of the repositories. -/
def AskCrash (env : Env) (h : Host) (path : Str) (repos : List Str) (s s' : MSt) : Prop :=
  ∃ before repo after as s1 r, repos = before ++ repo :: after ∧ Asked env h path before s as s1 ∧
    onClient env h repo (fun x => Tuf.getTargetInfo x path) s1 = (r, s') ∧ (r = .panic ∨ r = .ok none)

/-- The answers sorted into groups of equal infos. A group begins with the first answer that is not equal to the info of an earlier group; it holds the repository of that answer and
those whose later answers are equal to it, each once. -/
structure GroupsOf (answers : Answers) (groups : List TargetMatch) : Prop where
  sound : ∀ g ∈ groups, g.repositories.Nodup ∧ ∃ before repo after, answers = before ++ (repo, some g.targetInfo) :: after ∧
    ∀ r, r ∈ g.repositories ↔ r = repo ∨ ∃ info, (r, some info) ∈ after ∧ g.targetInfo.equal info = true
  complete : ∀ repo info, (repo, some info) ∈ answers → ∃ g ∈ groups, repo ∈ g.repositories ∧ (g.targetInfo = info ∨ g.targetInfo.equal info = true)
  distinct : groups.Pairwise (fun g g' => g.targetInfo.equal g'.targetInfo = false)

/-- The group has enough repositories. -/
def Reaches (threshold : Int) (g : TargetMatch) : Prop := threshold ≤ (g.repositories.length : Int)

/-- No group, exactly one group, at least two groups reach the threshold. -/
inductive Consensus (threshold : Int) (groups : List TargetMatch) : Option (Option TargetMatch) → Prop
  | none : (∀ g ∈ groups, ¬ Reaches threshold g) → Consensus threshold groups none
  | one {before after : List TargetMatch} {g : TargetMatch} : groups = before ++ g :: after → Reaches threshold g →
      (∀ g' ∈ before, ¬ Reaches threshold g') → (∀ g' ∈ after, ¬ Reaches threshold g') → Consensus threshold groups (some (some g))
  | many {before between after : List TargetMatch} {g g' : TargetMatch} : groups = before ++ g :: (between ++ g' :: after) → Reaches threshold g →
      Reaches threshold g' → Consensus threshold groups (some Option.none)

/-- One consultation of a mapping: its pattern that matched, the mapping, the answers and their groups. -/
structure Consult where
  pattern : Str
  mapping : Mapping
  answers : Answers
  groups : List TargetMatch

/-- The patterns of the mappings in order; `none` is a mapping that is null in the map file. -/
def agenda (ms : List (Option Mapping)) : List (Option (Str × Mapping)) := ms.flatMap (fun o => match o with
  | some m => m.paths.elems.map (fun p => some (p, m))
  | none => [none])

/-- `MultiRun env h path agenda s consults out s'`: a search over the agenda that consults the mappings whose pattern matches until there is a result. A single group that
reaches the threshold makes it return the last group. -/
inductive MultiRun (env : Env) (h : Host) (path : Str) : List (Option (Str × Mapping)) → MSt → List Consult → Res TargetMatch → MSt → Prop
  | exhausted {s : MSt} {e : Err} : MultiRun env h path [] s [] (.err e) s
  | nullMapping {rest : List (Option (Str × Mapping))} {s : MSt} : MultiRun env h path (none :: rest) s [] .panic s
  | badPattern {p : Str} {m : Mapping} {rest : List (Option (Str × Mapping))} {s : MSt} {e : Err} : env.glob p path = none →
      MultiRun env h path (some (p, m) :: rest) s [] (.err e) s
  | noMatch {p : Str} {m : Mapping} {rest : List (Option (Str × Mapping))} {s s' : MSt} {cs : List Consult} {out : Res TargetMatch} : env.glob p path = some false →
      MultiRun env h path rest s cs out s' → MultiRun env h path (some (p, m) :: rest) s cs out s'
  | crash {p : Str} {m : Mapping} {rest : List (Option (Str × Mapping))} {s s' : MSt} : env.glob p path = some true → AskCrash env h path m.repositories.elems s s' →
      MultiRun env h path (some (p, m) :: rest) s [] .panic s'
  | ambiguous {p : Str} {m : Mapping} {rest : List (Option (Str × Mapping))} {s s' : MSt} {as : Answers} {gs : List TargetMatch} {e : Err} : env.glob p path = some true →
      Asked env h path m.repositories.elems s as s' → GroupsOf as gs → Consensus m.threshold gs (some none) →
      MultiRun env h path (some (p, m) :: rest) s [⟨p, m, as, gs⟩] (.err e) s'
  | chosen {p : Str} {m : Mapping} {rest : List (Option (Str × Mapping))} {s s' : MSt} {as : Answers} {gs : List TargetMatch} {g last : TargetMatch} : env.glob p path = some true →
      Asked env h path m.repositories.elems s as s' → GroupsOf as gs → Consensus m.threshold gs (some (some g)) → gs.getLast? = some last →
      MultiRun env h path (some (p, m) :: rest) s [⟨p, m, as, gs⟩] (.ok last) s'
  | terminated {p : Str} {m : Mapping} {rest : List (Option (Str × Mapping))} {s s' : MSt} {as : Answers} {gs : List TargetMatch} {e : Err} : env.glob p path = some true →
      Asked env h path m.repositories.elems s as s' → GroupsOf as gs → Consensus m.threshold gs none → m.terminating = true →
      MultiRun env h path (some (p, m) :: rest) s [⟨p, m, as, gs⟩] (.err e) s'
  | next {p : Str} {m : Mapping} {rest : List (Option (Str × Mapping))} {s s1 s' : MSt} {as : Answers} {gs : List TargetMatch} {cs : List Consult} {out : Res TargetMatch} :
      env.glob p path = some true → Asked env h path m.repositories.elems s as s1 → GroupsOf as gs → Consensus m.threshold gs none → m.terminating = false →
      MultiRun env h path rest s1 cs out s' → MultiRun env h path (some (p, m) :: rest) s (⟨p, m, as, gs⟩ :: cs) out s'

end Tuf.Spec
