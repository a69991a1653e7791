import Verif.Spec.Follow
import Verif.Props.SearchComplete

/-!
# Specification of clients that search a repository from one release to the next
-/

namespace Tuf.Spec
open Tuf

/-- What a search for a path in published roles may answer: it does not crash; an answer is an entry of a role that the delegations lead to; if the roles are at most
`limit`, and no terminating delegation covers the path or no role delegates it twice, there is an answer if such a role has an entry, and that if only one has. -/
structure AnswersPath (env : Env) (docs : Str → Option PubRole) (limit : Int) (path : Str) (out : Res (Option TargetFiles)) : Prop where
  noCrash : out ≠ .panic
  published : ∀ o, out = .ok o → ∃ role p f, PubReached env docs path role ∧ docs role = some p ∧ p.value.targets.get? path = some f ∧ o = f.map (fun f => { f with path := path })
  found : ∀ names : List Str, (∀ role, (docs role).isSome → role ∈ names) → (names.length : Int) ≤ limit →
    Unhindered env path (fun m => ∃ role p, docs role = some p ∧ m = { signed := p.value }) →
    ∀ role p f, PubReached env docs path role → docs role = some p → p.value.targets.get? path = some f →
      (∃ o, out = .ok o) ∧
      ((∀ role' p', PubReached env docs path role' → docs role' = some p' → (p'.value.targets.get? path).isSome → role' = role) →
        out = .ok (f.map (fun f => { f with path := path })))

/-- A client process: it calls `New`, `Refresh`, and `GetTargetInfo` with each of the paths. The repository then has the targets roles `docs`. -/
structure ClientSession where
  run : ClientRun
  docs : Str → Option PubRole
  paths : List Str

/-- The session happens under good conditions, and the roles for its paths are published. -/
structure ClientSession.Good (env : Env) (dir : Str) (v : ClientSession) : Prop where
  run : v.run.Good env dir
  named : ∀ role p, v.docs role = some p → SafeName role ∧ role ∉ [b!"root", b!"timestamp", b!"snapshot"]
  branches : ∀ path ∈ v.paths, Branches v.run.x v.run.srv v.run.now v.run.r v.run.R.sn v.run.R.tg path v.docs

/-- The release of `b` may come after that of `a`: as for top-level metadata, and a changed targets role has a new version. -/
structure VisitBefore (a b : ClientSession) : Prop where
  release : MayFollow a.run.R b.run.R
  roles : ∀ role p q, a.docs role = some p → b.docs role = some q → p.value.version ≠ q.value.version ∨ p.file = q.file

/-- The searches, one after the other, are answered. -/
inductive SearchesAnswered (x : Ctx) (docs : Str → Option PubRole) : St → List Str → St → Prop
  | nil {s : St} : SearchesAnswered x docs s [] s
  | cons {s s' : St} {path : Str} {paths : List Str} : AnswersPath x.env docs x.cfg.maxDelegations path (Tuf.getTargetInfo x path s).1 →
      SearchesAnswered x docs (Tuf.getTargetInfo x path s).2 paths s' → SearchesAnswered x docs s (path :: paths) s'

/-- The sessions, one after the other in the world `w`, all refresh successfully and get their answers. -/
inductive AllAnswered : World → List ClientSession → Prop
  | nil {w : World} : AllAnswered w []
  | cons {w w1 : World} {t0 : Trusted} {s1 s' : St} {v : ClientSession} {vs : List ClientSession} : Tuf.newUpdater v.run.x w = (.ok t0, w1) →
      Tuf.refresh v.run.x ⟨t0, w1⟩ = (.ok (), s1) → SearchesAnswered v.run.x v.docs s1 v.paths s' → AllAnswered s'.world vs → AllAnswered w (v :: vs)

end Tuf.Spec
