import Verif.Spec.Attack
import Verif.Spec.SearchFollow

/-!
# Specification of searches of clients that were attacked
-/

namespace Tuf.Spec
open Tuf

/-- A published document of the targets role says this: of another version than that of `p`, or `p` itself. -/
def PublishedBefore (env : Env) (p : PubRole) (a : TargetsType) : Prop :=
  ∃ v ss d, GoodTargets env v ∧ ss ≠ [] ∧ Publishes env v ss d ∧ payload a = payload v ∧ (v.version ≠ p.value.version ∨ d = p.file)

/-- The honest holders of the keys of delegated roles sign for these roles only what is published. -/
def OnlyPublished (env : Env) (H : Holders) (first : Metadata RootType) (docs : Str → Option PubRole) : Prop :=
  ∀ role p d, docs role = some p → role ≠ b!"targets" → Endorsed env H first role (.targets d) → PublishedBefore env p d.signed

/-- Clients as in `Careful`; also the keys of the delegated roles are used for published documents only. -/
structure CarefulSearch (env : Env) (H : Holders) (dir : Str) (new : Files) (docs : Str → Option PubRole) (x : Ctx) (t0 : Trusted) : Prop where
  careful : Careful env H dir new x t0
  published : OnlyPublished env H t0.root docs

/-- Every cached document of a delegated role, where there is one, says what was published: it has the same canonical JSON, whatever signatures. -/
def RolesSay (env : Env) (dir : Str) (fs : FS) (docs : Str → Option PubRole) : Prop :=
  ∀ role p d, docs role = some p → role ≠ b!"targets" → fs (joinPath dir (role ++ b!".json")) = some d →
    ∃ m : Metadata TargetsType, ParsesTo env d m ∧ PublishedBefore env p m.signed

/-- As `AnswersPath`, up to the spelling of custom members: an answer says what the published entry says. -/
structure SaysPath (env : Env) (docs : Str → Option PubRole) (limit : Int) (path : Str) (out : Res (Option TargetFiles)) : Prop where
  noCrash : out ≠ .panic
  published : ∀ o, out = .ok o → ∃ role p f, PubReached env docs path role ∧ docs role = some p ∧ p.value.targets.get? path = some f ∧
    o.map viewTarget = f.map (fun f => viewTarget { f with path := path })
  found : ∀ names : List Str, (∀ role, (docs role).isSome → role ∈ names) → (names.length : Int) ≤ limit →
    Unhindered env path (fun m => ∃ role p, docs role = some p ∧ m = { signed := p.value }) →
    ∀ role p f, PubReached env docs path role → docs role = some p → p.value.targets.get? path = some f →
      ∃ o, out = .ok o ∧
      ((∀ role' p', PubReached env docs path role' → docs role' = some p' → (p'.value.targets.get? path).isSome → role' = role) →
        o.map viewTarget = f.map (fun f => viewTarget { f with path := path }))

/-- The searches, one after the other, are answered so. -/
inductive SearchesSay (x : Ctx) (docs : Str → Option PubRole) : St → List Str → St → Prop
  | nil {s : St} : SearchesSay x docs s [] s
  | cons {s s' : St} {path : Str} {paths : List Str} : SaysPath x.env docs x.cfg.maxDelegations path (Tuf.getTargetInfo x path s).1 →
      SearchesSay x docs (Tuf.getTargetInfo x path s).2 paths s' → SearchesSay x docs s (path :: paths) s'

end Tuf.Spec
