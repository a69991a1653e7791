import Verif.Spec.Updater
import Verif.Spec.Paths

/-!
# Specification of the delegation search

A search is a list of visits. Its agenda is ordered by trust; a role is visited at most once.
-/

namespace Tuf.Spec
open Tuf

/-- `Covers env m path name t`: the targets metadata `m` has a delegation to role `name` that covers the path, with terminating flag `t`. With several such roles of one
name the last counts. A succinct delegation covers every path by one bin, which is terminating. -/
inductive Covers (env : Env) (m : Metadata TargetsType) (path : Str) : Str → Bool → Prop
  | listed {d : Delegations} {before after : List DelegatedRole} {r : DelegatedRole} :
      m.signed.delegations = some d → d.roles = some (before ++ r :: after) → RoleCovers env r path →
      (∀ r' ∈ after, r'.name = r.name → ¬ RoleCovers env r' path) → Covers env m path r.name r.terminating
  | bin {d : Delegations} {sr : SuccinctRoles} {suffix : Str} :
      m.signed.delegations = some d → d.roles = none → d.succinctRoles = some sr →
      (1 ≤ sr.bitLength → sr.bitLength ≤ 32 → 4 ≤ (env.sha256 path).length →
        BinName sr (leftmostBits sr.bitLength.toNat (env.sha256 path)) (sr.namePrefix ++ b!"-" ++ suffix)) →
      Covers env m path (sr.namePrefix ++ b!"-" ++ suffix) true

/-- The roles that are to be visited after a role with metadata `m`: the delegations that cover the path, in some order, up to and including the first
terminating one; `stop` tells whether there is one. -/
def NextRoles (env : Env) (m : Metadata TargetsType) (path : Str) (children : List Str) (stop : Bool) : Prop :=
  ∃ all : List (Str × Bool), (all.map Prod.fst).Nodup ∧ (∀ p ∈ all, Covers env m path p.1 p.2) ∧
    (∀ name t, Covers env m path name t → ∃ name', (name', t) ∈ all ∧ (name' = name ∨ ∃ d, m.signed.delegations = some d ∧ d.roles = none)) ∧
    ((stop = false ∧ (∀ p ∈ all, p.2 = false) ∧ children = all.map Prod.fst) ∨
     (stop = true ∧ ∃ before name after, all = before ++ (name, true) :: after ∧ (∀ p ∈ before, p.2 = false) ∧
        children = before.map Prod.fst ++ [name]))

/-- A visit: the role, the role that delegated to it, the state before, and the metadata that was consulted (none if it could not be loaded). -/
structure Visit where
  role : Str
  parent : Str
  before : St
  found : Option (Metadata TargetsType)

/-- `Search x path k agenda seen s visits out s'`: with at most `k` visits, a search that has the agenda (role, parent) and has seen some roles makes these visits, ends
with `out` and leads from `s` to `s'`. -/
inductive Search (x : Ctx) (path : Str) : Nat → List (Str × Str) → List Str → St → List Visit → Res (Option TargetFiles) → St → Prop
  | limit {agenda : List (Str × Str)} {seen : List Str} {s : St} {e : Err} : Search x path 0 agenda seen s [] (.err e) s
  | empty {k : Nat} {seen : List Str} {s : St} {e : Err} : Search x path k [] seen s [] (.err e) s
  | skip {k : Nat} {role parent : Str} {agenda : List (Str × Str)} {seen : List Str} {s s' : St} {vs : List Visit} {out : Res (Option TargetFiles)} :
      role ∈ seen → Search x path k agenda seen s vs out s' → Search x path k ((role, parent) :: agenda) seen s vs out s'
  | failed {k : Nat} {role parent : Str} {agenda : List (Str × Str)} {seen : List Str} {s s' : St} {r : Res (Metadata TargetsType)} {out : Res (Option TargetFiles)} :
      role ∉ seen → loadTargets x role parent s = (r, s') → (∀ m, r ≠ .ok m) → (∀ o, out ≠ .ok o) →
      Search x path (k + 1) ((role, parent) :: agenda) seen s [⟨role, parent, s, none⟩] out s'
  | found {k : Nat} {role parent : Str} {agenda : List (Str × Str)} {seen : List Str} {s s' : St} {m : Metadata TargetsType} {o : Option TargetFiles} :
      role ∉ seen → loadTargets x role parent s = (.ok m, s') → m.signed.targets.get? path = some o →
      Search x path (k + 1) ((role, parent) :: agenda) seen s [⟨role, parent, s, some m⟩] (.ok o) s'
  | crash {k : Nat} {role parent : Str} {agenda : List (Str × Str)} {seen : List Str} {s s' : St} {m : Metadata TargetsType} :
      role ∉ seen → loadTargets x role parent s = (.ok m, s') → m.signed.targets.get? path = none →
      (∃ d sr, m.signed.delegations = some d ∧ d.roles = none ∧ d.succinctRoles = some sr ∧
        ¬ (1 ≤ sr.bitLength ∧ sr.bitLength ≤ 32 ∧ 4 ≤ (x.env.sha256 path).length)) →
      Search x path (k + 1) ((role, parent) :: agenda) seen s [⟨role, parent, s, some m⟩] .panic s'
  | next {k : Nat} {role parent : Str} {agenda : List (Str × Str)} {seen : List Str} {s s1 s2 s' : St} {m : Metadata TargetsType} {children : List Str} {stop : Bool}
      {vs : List Visit} {out : Res (Option TargetFiles)} :
      role ∉ seen → loadTargets x role parent s = (.ok m, s1) → m.signed.targets.get? path = none → NextRoles x.env m path children stop →
      s2.trusted = s1.trusted → s2.world.fs = s1.world.fs → downloads s2.world.trace = downloads s1.world.trace →
      Search x path k (children.map (fun c => (c, role)) ++ (if stop then [] else agenda)) (role :: seen) s2 vs out s' →
      Search x path (k + 1) ((role, parent) :: agenda) seen s (⟨role, parent, s, some m⟩ :: vs) out s'

/-- A run of `GetTargetInfo`: a refresh unless top-level targets are trusted, and if it succeeds a search from top-level targets with at most `MaxDelegations + 1` visits. -/
inductive SearchRun (x : Ctx) (path : Str) (s : St) : List Visit → Res (Option TargetFiles) → St → Prop
  | direct {vs : List Visit} {out : Res (Option TargetFiles)} {s' : St} : (s.trusted.targets.get? b!"targets").isSome →
      Search x path (x.cfg.maxDelegations + 1).toNat [(b!"targets", b!"root")] [] s vs out s' → SearchRun x path s vs out s'
  | refreshed {vs : List Visit} {out : Res (Option TargetFiles)} {s1 s' : St} : s.trusted.targets.get? b!"targets" = none →
      Tuf.refresh x s = (.ok (), s1) →
      Search x path (x.cfg.maxDelegations + 1).toNat [(b!"targets", b!"root")] [] s1 vs out s' → SearchRun x path s vs out s'
  | notRefreshed {out : Res (Option TargetFiles)} {r : Res Unit} {s' : St} : s.trusted.targets.get? b!"targets" = none →
      Tuf.refresh x s = (r, s') → r ≠ .ok () → (∀ o, out ≠ .ok o) → SearchRun x path s [] out s'

/-- `Reached env t path start role`: the role is in `start` or is reached from it by delegations of roles trusted in `t`, each covering the path. -/
inductive Reached (env : Env) (t : Trusted) (path : Str) (start : Str → Prop) : Str → Prop
  | start {role : Str} : start role → Reached env t path start role
  | step {role child : Str} {m : Metadata TargetsType} {b : Bool} : Reached env t path start role → t.targets.get? role = some m →
      Covers env m path child b → Reached env t path start child

end Tuf.Spec
