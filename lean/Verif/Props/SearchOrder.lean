import Verif.Props.Search

/-!
# Order of the search (C40), concrete searches and counterexamples (C36-C42)
-/

namespace Tuf
open Spec Sample

section
variable {x : Ctx} {path : Str}

/-- The same process with other map iteration orders. -/
def Ctx.withOrder (x : Ctx) (o : List Event → Nat → List Nat) : Ctx := { x with host := { x.host with order := o } }

theorem loadTargets_withOrder (o : List Event → Nat → List Nat) (role parent : Str) : loadTargets (x.withOrder o) role parent = loadTargets x role parent := rfl

theorem loadRootLoop_withOrder (o : List Event → Nat → List Nat) (n : Nat) (v : Int) : loadRootLoop (x.withOrder o) n v = loadRootLoop x n v := by
  induction n generalizing v with
  | zero => rfl
  | succ n ih => rw [loadRootLoop, loadRootLoop]; simp only [ih]; rfl

theorem refresh_withOrder (o : List Event → Nat → List Nat) : refresh (x.withOrder o) = refresh x := by
  have h1 : onlineRefresh (x.withOrder o) = onlineRefresh x := by
    have : loadRoot (x.withOrder o) = loadRoot x := by unfold loadRoot; simp only [loadRootLoop_withOrder]; rfl
    unfold onlineRefresh; rw [this]; rfl
  unfold refresh
  rw [h1]; rfl

theorem order_forced {n : Nat} (hn : n ≤ 1) {l : List Nat} (h : l.Perm (List.range n)) : l = List.range n := by
  match n, hn with
  | 0, _ => exact h.eq_nil
  | 1, _ => exact List.perm_singleton.1 h

theorem iterateMap_forced {α : Type} (h1 h2 : Host) {es : List α} (hn : es.length ≤ 1) (w : World) : iterateMap h1 es w = iterateMap h2 es w := by
  obtain ⟨o1, l1, p1, rfl, e1⟩ := iterateMap_apply h1 es w
  obtain ⟨o2, l2, p2, rfl, e2⟩ := iterateMap_apply h2 es w
  rw [e1, e2, order_forced hn p1, order_forced hn p2]

/-- At most one role name covers the path. -/
def Spec.OneCover (env : Env) (m : Metadata TargetsType) (path : Str) : Prop := ∀ n t n' t', Covers env m path n t → Covers env m path n' t' → n = n'

theorem nodup_one {l : List (Str × Bool)} (h : (l.map Prod.fst).Nodup) (h1 : ∀ p ∈ l, ∀ q ∈ l, p.1 = q.1) : l.length ≤ 1 := by
  match l with
  | [] => simp
  | [_] => simp
  | p :: q :: r =>
    have := h1 p (.head _) q (.tail _ (.head _))
    simp [this] at h

theorem pushChildren_withOrder (o : List Event → Nat → List Nat) {role : Str} {m : Metadata TargetsType} (h : OneCover x.env m path) (rest : List RoleParent) (w : World) :
    pushChildren (x.withOrder o) path role m rest w = pushChildren x path role m rest w := by
  unfold pushChildren
  cases hd : m.signed.delegations with
  | none => rfl
  | some d =>
    dsimp only
    show (SM.lift (d.getRolesForTarget x.env path) >>= _) w = _
    cases hr : d.getRolesForTarget x.env path with
    | err e => rfl
    | panic => rfl
    | ok res =>
      obtain ⟨c1, c2, _⟩ := rolesForTarget_covers hd hr
      have hl := nodup_one c1 (fun p hp q hq => h _ _ _ _ (c2 p hp) (c2 q hq))
      rw [SM.bind_ok (SM.lift_apply _ _), SM.bind_ok (SM.lift_apply _ _)]
      rw [SM.bind_apply, SM.bind_apply, iterateMap_forced (x.withOrder o).host x.host hl w]

theorem walk_withOrder (o : List Event → Nat → List Nat) (k : Nat) (stack : List RoleParent) (visited : List Str) (s : St)
    (h : ∀ role m, (walk x path k stack visited s).2.trusted.targets.get? role = some m → OneCover x.env m path) :
    walk (x.withOrder o) path k stack visited s = walk x path k stack visited s := by
  induction k generalizing stack visited s with
  | zero => rfl
  | succ k ih =>
    rw [walk] at h ⊢
    rw [walk]
    cases hd : stack.dropWhile (fun d => decide (d.role ∈ visited)) with
    | nil => rfl
    | cons d rest =>
      rw [hd] at h
      dsimp only at h ⊢
      rw [loadTargets_withOrder]
      rcases hl : loadTargets x d.role d.parent s with ⟨r, s1⟩
      cases r with
      | err e => rw [SM.bind_err hl, SM.bind_err hl]
      | panic => rw [SM.bind_panic hl, SM.bind_panic hl]
      | ok m =>
        rw [SM.bind_ok hl] at h ⊢
        rw [SM.bind_ok hl]
        cases hg : m.signed.targets.get? path with
        | some _ => rfl
        | none =>
          rw [hg] at h
          dsimp only at h ⊢
          have h1 : OneCover x.env m path := by
            refine h d.role m ?_
            have ht := loadTargets_ok hl
            rcases hp : onWorld (pushChildren x path d.role m rest) s1 with ⟨r, s2⟩
            have e2 : s2.trusted = s1.trusted := by
              rw [onWorld_apply] at hp
              have : { s1 with world := (pushChildren x path d.role m rest s1.world).2 } = s2 := congrArg Prod.snd hp
              rw [← this]
            cases r with
            | err e => rw [SM.bind_err hp, e2]; exact ht
            | panic => rw [SM.bind_panic hp, e2]; exact ht
            | ok st =>
              rw [SM.bind_ok hp]
              obtain ⟨vs, h5⟩ := walk_search (x := x) (path := path) k st (d.role :: visited) s2
              exact search_grows h5 _ _ (by rw [e2]; exact ht)
          have h2 : onWorld (pushChildren (x.withOrder o) path d.role m rest) s1 = onWorld (pushChildren x path d.role m rest) s1 := by
            rw [onWorld_apply, onWorld_apply, pushChildren_withOrder o h1]
          rcases hp : onWorld (pushChildren x path d.role m rest) s1 with ⟨r, s2⟩
          rw [hp] at h2
          cases r with
          | err e => rw [SM.bind_err hp, SM.bind_err h2]
          | panic => rw [SM.bind_panic hp, SM.bind_panic h2]
          | ok st =>
            rw [SM.bind_ok hp] at h
            rw [SM.bind_ok hp, SM.bind_ok h2]
            exact ih st _ s2 h

/-- C40 where no two delegations of a trusted role cover the path: result and effects of `GetTargetInfo` do not depend on map iteration order. Missing: several covering
delegations, for which the claim is false (`C40_false`). -/
theorem C40_one_cover_partial (o : List Event → Nat → List Nat) (s : St)
    (h : ∀ role m, (getTargetInfo x path s).2.trusted.targets.get? role = some m → OneCover x.env m path) :
    getTargetInfo (x.withOrder o) path s = getTargetInfo x path s := by
  unfold getTargetInfo at h ⊢
  rw [SM.bind_ok (getTrusted_apply s)] at h ⊢
  rw [SM.bind_ok (getTrusted_apply s)]
  split
  · next hc =>
    rw [if_pos hc] at h
    exact walk_withOrder o _ _ _ _ h
  · next hc =>
    rw [if_neg hc] at h
    rw [refresh_withOrder]
    rcases hr : refresh x s with ⟨r, s1⟩
    cases r with
    | err e => rw [SM.bind_err hr, SM.bind_err hr]
    | panic => rw [SM.bind_panic hr, SM.bind_panic hr]
    | ok u =>
      rw [SM.bind_ok hr] at h ⊢
      rw [SM.bind_ok hr]
      exact walk_withOrder o _ _ _ _ h

end

/-! ## Concrete searches -/

namespace Sample

/-- A delegation. -/
def delegationJ (name key : Str) (terminating : Bool) (pattern : Str) : Json :=
  .obj [(b!"name", .str name), (b!"keyids", .arr [.str key]), (b!"threshold", .num 1), (b!"terminating", .bool terminating), (b!"paths", .arr [.str pattern])]

/-- Targets metadata that delegates to the given roles; keys `a` and `c` are known. -/
def delegatingDoc (targets : List (Str × Json)) (roles : List Json) : Json :=
  doc TARGETS 4 b!"2030" [(b!"targets", .obj targets), (b!"delegations", .obj [(b!"keys", .obj [
    (b!"a", .obj [(b!"keytype", .str b!"ed25519"), (b!"scheme", .str b!"ed25519"), (b!"keyval", .obj [(b!"public", .str b!"aa")])]),
    (b!"c", .obj [(b!"keytype", .str b!"ed25519"), (b!"scheme", .str b!"ed25519"), (b!"keyval", .obj [(b!"public", .str b!"cc")])])]),
    (b!"roles", .arr roles)])]

/-- A repository with the given targets documents, version 4; all are listed in the snapshot unless `listed` says otherwise. -/
def graph (docs : List (Str × Json)) (listed : Str → Bool := fun _ => true) (order : List Event → Nat → List Nat := fun _ n => List.range n) : Ctx where
  env := { repoEnv with
    parse := fun b => match b with
      | [3, 4] => some (doc SNAPSHOT 4 b!"2030" [(b!"meta", .obj ((docs.filter (fun d => listed d.1)).map (fun d => metaJ (d.1 ++ b!".json") 4)))])
      | [9, i] => (docs[i.toNat]?).map Prod.snd
      | b => repoEnv.parse b }
  host := { hostOf (fun url =>
      match docs.findIdx? (fun d => b!"u/4." ++ d.1 ++ b!".json" == url) with
      | some i => .ok [9, UInt8.ofNat i]
      | none => server url) with order := order }
  cfg := cfg

/-- The path and the length of a found target. -/
def infoOf (r : Res (Option TargetFiles)) : Res (Option (Str × Int)) := r.map (fun o => o.map (fun t => (t.path, t.length)))

/-- An error value. -/
def isErr {α : Type} : Res α → Bool
  | .err _ => true
  | _ => false

/-- `targets` delegates to `p`, which the snapshot does not list. -/
def unlisted : Ctx := graph [(TARGETS, delegatingDoc [] [delegationJ b!"p" b!"a" false b!"*"]), (b!"p", delegatingDoc [(b!"g", targetJ 2)] [])] (listed := (· == TARGETS))

/-- `targets` delegates to `p`, `p` to `q`, and `q` back to `p` and `targets`. -/
def cyclic : Ctx := graph [(TARGETS, delegatingDoc [] [delegationJ b!"p" b!"a" false b!"*"]),
  (b!"p", delegatingDoc [] [delegationJ b!"q" b!"a" false b!"*"]),
  (b!"q", delegatingDoc [(b!"g", targetJ 2)] [delegationJ b!"p" b!"a" false b!"*", delegationJ TARGETS b!"a" false b!"*"])]

/-- Two delegations cover everything; both roles list `g`. -/
def twice (terminating : Bool) (order : List Event → Nat → List Nat) : Ctx :=
  graph [(TARGETS, delegatingDoc [] [delegationJ b!"p" b!"a" terminating b!"*", delegationJ b!"q" b!"a" false b!"*"]),
    (b!"p", delegatingDoc [(b!"g", targetJ 2)] []), (b!"q", delegatingDoc [(b!"g", targetJ 3), (b!"h", targetJ 3)] [])] (order := order)

/-- `p` delegates to `r` with key `a`, `q` delegates to `r` with key `c`; `r` is signed by key `a`. -/
def twoParents : Ctx := graph [(TARGETS, delegatingDoc [] [delegationJ b!"p" b!"a" false b!"p/*", delegationJ b!"q" b!"a" false b!"q/*"]),
  (b!"p", delegatingDoc [] [delegationJ b!"r" b!"a" false b!"p/*"]), (b!"q", delegatingDoc [] [delegationJ b!"r" b!"c" false b!"q/*"]),
  (b!"r", delegatingDoc [(b!"p/g", targetJ 2), (b!"q/g", targetJ 2)] [])]

/-- `targets` delegates to a role with the given name, which delegates to `r` with key `a` and to a role called `timestamp` with key `c`; all are signed by key `a`, which root metadata assigns to
the top-level timestamp. Caching is off. -/
def parentNamed (name : Str) : Ctx := { graph [(TARGETS, delegatingDoc [] [delegationJ name b!"a" false b!"*/*"]),
  (name, delegatingDoc [] [delegationJ b!"r" b!"a" false b!"p/*", delegationJ b!"timestamp" b!"c" false b!"q/*"]),
  (b!"r", delegatingDoc [(b!"p/g", targetJ 2)] []), (b!"timestamp", delegatingDoc [(b!"q/g", targetJ 2)] [])] with cfg := { cfg with disableLocalCache := true } }

end Sample

/-- A search through a cycle finds the target and ends when there is none (C37, C38, C42). -/
example : infoOf (session cyclic [] (getTargetInfo cyclic b!"g")).1 = .ok (some (b!"g", 2)) ∧
    isErr (session cyclic [] (getTargetInfo cyclic b!"h")).1 = true ∧
    urls (session cyclic [] (getTargetInfo cyclic b!"h")).2 = [b!"u/2.root.json", b!"u/timestamp.json", b!"u/4.snapshot.json", b!"u/4.targets.json",
      b!"u/4.p.json", b!"u/4.q.json"] := by decide +kernel

/-- A terminating delegation keeps the search from a later one (C39). -/
example : isErr (session (twice true (fun _ n => List.range n)) [] (getTargetInfo (twice true (fun _ n => List.range n)) b!"h")).1 = true ∧
    infoOf (session (twice false (fun _ n => List.range n)) [] (getTargetInfo (twice false (fun _ n => List.range n)) b!"h")).1 = .ok (some (b!"h", 3)) := by
  decide +kernel

/-- The negation of C40: with two covering delegations the map iteration order decides which target is returned. -/
theorem C40_false : infoOf (session (twice false (fun _ n => List.range n)) [] (getTargetInfo (twice false (fun _ n => List.range n)) b!"g")).1 = .ok (some (b!"g", 2)) ∧
    infoOf (session (twice false (fun _ n => (List.range n).reverse)) [] (getTargetInfo (twice false (fun _ n => (List.range n).reverse)) b!"g")).1 =
      .ok (some (b!"g", 3)) := by decide +kernel

/-- The negation of C36: a delegated role that the snapshot does not list crashes the client (unless there is a file for it in the cache). -/
theorem C36_crash : infoOf (session unlisted [] (getTargetInfo unlisted b!"g")).1 = .panic ∧
    isErr (session unlisted [(b!"m/p.json", [9, 1])] (getTargetInfo unlisted b!"g")).1 = true := by decide +kernel

/-- The negation of C41: `r` is not signed by the key that `q` demands, so a client refuses it; but after a search that loaded `r` through `p` it is used through `q`. -/
theorem C41_false : isErr (session twoParents [] (getTargetInfo twoParents b!"q/g")).1 = true ∧
    infoOf (session twoParents [] (getTargetInfo twoParents b!"p/g" >>= fun _ => getTargetInfo twoParents b!"q/g")).1 = .ok (some (b!"q/g", 2)) := by decide +kernel

/-- A second negation of C41: what a delegated role called `root` delegates is verified against root metadata. Its role `r`, signed by the key that it demands, is refused;
its role `timestamp`, which lacks a signature by the key that it demands, is used since it is signed by the key of the top-level timestamp. Under any other name of the delegating role it is the other way round. -/
theorem C41_false_root : b!"u/4.r.json" ∈ urls (session (parentNamed b!"root") [] (getTargetInfo (parentNamed b!"root") b!"p/g")).2 ∧
    isErr (session (parentNamed b!"root") [] (getTargetInfo (parentNamed b!"root") b!"p/g")).1 = true ∧
    infoOf (session (parentNamed b!"root") [] (getTargetInfo (parentNamed b!"root") b!"q/g")).1 = .ok (some (b!"q/g", 2)) ∧
    infoOf (session (parentNamed b!"q") [] (getTargetInfo (parentNamed b!"q") b!"p/g")).1 = .ok (some (b!"p/g", 2)) ∧
    isErr (session (parentNamed b!"q") [] (getTargetInfo (parentNamed b!"q") b!"q/g")).1 = true := by decide +kernel

end Tuf
