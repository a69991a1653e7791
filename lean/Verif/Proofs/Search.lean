import Verif.Spec.Search
import Verif.Props.Cache
import Verif.Props.Paths

/-! # The search loop refines the search relation -/

namespace Tuf
open Spec Sample

section
variable {x : Ctx} {path : Str}

theorem iterateMap_apply {α : Type} (h : Host) (es : List α) (w : World) :
    ∃ (o : List Nat) (l : List α), o.Perm (List.range es.length) ∧ l = o.filterMap (fun i => es[i]?) ∧ iterateMap h es w = (.ok l, w.emit (.iterate o)) := by
  unfold iterateMap
  dsimp only
  split
  · next hp => exact ⟨_, _, List.isPerm_iff.1 hp, rfl, rfl⟩
  · exact ⟨_, _, .refl _, rfl, rfl⟩

theorem filterMap_range {α : Type} (es : List α) : (List.range es.length).filterMap (fun i => es[i]?) = es := by
  induction es with
  | nil => rfl
  | cons a es ih =>
    rw [List.length_cons, List.range_succ_eq_map, List.filterMap_cons]
    simp only [List.getElem?_cons_zero, List.filterMap_map]
    congr 1

theorem perm_iterate {α : Type} {es : List α} {o : List Nat} (h : o.Perm (List.range es.length)) : (o.filterMap (fun i => es[i]?)).Perm es := by
  have := h.filterMap (fun i => es[i]?)
  rwa [filterMap_range] at this

theorem collectChildren_eq (parent : Str) (l : List (Str × Bool)) :
    (∃ (children : List Str) (stop : Bool), collectChildren parent l = (children.map (fun c => (⟨c, parent⟩ : RoleParent)), stop) ∧
      ((stop = false ∧ (∀ p ∈ l, p.2 = false) ∧ children = l.map Prod.fst) ∨
       (stop = true ∧ ∃ before name after, l = before ++ (name, true) :: after ∧ (∀ p ∈ before, p.2 = false) ∧
        children = before.map Prod.fst ++ [name]))) := by
  induction l with
  | nil => exact ⟨[], false, rfl, .inl ⟨rfl, by simp, rfl⟩⟩
  | cons p l ih =>
    obtain ⟨child, t⟩ := p
    cases t with
    | true => exact ⟨[child], true, rfl, .inr ⟨rfl, [], child, l, rfl, by simp, rfl⟩⟩
    | false =>
      obtain ⟨cs, st, h1, h2⟩ := ih
      refine ⟨child :: cs, st, ?_, ?_⟩
      · rw [collectChildren, if_neg (by simp), h1]; rfl
      · rcases h2 with ⟨rfl, h3, rfl⟩ | ⟨rfl, before, name, after, rfl, h3, rfl⟩
        · exact .inl ⟨rfl, by simpa using h3, rfl⟩
        · exact .inr ⟨rfl, (child, false) :: before, name, after, rfl, by simpa using h3, rfl⟩

/-- What `GetRolesForTarget` returns. -/
theorem rolesForTarget_covers {env : Env} {m : Metadata TargetsType} {d : Delegations} (hd : m.signed.delegations = some d) {res : Entries Bool}
    (h : d.getRolesForTarget env path = .ok res) : (res.map Prod.fst).Nodup ∧ (∀ p ∈ res, Covers env m path p.1 p.2) ∧
      (∀ name t, Covers env m path name t → ∃ name', (name', t) ∈ res ∧ (name' = name ∨ ∃ d, m.signed.delegations = some d ∧ d.roles = none)) := by
  cases hr : d.roles with
  | some rs =>
    obtain ⟨res', h1, _, h2, h3⟩ := C55_roles_for_target env d rs path hr
    rw [h] at h1
    cases h1
    refine ⟨h3, ?_, ?_⟩
    · rintro ⟨name, t⟩ hp
      obtain ⟨pre, r, post, rfl, rfl, rfl, h4, h5⟩ := (h2 name t).1 hp
      exact .listed hd hr h4 h5
    · intro name t hc
      cases hc with
      | listed hd' hr' hc hl =>
        rw [hd] at hd'; cases hd'
        rw [hr] at hr'; cases hr'
        exact ⟨_, (h2 _ _).2 ⟨_, _, _, rfl, rfl, rfl, hc, hl⟩, .inl rfl⟩
      | bin hd' hr' => rw [hd] at hd'; cases hd'; rw [hr] at hr'; cases hr'
  | none =>
    cases hs : d.succinctRoles with
    | none =>
      unfold Delegations.getRolesForTarget at h
      rw [hr, hs] at h
      cases h
      refine ⟨by simp, by simp, ?_⟩
      intro name t hc
      cases hc with
      | listed hd' hr' => rw [hd] at hd'; cases hd'; rw [hr] at hr'; cases hr'
      | bin hd' _ hs' => rw [hd] at hd'; cases hd'; rw [hs] at hs'; cases hs'
    | some sr =>
      have h' := h
      unfold Delegations.getRolesForTarget at h'
      rw [hr, hs] at h'
      dsimp only at h'
      have h0 := h'
      unfold SuccinctRoles.getRolesForTarget at h'
      obtain ⟨b, _, h'⟩ := Res.bind_eq_ok.1 h'
      dsimp only at h'
      split at h'
      · cases h'
      · cases h'
        refine ⟨by simp, ?_, ?_⟩
        rotate_left
        · intro name t hc
          cases hc with
          | listed hd' hr' => rw [hd] at hd'; cases hd'; rw [hr] at hr'; cases hr'
          | bin hd' hr' _ => exact ⟨_, .head _, .inr ⟨d, hd, hr⟩⟩
        intro p hp
        simp only [List.mem_singleton] at hp
        subst hp
        refine .bin hd hr hs ?_
        intro h1 h2 h3
        obtain ⟨name, h4, h5, _⟩ := C53_bins env sr path h1 h2 h3
        rw [h0] at h4
        cases h4
        exact h5

/-- The stack after a role. -/
theorem pushChildren_ok {role : Str} {m : Metadata TargetsType} {rest st : List RoleParent} {w w' : World}
    (h : pushChildren x path role m rest w = (.ok st, w')) :
    ∃ children stop, NextRoles x.env m path children stop ∧
      st = children.map (fun c => (⟨c, role⟩ : RoleParent)) ++ (if stop then [] else rest) ∧ w'.fs = w.fs ∧ downloads w'.trace = downloads w.trace := by
  unfold pushChildren at h
  cases hd : m.signed.delegations with
  | none =>
    rw [hd] at h
    cases h
    refine ⟨[], false, ⟨[], by simp, by simp, ?_, .inl ⟨rfl, by simp, rfl⟩⟩, rfl, rfl, rfl⟩
    intro name t hc
    cases hc with
    | listed hd' => rw [hd] at hd'; cases hd'
    | bin hd' => rw [hd] at hd'; cases hd'
  | some d =>
    rw [hd] at h
    dsimp only at h
    obtain ⟨roles, w1, h0, h'⟩ := SM.bind_eq_ok.1 h
    obtain ⟨h1, rfl⟩ := lift_ok h0
    clear h
    obtain ⟨ordered, w2, h2, h⟩ := SM.bind_eq_ok.1 h'
    obtain ⟨o, l, hp, rfl, h3⟩ := iterateMap_apply x.host roles w1
    rw [h3] at h2
    cases h2
    obtain ⟨c1, c2, c3⟩ := rolesForTarget_covers hd h1
    have hperm := perm_iterate (es := roles) hp
    obtain ⟨children, stop, h4, h5⟩ := collectChildren_eq role (o.filterMap (fun i => roles[i]?))
    rw [h4] at h
    dsimp only at h
    cases h
    refine ⟨children, stop, ⟨_, ?_, ?_, ?_, h5⟩, rfl, rfl, ?_⟩
    · exact (hperm.map Prod.fst).nodup_iff.2 c1
    · exact fun p hp => c2 p (hperm.mem_iff.1 hp)
    · exact fun name t hc => (c3 name t hc).imp (fun _ h => ⟨hperm.mem_iff.2 h.1, h.2⟩)
    · simp [World.emit, downloads]

theorem getRoles_fail {env : Env} {d : Delegations} (h : ∀ res, d.getRolesForTarget env path ≠ .ok res) :
    d.getRolesForTarget env path = .panic ∧ d.roles = none ∧ ∃ sr, d.succinctRoles = some sr ∧
      ¬ (1 ≤ sr.bitLength ∧ sr.bitLength ≤ 32 ∧ 4 ≤ (env.sha256 path).length) := by
  unfold Delegations.getRolesForTarget at h ⊢
  cases hr : d.roles with
  | some rs => rw [hr] at h; exact absurd rfl (h _)
  | none =>
    rw [hr] at h
    cases hs : d.succinctRoles with
    | none => rw [hs] at h; exact absurd rfl (h _)
    | some sr =>
      rw [hs] at h
      dsimp only at h ⊢
      refine ⟨?_, rfl, sr, rfl, ?_⟩
      · unfold SuccinctRoles.getRolesForTarget at h ⊢
        cases hb : bigEndian32 (env.sha256 path) with
        | panic => rfl
        | err e =>
          unfold bigEndian32 at hb
          split at hb <;> cases hb
        | ok n =>
          rw [hb] at h
          rw [Res.bind_ok] at h ⊢
          dsimp only at h ⊢
          split
          · rfl
          · next hn => rw [if_neg hn] at h; exact absurd rfl (h _)
      · rintro ⟨h1, h2, h3⟩
        obtain ⟨name, h4, _⟩ := C53_bins env sr path h1 h2 h3
        exact h _ h4

theorem pushChildren_fail {role : Str} {m : Metadata TargetsType} {rest : List RoleParent} {w : World}
    (h : ∀ st, (pushChildren x path role m rest w).1 ≠ .ok st) : pushChildren x path role m rest w = (.panic, w) ∧
      ∃ d sr, m.signed.delegations = some d ∧ d.roles = none ∧ d.succinctRoles = some sr ∧
        ¬ (1 ≤ sr.bitLength ∧ sr.bitLength ≤ 32 ∧ 4 ≤ (x.env.sha256 path).length) := by
  unfold pushChildren at h ⊢
  cases hd : m.signed.delegations with
  | none => rw [hd] at h; exact absurd rfl (h _)
  | some d =>
    rw [hd] at h
    dsimp only at h ⊢
    have hf : ∀ res, d.getRolesForTarget x.env path ≠ .ok res := by
      intro res hr
      obtain ⟨o, l, _, _, h3⟩ := iterateMap_apply x.host res w
      rw [hr, SM.bind_ok (SM.lift_apply _ _), SM.bind_ok h3] at h
      exact h _ rfl
    obtain ⟨h1, h2, sr, h3, h4⟩ := getRoles_fail hf
    refine ⟨?_, d, sr, rfl, h2, h3, h4⟩
    rw [h1]; rfl

/-- The agenda of a stack. -/
def agendaOf (stack : List RoleParent) : List (Str × Str) := stack.map (fun d => (d.role, d.parent))

theorem search_skip {k : Nat} {seen : List Str} {s s' : St} {vs : List Visit} {out : Res (Option TargetFiles)} (stack : List RoleParent)
    (h : Search x path k (agendaOf (stack.dropWhile (fun d => decide (d.role ∈ seen)))) seen s vs out s') :
    Search x path k (agendaOf stack) seen s vs out s' := by
  induction stack with
  | nil => exact h
  | cons d stack ih =>
    rw [List.dropWhile_cons] at h
    split at h
    · next hd => exact .skip (by simpa using hd) (ih h)
    · exact h

/-- The loop is a search. -/
theorem walk_search (k : Nat) (stack : List RoleParent) (visited : List Str) (s : St) :
    ∃ vs, Search x path k (agendaOf stack) visited s vs (walk x path k stack visited s).1 (walk x path k stack visited s).2 := by
  induction k generalizing stack visited s with
  | zero => exact ⟨[], .limit⟩
  | succ k ih =>
    suffices h : ∃ vs, Search x path (k + 1) (agendaOf (stack.dropWhile (fun d => decide (d.role ∈ visited)))) visited s vs
        (walk x path (k + 1) stack visited s).1 (walk x path (k + 1) stack visited s).2 by
      obtain ⟨vs, h⟩ := h
      exact ⟨vs, search_skip stack h⟩
    rw [walk]
    cases hd : stack.dropWhile (fun d => decide (d.role ∈ visited)) with
    | nil => exact ⟨[], .empty⟩
    | cons d rest =>
      have hns : d.role ∉ visited := by simpa using (dropWhile_cons hd).1
      dsimp only
      rcases hl : loadTargets x d.role d.parent s with ⟨r, s1⟩
      cases r with
      | err e =>
        rw [SM.bind_err hl]
        exact ⟨_, .failed hns hl (by simp) (by simp)⟩
      | panic =>
        rw [SM.bind_panic hl]
        exact ⟨_, .failed hns hl (by simp) (by simp)⟩
      | ok m =>
        rw [SM.bind_ok hl]
        cases hg : m.signed.targets.get? path with
        | some o => exact ⟨_, .found hns hl hg⟩
        | none =>
          dsimp only
          rcases hp : onWorld (pushChildren x path d.role m rest) s1 with ⟨r, s2⟩
          have hw := hp
          rw [onWorld_apply] at hw
          have e1 : (pushChildren x path d.role m rest s1.world).1 = r := congrArg Prod.fst hw
          have e2 : { s1 with world := (pushChildren x path d.role m rest s1.world).2 } = s2 := congrArg Prod.snd hw
          cases r with
          | ok st =>
            rw [SM.bind_ok hp]
            obtain ⟨children, stop, h1, h2, h3, h4⟩ := pushChildren_ok (Prod.ext e1 rfl)
            obtain ⟨vs, h5⟩ := ih st (d.role :: visited) s2
            refine ⟨_ :: vs, .next hns hl hg h1 (s2 := s2) ?_ ?_ ?_ (children := children) (stop := stop) ?_⟩
            · rw [← e2]
            · rw [← e2]; exact h3
            · rw [← e2]; exact h4
            · rw [h2] at h5 ⊢
              have : agendaOf (children.map (fun c => (⟨c, d.role⟩ : RoleParent)) ++ (if stop then [] else rest)) =
                  children.map (fun c => (c, d.role)) ++ (if stop then [] else agendaOf rest) := by
                unfold agendaOf
                cases stop <;> simp
              rw [this] at h5
              exact h5
          | err e =>
            have := (pushChildren_fail (x := x) (path := path) (role := d.role) (m := m) (rest := rest) (w := s1.world) (by rw [e1]; simp)).1
            rw [this] at e1; cases e1
          | panic =>
            obtain ⟨h1, h2⟩ := pushChildren_fail (x := x) (path := path) (role := d.role) (m := m) (rest := rest) (w := s1.world) (by rw [e1]; simp)
            rw [SM.bind_panic hp]
            rw [h1] at e2
            subst e2
            exact ⟨_, .crash hns hl hg h2⟩

/-- `GetTargetInfo` is a search run. -/
theorem getTargetInfo_run (s : St) : ∃ vs, SearchRun x path s vs (getTargetInfo x path s).1 (getTargetInfo x path s).2 := by
  unfold getTargetInfo
  rw [SM.bind_ok (getTrusted_apply s)]
  split
  · next h =>
    obtain ⟨vs, h1⟩ := walk_search (x := x) (path := path) (x.cfg.maxDelegations + 1).toNat [⟨TARGETS, ROOT⟩] [] s
    exact ⟨vs, .direct h h1⟩
  · next h =>
    have h : s.trusted.targets.get? b!"targets" = none := (by simpa using h : s.trusted.targets.get? TARGETS = none)
    rcases hr : refresh x s with ⟨r, s1⟩
    cases r with
    | err e => rw [SM.bind_err hr]; exact ⟨[], .notRefreshed h hr (by simp) (by simp)⟩
    | panic => rw [SM.bind_panic hr]; exact ⟨[], .notRefreshed h hr (by simp) (by simp)⟩
    | ok u =>
      rw [SM.bind_ok hr]
      obtain ⟨vs, h1⟩ := walk_search (x := x) (path := path) (x.cfg.maxDelegations + 1).toNat [⟨TARGETS, ROOT⟩] [] s1
      exact ⟨vs, .refreshed h hr h1⟩

end

end Tuf
