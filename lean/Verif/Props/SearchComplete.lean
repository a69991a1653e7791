import Verif.Props.SearchOrder

/-!
# Completeness of the delegation search (C89)
-/

namespace Tuf
open Spec

section
variable {x : Ctx} {path : Str}

/-- Without terminating delegations for the path, the roles to visit next are all covering ones. -/
theorem nextRoles_all {env : Env} {m : Metadata TargetsType} {children : List Str} {stop : Bool} (h : NextRoles env m path children stop)
    (ht : ∀ name, ¬ Covers env m path name true) : stop = false ∧ ∀ name b, Covers env m path name b → name ∈ children := by
  obtain ⟨all, _, h2, h3, h4⟩ := h
  rcases h4 with ⟨h5, _, rfl⟩ | ⟨_, before, name, after, rfl, _, _⟩
  · refine ⟨h5, fun name b hc => ?_⟩
    obtain ⟨name', h6, h7⟩ := h3 name b hc
    rcases h7 with rfl | ⟨d, h7, h8⟩
    · exact List.mem_map.2 ⟨_, h6, rfl⟩
    · cases hc with
      | listed h9 h10 => rw [h7] at h9; cases h9; rw [h8] at h10; cases h10
      | bin h9 h10 h11 h12 => exact absurd (.bin h9 h10 h11 h12) (ht _)
  · exact absurd (h2 (name, true) (by simp)) (ht name)

/-- If only one role covers the path, it is the one to visit next. -/
theorem nextRoles_one {env : Env} {m : Metadata TargetsType} {children : List Str} {stop : Bool} (h : NextRoles env m path children stop)
    (ho : OneCover env m path) : children.length ≤ 1 ∧ ∀ name b, Covers env m path name b → name ∈ children := by
  obtain ⟨all, h1, h2, h3, h4⟩ := h
  have hlen : all.length ≤ 1 := nodup_one h1 (fun p hp q hq => ho _ _ _ _ (h2 p hp) (h2 q hq))
  have hall : children = all.map Prod.fst := by
    rcases h4 with ⟨_, _, h5⟩ | ⟨_, before, name, after, rfl, _, rfl⟩
    · exact h5
    · simp only [List.length_append, List.length_cons] at hlen
      have ha : after = [] := List.eq_nil_of_length_eq_zero (by omega)
      subst ha
      simp
  refine ⟨by rw [hall, List.length_map]; exact hlen, fun name b hc => ?_⟩
  obtain ⟨name', h6, _⟩ := h3 name b hc
  rw [hall, ho _ _ _ _ hc (h2 _ h6)]
  exact List.mem_map.2 ⟨_, h6, rfl⟩

/-- Nothing keeps a search from a role: no terminating delegation covers the path in any of the documents, or none delegates the path to two roles. -/
def Spec.Unhindered (env : Env) (path : Str) (P : Metadata TargetsType → Prop) : Prop :=
  (∀ m, P m → ∀ name, ¬ Covers env m path name true) ∨ (∀ m, P m → OneCover env m path)

/-- A search that fails without failed visits, without being hindered and without reaching the limit has visited everything on its agenda and everything that is delegated to. -/
theorem search_complete {k : Nat} {agenda : List (Str × Str)} {seen : List Str} {s s' : St} {vs : List Visit} {out : Res (Option TargetFiles)}
    (h : Search x path k agenda seen s vs out s') {e : Err} (hout : out = .err e) (hk : vs.length < k) (hf : ∀ v ∈ vs, v.found ≠ none)
    (ht : (∀ v ∈ vs, ∀ m, v.found = some m → ∀ name, ¬ Covers x.env m path name true) ∨ (agenda.length ≤ 1 ∧ ∀ v ∈ vs, ∀ m, v.found = some m → OneCover x.env m path)) :
    (∀ p ∈ agenda, p.1 ∈ seen ∨ ∃ v ∈ vs, v.role = p.1) ∧
    ∀ v ∈ vs, ∀ m, v.found = some m → m.signed.targets.get? path = none ∧ ∀ name b, Covers x.env m path name b → name ∈ seen ∨ ∃ v ∈ vs, v.role = name := by
  induction h with
  | limit => exact absurd hk (by simp)
  | empty => exact ⟨by simp, by simp⟩
  | skip hm _ ih =>
    obtain ⟨i1, i2⟩ := ih hout hk hf (ht.imp id (fun h => ⟨by have := h.1; simp only [List.length_cons] at this; omega, h.2⟩))
    refine ⟨?_, i2⟩
    intro p hp
    rcases List.mem_cons.1 hp with rfl | hp
    · exact .inl hm
    · exact i1 p hp
  | failed => exact absurd rfl (hf _ (.head _))
  | found => cases hout
  | crash => cases hout
  | @next k role parent agenda seen s s1 s2 s' m children stop vs out hns h1 h2 hn _ _ _ hsr ih =>
    have hall : ∀ name b, Covers x.env m path name b → name ∈ children := by
      rcases ht with ht | ⟨_, ht⟩
      · exact (nextRoles_all hn (ht _ (.head _) m rfl)).2
      · exact (nextRoles_one hn (ht _ (.head _) m rfl)).2
    have hrest : ∀ p ∈ agenda, p ∈ (if stop then [] else agenda) := by
      intro p hp
      rcases ht with ht | ⟨hl, _⟩
      · rw [(nextRoles_all hn (ht _ (.head _) m rfl)).1]; exact hp
      · have : agenda = [] := List.eq_nil_of_length_eq_zero (by simp only [List.length_cons] at hl; omega)
        rw [this] at hp; cases hp
    obtain ⟨i1, i2⟩ := ih hout (by simp at hk; omega) (fun v hv => hf v (.tail _ hv)) (by
      rcases ht with ht | ⟨hl, ht⟩
      · exact .inl (fun v hv => ht v (.tail _ hv))
      · have ha : agenda = [] := List.eq_nil_of_length_eq_zero (by simp only [List.length_cons] at hl; omega)
        refine .inr ⟨?_, fun v hv => ht v (.tail _ hv)⟩
        rw [ha]
        simpa using (nextRoles_one hn (ht _ (.head _) m rfl)).1)
    have up : ∀ name, (name ∈ role :: seen ∨ ∃ v ∈ vs, v.role = name) → name ∈ seen ∨ ∃ v ∈ (⟨role, parent, s, some m⟩ : Visit) :: vs, v.role = name := by
      rintro name (hm | ⟨v, hv, rfl⟩)
      · rcases List.mem_cons.1 hm with rfl | hm
        · exact .inr ⟨_, .head _, rfl⟩
        · exact .inl hm
      · exact .inr ⟨v, .tail _ hv, rfl⟩
    constructor
    · intro p hp
      rcases List.mem_cons.1 hp with rfl | hp
      · exact .inr ⟨_, .head _, rfl⟩
      · exact up _ (i1 p (List.mem_append_right _ (hrest p hp)))
    · intro v hv m' hm'
      rcases List.mem_cons.1 hv with rfl | hv
      · cases hm'
        refine ⟨h2, fun name b hc => up _ ?_⟩
        exact i1 (name, role) (List.mem_append_left _ (List.mem_map.2 ⟨name, hall name b hc, rfl⟩))
      · obtain ⟨j1, j2⟩ := i2 v hv m' hm'
        exact ⟨j1, fun name b hc => up _ (j2 name b hc)⟩

theorem searchRun_not_found {s s' : St} {vs : List Visit} {e : Err} (h : SearchRun x path s vs (.err e) s') (hne : vs ≠ []) (hk : (vs.length : Int) ≤ x.cfg.maxDelegations)
    (hf : ∀ v ∈ vs, v.found ≠ none) (ht : Unhindered x.env path (fun m => ∃ v ∈ vs, v.found = some m)) :
    ∀ role, Reached x.env s'.trusted path (· = b!"targets") role →
      (∃ v ∈ vs, v.role = role) ∧ ∃ m, s'.trusted.targets.get? role = some m ∧ m.signed.targets.get? path = none := by
  have main : ∀ s1, Search x path (x.cfg.maxDelegations + 1).toNat [(b!"targets", b!"root")] [] s1 vs (.err e) s' →
      ∀ role, Reached x.env s'.trusted path (· = b!"targets") role →
        (∃ v ∈ vs, v.role = role) ∧ ∃ m, s'.trusted.targets.get? role = some m ∧ m.signed.targets.get? path = none := by
    intro s1 hs role hr
    obtain ⟨c1, c2⟩ := search_complete hs rfl (by omega) hf
      (ht.imp (fun h v hv m hm => h m ⟨v, hv, hm⟩) (fun h => ⟨by simp, fun v hv m hm => h m ⟨v, hv, hm⟩⟩))
    obtain ⟨_, h2, _⟩ := search_reached (S := (· = b!"targets")) hs (by
      intro p hp
      rw [List.mem_singleton] at hp; subst hp
      exact .start rfl)
    have fin : ∀ role, (∃ v ∈ vs, v.role = role) → ∃ m, s'.trusted.targets.get? role = some m ∧ m.signed.targets.get? path = none := by
      rintro role ⟨v, hv, rfl⟩
      cases hm : v.found with
      | none => exact absurd hm (hf v hv)
      | some m => exact ⟨m, h2 v hv m hm, (c2 v hv m hm).1⟩
    have hvis : ∃ v ∈ vs, v.role = role := by
      induction hr with
      | start h0 =>
        subst h0
        rcases c1 _ (.head _) with h | h
        · cases h
        · exact h
      | @step role child m b _ hm hc ih =>
        obtain ⟨v, hv, rfl⟩ := ih
        cases hm' : v.found with
        | none => exact absurd hm' (hf v hv)
        | some m' =>
          have := h2 v hv m' hm'
          rw [hm] at this
          cases this
          rcases (c2 v hv m hm').2 child b hc with h | h
          · cases h
          · exact h
    exact ⟨hvis, fin role hvis⟩
  cases h with
  | direct _ h => exact main _ h
  | refreshed _ _ h => exact main _ h
  | notRefreshed => exact absurd rfl hne

/-- C89: if `GetTargetInfo` fails after a search (not a failed refresh) in which every consulted role could be loaded, the limit was not reached, and no consulted role has a
terminating delegation for the path or none delegates it to two roles, then it was right: every role that can be reached through trusted roles by delegations covering the path
was consulted and is trusted, and none lists the path. -/
theorem C89_not_found (s : St) {e : Err} (he : (getTargetInfo x path s).1 = .err e) : ∃ vs, SearchRun x path s vs (.err e) (getTargetInfo x path s).2 ∧
    (vs ≠ [] → (vs.length : Int) ≤ x.cfg.maxDelegations → (∀ v ∈ vs, v.found ≠ none) → Unhindered x.env path (fun m => ∃ v ∈ vs, v.found = some m) →
      ∀ role, Reached x.env (getTargetInfo x path s).2.trusted path (· = b!"targets") role →
        (∃ v ∈ vs, v.role = role) ∧ ∃ m, (getTargetInfo x path s).2.trusted.targets.get? role = some m ∧ m.signed.targets.get? path = none) := by
  obtain ⟨vs, h⟩ := getTargetInfo_run (x := x) (path := path) s
  rw [he] at h
  exact ⟨vs, h, fun h1 h2 h3 h4 => searchRun_not_found h h1 h2 h3 h4⟩

end
end Tuf
