import Verif.Proofs.Search

/-! # The delegation search: properties C36 to C42 -/

namespace Tuf
open Spec Sample

section
variable {x : Ctx} {path : Str}

/-! ## Counting events -/

/-- The code adds at most `n` events of this kind to the trace. -/
def Adds {α : Type} (p : Event → Bool) (n : Nat) (m : M α) : Prop :=
  ∀ s, ((m s).2.world.trace.countP p) ≤ s.world.trace.countP p + n

section
variable {α β : Type} {p : Event → Bool} {n k : Nat}

theorem adds_bind {m : M α} {f : α → M β} (hm : Adds p n m) (hf : ∀ a, Adds p k (f a)) : Adds p (n + k) (m >>= f) := by
  intro s
  have h := hm s
  rw [SM.bind_apply]
  rcases hr : m s with ⟨r, s1⟩
  rw [hr] at h
  dsimp only at h
  cases r with
  | ok a => have := hf a s1; dsimp only; omega
  | err e => dsimp only; omega
  | panic => dsimp only; omega

theorem Adds.mono {m : M α} (h : Adds p n m) (hn : n ≤ k) : Adds p k m := fun s => by have := h s; omega
theorem adds_pure (a : α) : Adds p 0 (pure a : M α) := fun _ => Nat.le_refl _
theorem adds_throw (e : Err) : Adds p 0 (SM.throw e : M α) := fun _ => Nat.le_refl _
theorem adds_lift (r : Res α) : Adds p 0 (SM.lift r : M α) := fun _ => Nat.le_refl _
theorem adds_getTrusted : Adds p 0 getTrusted := fun _ => Nat.le_refl _
theorem adds_try {m : M α} (h : Adds p n m) : Adds p n (SM.try' m) := fun s => by rw [SM.try_snd]; exact h s
theorem adds_onTrusted (f : Trusted → Res α × Trusted) : Adds p 0 (onTrusted f) := fun s => by rw [onTrusted_apply]; exact Nat.le_refl _

theorem adds_world {m : W α} (h : ∀ w, (m w).2.trace.countP p ≤ w.trace.countP p + n) : Adds p n (onWorld m) := fun s => by
  rw [onWorld_apply]; exact h s.world

theorem adds_fetch (url : Str) (l : Int) : Adds p 1 (onWorld (doFetch x.host url l)) := by
  refine adds_world ?_
  intro w
  unfold doFetch
  cases x.host.fetch w.trace url l <;>
    (simp only [World.emit, List.countP_append, List.countP_singleton]; split <;> omega)

theorem adds_read (path : Str) : Adds p 1 (onWorld (readFile x.host path)) := by
  refine adds_world ?_
  intro w
  unfold readFile
  dsimp only
  cases (if x.host.readFails w.trace path then none else w.fs path) <;>
    (simp only [World.emit, List.countP_append, List.countP_singleton]; split <;> omega)

theorem adds_read_not (path : Str) (h : ∀ q r, p (.read q r) = false) : Adds p 0 (onWorld (readFile x.host path)) := by
  refine adds_world ?_
  intro w
  unfold readFile
  dsimp only
  cases (if x.host.readFails w.trace path then none else w.fs path) <;>
    simp [World.emit, List.countP_append, h]

theorem adds_fetch_not (url : Str) (l : Int) (h : ∀ u n r, p (.fetch u n r) = false) : Adds p 0 (onWorld (doFetch x.host url l)) := by
  refine adds_world ?_
  intro w
  unfold doFetch
  cases x.host.fetch w.trace url l <;> simp [World.emit, List.countP_append, h]

/-- The events of `persistMetadata` are file changes. -/
theorem adds_persist (h : ∀ e, (∀ u n r, e ≠ .fetch u n r) → (∀ q r, e ≠ .read q r) → p e = false) (role : Str) (data : Bytes) :
    Adds p 0 (onWorld (persistMetadata x role data)) := by
  have emit : ∀ (w : World) (e : Event), (∀ u n r, e ≠ .fetch u n r) → (∀ q r, e ≠ .read q r) → (w.emit e).trace.countP p = w.trace.countP p := by
    intro w e h1 h2
    simp [World.emit, List.countP_append, h e h1 h2]
  have hcreate : ∀ w, ((createTemp x.host w).2).trace.countP p = w.trace.countP p := by
    intro w
    unfold createTemp
    split
    · dsimp only
      split <;> exact emit _ _ (by simp) (by simp)
    · exact emit _ _ (by simp) (by simp)
  have hwrite : ∀ f d w, ((writeFile x.host f d w).2).trace.countP p = w.trace.countP p := by
    intro f d w
    unfold writeFile
    split
    · exact emit _ _ (by simp) (by simp)
    · dsimp only
      split <;> exact (emit _ _ (by simp) (by simp)).trans (emit _ _ (by simp) (by simp))
  have hrename : ∀ a b w, ((renameFile x.host a b w).2).trace.countP p = w.trace.countP p := by
    intro a b w
    unfold renameFile
    split <;> exact emit _ _ (by simp) (by simp)
  have hremove : ∀ a w, ((removeFile x.host a w).2).trace.countP p = w.trace.countP p := by
    intro a w
    unfold removeFile
    split <;> exact emit _ _ (by simp) (by simp)
  refine adds_world ?_
  intro w
  unfold persistMetadata
  split
  · exact Nat.le_refl _
  · rw [SM.bind_apply]
    have h1 := hcreate w
    rcases hc : createTemp x.host w with ⟨r, w1⟩
    rw [hc] at h1
    cases r with
    | err e => exact Nat.le_of_eq h1
    | panic => exact Nat.le_of_eq h1
    | ok f =>
      dsimp only
      rw [SM.bind_apply]
      have h2 := hwrite f data w1
      rw [← SM.try_snd] at h2
      rcases ht : SM.try' (writeFile x.host f data) w1 with ⟨r, w2⟩
      rw [ht] at h2
      cases r with
      | err e => exact Nat.le_of_eq (h2.trans h1)
      | panic => exact Nat.le_of_eq (h2.trans h1)
      | ok o =>
        dsimp only
        cases o with
        | ok _ => exact Nat.le_of_eq ((hrename _ _ _).trans (h2.trans h1))
        | error e =>
          dsimp only
          rw [SM.bind_apply]
          have h3 := hremove f w2
          rcases hm : removeFile x.host f w2 with ⟨r, w3⟩
          rw [hm] at h3
          cases r <;> exact Nat.le_of_eq (h3.trans (h2.trans h1))

end

/-- A download. -/
def isDownload : Event → Bool
  | .fetch .. => true
  | _ => false

/-- A file that is read. -/
def isRead : Event → Bool
  | .read .. => true
  | _ => false

theorem adds_loadTargets {p : Event → Bool} {i j : Nat} (hi : ∀ q, Adds p i (onWorld (readFile x.host q))) (hj : ∀ u l, Adds p j (onWorld (doFetch x.host u l)))
    (h : ∀ e, (∀ u n r, e ≠ .fetch u n r) → (∀ q r, e ≠ .read q r) → p e = false) (role parent : Str) :
    Adds p (i + j) (loadTargets x role parent) := by
  unfold loadTargets
  refine (adds_bind (k := i + j) adds_getTrusted ?_).mono (by omega)
  intro t
  split
  · exact (adds_pure _).mono (by omega)
  · refine adds_bind ?_ ?_
    · unfold tryLocal
      refine (adds_bind (k := 0) (adds_try (hi _)) ?_).mono (by omega)
      intro r
      cases r with
      | error e => exact adds_pure _
      | ok d =>
        refine adds_bind (n := 0) (k := 0) (adds_try (adds_onTrusted _)) ?_
        intro r
        cases r with
        | ok a => exact adds_pure _
        | error e => dsimp only; split; exact adds_pure _; exact adds_throw _
    · intro o
      cases o with
      | some m => exact (adds_pure _).mono (by omega)
      | none =>
        refine (adds_bind (k := j) adds_getTrusted ?_).mono (by omega)
        intro t
        split
        · exact (adds_throw _).mono (by omega)
        · refine (adds_bind (k := j) (adds_lift _) (fun f => ?_)).mono (by omega)
          refine (adds_bind (k := 0) (hj _ _) (fun d => ?_)).mono (by omega)
          refine adds_bind (n := 0) (k := 0) (adds_onTrusted _) (fun m => ?_)
          exact adds_bind (n := 0) (k := 0) (adds_persist h _ _) (fun _ => adds_pure _)

/-! ## C37 -/

theorem search_bounded {k : Nat} {agenda : List (Str × Str)} {seen : List Str} {s s' : St} {vs : List Visit} {out : Res (Option TargetFiles)}
    (h : Search x path k agenda seen s vs out s') :
    (vs.map Visit.role).Nodup ∧ (∀ v ∈ vs, v.role ∉ seen) ∧ vs.length ≤ k ∧
      s'.world.trace.countP isDownload ≤ s.world.trace.countP isDownload + vs.length := by
  have hl : ∀ role parent, Adds isDownload 1 (loadTargets x role parent) := fun role parent =>
    (adds_loadTargets (i := 0) (j := 1) (fun q => adds_read_not q (fun _ _ => rfl)) (fun u l => adds_fetch u l)
      (fun e h1 h2 => by cases e <;> first | rfl | exact absurd rfl (h1 _ _ _)) role parent)
  induction h with
  | limit => exact ⟨by simp, by simp, Nat.le_refl _, Nat.le_refl _⟩
  | empty => exact ⟨by simp, by simp, Nat.zero_le _, Nat.le_refl _⟩
  | skip _ _ ih => exact ih
  | @failed k role parent _ _ s s' _ _ hns h1 =>
    have := hl role parent s
    rw [h1] at this
    exact ⟨by simp, by simpa using hns, by simp, this⟩
  | @found k role parent _ _ s s' _ _ hns h1 =>
    have := hl role parent s
    rw [h1] at this
    exact ⟨by simp, by simpa using hns, by simp, this⟩
  | @crash k role parent _ _ s s' _ hns h1 =>
    have := hl role parent s
    rw [h1] at this
    exact ⟨by simp, by simpa using hns, by simp, this⟩
  | @next k role parent _ _ s s1 s2 s' _ _ _ vs _ hns h1 _ _ _ _ hd _ ih =>
    obtain ⟨i1, i2, i3, i4⟩ := ih
    have h2 := hl role parent s
    rw [h1] at h2
    have hc : s2.world.trace.countP isDownload = s1.world.trace.countP isDownload := by
      have : ∀ evs : List Event, (downloads evs).length = evs.countP isDownload := by
        intro evs
        induction evs with
        | nil => rfl
        | cons e evs ih => cases e <;> simp_all [downloads, List.filterMap_cons, List.countP_cons, isDownload]
      rw [← this, ← this, hd]
    refine ⟨?_, ?_, by simpa using i3, ?_⟩
    · rw [List.map_cons, List.nodup_cons]
      refine ⟨?_, i1⟩
      intro hm
      obtain ⟨v, hv, he⟩ := List.mem_map.1 hm
      exact i2 v hv (by rw [he]; exact .head _)
    · intro v hv
      rcases List.mem_cons.1 hv with rfl | hv
      · exact hns
      · exact fun hs => i2 v hv (.tail _ hs)
    · dsimp only at h2
      rw [List.length_cons]
      omega

/-- C37: every call of `GetTargetInfo` is a search run. In particular it terminates: the model is a total function, and the search makes finitely many visits. -/
theorem C37_search (s : St) : ∃ vs, SearchRun x path s vs (getTargetInfo x path s).1 (getTargetInfo x path s).2 := getTargetInfo_run s

theorem searchRun_bounded {s s' : St} {vs : List Visit} {out : Res (Option TargetFiles)} (h : SearchRun x path s vs out s') :
    (vs.map Visit.role).Nodup ∧ vs.length ≤ (x.cfg.maxDelegations + 1).toNat := by
  cases h with
  | direct _ h => have := search_bounded h; exact ⟨this.1, this.2.2.1⟩
  | refreshed _ _ h => have := search_bounded h; exact ⟨this.1, this.2.2.1⟩
  | notRefreshed => exact ⟨by simp, by simp⟩

/-- C37: `GetTargetInfo` visits no role twice and at most `MaxDelegations + 1` roles. -/
theorem C37_bounded (s : St) : ∃ vs, SearchRun x path s vs (getTargetInfo x path s).1 (getTargetInfo x path s).2 ∧
    (vs.map Visit.role).Nodup ∧ vs.length ≤ (x.cfg.maxDelegations + 1).toNat := by
  obtain ⟨vs, h⟩ := getTargetInfo_run (x := x) (path := path) s
  exact ⟨vs, h, searchRun_bounded h⟩

/-- C37, seen from outside: once top-level targets are trusted, `GetTargetInfo` makes at most `MaxDelegations + 1` downloads, whatever the delegation graph. -/
theorem C37_downloads {s : St} (h : (s.trusted.targets.get? b!"targets").isSome) :
    (getTargetInfo x path s).2.world.trace.countP isDownload ≤ s.world.trace.countP isDownload + (x.cfg.maxDelegations + 1).toNat := by
  obtain ⟨vs, hr⟩ := getTargetInfo_run (x := x) (path := path) s
  cases hr with
  | direct _ h => have := search_bounded h; omega
  | refreshed hn => rw [hn] at h; cases h
  | notRefreshed hn => rw [hn] at h; cases h

/-! ## What a search finds -/

/-- Trusted targets roles are kept. -/
def Spec.Grows (t t' : Trusted) : Prop := ∀ role m, t.targets.get? role = some m → t'.targets.get? role = some m

theorem loadTargets_grows (role parent : Str) (s : St) : Grows s.trusted (loadTargets x role parent s).2.trusted := by
  intro r m hm
  cases hr : s.trusted.targets.get? role with
  | some m' =>
    unfold loadTargets
    rw [SM.bind_ok (getTrusted_apply s), hr]
    exact hm
  | none =>
    have hne : r ≠ role := by rintro rfl; rw [hm] at hr; cases hr
    refine (keeps_loadTargets (x := x) (role := role) (parent := parent) (φ := fun t => t.targets.get? r) ?_ s).trans hm
    · intro d t
      rcases updateTargets_cases x.env t d role parent with ⟨n, h, _⟩ | ⟨e, h⟩ | h <;> rw [h]
      exact Entries.get?_set_ne _ _ (Ne.symm hne)

theorem reached_mono {env : Env} {t t' : Trusted} {S : Str → Prop} {r : Str} (hg : Grows t t') (h : Reached env t path S r) : Reached env t' path S r := by
  induction h with
  | start h => exact .start h
  | step _ h1 h2 ih => exact .step ih (hg _ _ h1) h2

theorem search_grows {k : Nat} {agenda : List (Str × Str)} {seen : List Str} {s s' : St} {vs : List Visit} {out : Res (Option TargetFiles)}
    (h : Search x path k agenda seen s vs out s') : Grows s.trusted s'.trusted := by
  induction h with
  | limit => exact fun _ _ h => h
  | empty => exact fun _ _ h => h
  | skip _ _ ih => exact ih
  | @failed k role parent _ _ s s' _ _ _ h1 => have := loadTargets_grows (x := x) role parent s; rwa [h1] at this
  | @found k role parent _ _ s s' _ _ _ h1 => have := loadTargets_grows (x := x) role parent s; rwa [h1] at this
  | @crash k role parent _ _ s s' _ _ h1 => have := loadTargets_grows (x := x) role parent s; rwa [h1] at this
  | @next k role parent _ _ s s1 s2 s' _ _ _ vs _ _ h1 _ _ ht _ _ _ ih =>
    have := loadTargets_grows (x := x) role parent s
    rw [h1, ← ht] at this
    exact fun r m hm => ih r m (this r m hm)

theorem nextRoles_covers {env : Env} {m : Metadata TargetsType} {children : List Str} {stop : Bool} (h : NextRoles env m path children stop) :
    ∀ c ∈ children, ∃ b, Covers env m path c b := by
  obtain ⟨all, _, h2, _, h4⟩ := h
  intro c hc
  rcases h4 with ⟨_, _, rfl⟩ | ⟨_, before, name, after, rfl, _, rfl⟩
  · obtain ⟨p, hp, rfl⟩ := List.mem_map.1 hc
    exact ⟨_, h2 p hp⟩
  · rcases List.mem_append.1 hc with hc | hc
    · obtain ⟨p, hp, rfl⟩ := List.mem_map.1 hc
      exact ⟨_, h2 p (List.mem_append_left _ hp)⟩
    · rw [List.mem_singleton] at hc
      subst hc
      exact ⟨_, h2 (c, true) (by simp)⟩

/-- All roles of a search are reached from its agenda; what it consulted is trusted in the end; what it returns is the entry in the last role. -/
theorem search_reached {S : Str → Prop} {k : Nat} {agenda : List (Str × Str)} {seen : List Str} {s s' : St} {vs : List Visit} {out : Res (Option TargetFiles)}
    (h : Search x path k agenda seen s vs out s') (ha : ∀ p ∈ agenda, Reached x.env s'.trusted path S p.1) :
    (∀ v ∈ vs, Reached x.env s'.trusted path S v.role) ∧
    (∀ v ∈ vs, ∀ m, v.found = some m → s'.trusted.targets.get? v.role = some m) ∧
    (∀ o, out = .ok o → ∃ v m, vs.getLast? = some v ∧ v.found = some m ∧ m.signed.targets.get? path = some o) := by
  induction h with
  | limit => exact ⟨by simp, by simp, by simp⟩
  | empty => exact ⟨by simp, by simp, by simp⟩
  | skip _ _ ih => exact ih (fun p hp => ha p (.tail _ hp))
  | failed _ _ _ ho => exact ⟨by simpa using ha _ (.head _), by simp, fun o h => absurd h (ho o)⟩
  | @found k role parent _ _ s s' m _ hns h1 h2 =>
    refine ⟨by simpa using ha _ (.head _), ?_, ?_⟩
    · intro v hv m' hm
      rw [List.mem_singleton] at hv; subst hv; cases hm
      exact loadTargets_ok h1
    · intro o ho; cases ho
      exact ⟨_, m, rfl, rfl, h2⟩
  | @crash k role parent _ _ s s' m hns h1 =>
    refine ⟨by simpa using ha _ (.head _), ?_, by simp⟩
    intro v hv m' hm
    rw [List.mem_singleton] at hv; subst hv; cases hm
    exact loadTargets_ok h1
  | @next k role parent agenda _ s s1 s2 s' m children stop vs out hns h1 h2 hn ht _ _ hsr ih =>
    have hg := search_grows hsr
    have hm : s'.trusted.targets.get? role = some m := by
      refine hg _ _ ?_
      rw [ht]; exact loadTargets_ok h1
    obtain ⟨i1, i2, i3⟩ := ih (by
      intro p hp
      rcases List.mem_append.1 hp with hp | hp
      · obtain ⟨c, hc, rfl⟩ := List.mem_map.1 hp
        obtain ⟨b, hb⟩ := nextRoles_covers hn c hc
        exact .step (ha _ (.head _)) hm hb
      · cases stop with
        | true => cases hp
        | false => exact ha p (.tail _ hp))
    refine ⟨?_, ?_, ?_⟩
    · intro v hv
      rcases List.mem_cons.1 hv with rfl | hv
      · exact ha _ (.head _)
      · exact i1 v hv
    · intro v hv m' hm'
      rcases List.mem_cons.1 hv with rfl | hv
      · cases hm'; exact hm
      · exact i2 v hv m' hm'
    · intro o ho
      obtain ⟨v, m', h4, h5, h6⟩ := i3 o ho
      refine ⟨v, m', ?_, h5, h6⟩
      rw [List.getLast?_cons, h4]; rfl

/-! ## C38 -/

theorem run_search {s s' : St} {vs : List Visit} {out : Res (Option TargetFiles)} (h : SearchRun x path s vs out s') :
    (∃ s1 k, Search x path k [(b!"targets", b!"root")] [] s1 vs out s' ∧ (s1 = s ∨ refresh x s = (.ok (), s1)) ∧ (s1.trusted.targets.get? b!"targets").isSome) ∨
    (vs = [] ∧ ∀ o, out ≠ .ok o) := by
  cases h with
  | direct h0 h => exact .inl ⟨s, _, h, .inl rfl, h0⟩
  | refreshed _ h1 h => exact .inl ⟨_, _, h, .inr h1, refresh_targets h1⟩
  | notRefreshed _ _ _ h => exact .inr ⟨rfl, h⟩

/-- C38: a target info returned by `GetTargetInfo` is the entry for the path in a trusted role that is reached from top-level targets through trusted roles by delegations
that cover the path. -/
theorem C38_delegation_chain {s s' : St} {o : Option TargetFiles} (h : getTargetInfo x path s = (.ok o, s')) :
    ∃ role m, Reached x.env s'.trusted path (· = b!"targets") role ∧ s'.trusted.targets.get? role = some m ∧ m.signed.targets.get? path = some o := by
  obtain ⟨vs, hr⟩ := getTargetInfo_run (x := x) (path := path) s
  rw [h] at hr
  rcases run_search hr with ⟨s1, k, hs, _, _⟩ | ⟨_, hn⟩
  · obtain ⟨h1, h2, h3⟩ := search_reached (S := (· = b!"targets")) hs (by
      intro p hp
      rw [List.mem_singleton] at hp; subst hp
      exact .start rfl)
    obtain ⟨v, m, h4, h5, h6⟩ := h3 o rfl
    have hv := List.mem_of_getLast? h4
    exact ⟨v.role, m, h1 v hv, h2 v hv m h5, h6⟩
  · exact absurd rfl (hn o)

theorem searchRun_visits {s s' : St} {vs : List Visit} {out : Res (Option TargetFiles)} (h : SearchRun x path s vs out s') :
    ∀ v ∈ vs, Reached x.env s'.trusted path (· = b!"targets") v.role ∧ ∀ m, v.found = some m → s'.trusted.targets.get? v.role = some m := by
  rcases run_search h with ⟨s1, k, hs, _, _⟩ | ⟨rfl, _⟩
  · obtain ⟨h1, h2, _⟩ := search_reached (S := (· = b!"targets")) hs (by
      intro p hp
      rw [List.mem_singleton] at hp; subst hp
      exact .start rfl)
    exact fun v hv => ⟨h1 v hv, h2 v hv⟩
  · simp

/-- C38: every role that `GetTargetInfo` visits is reached from top-level targets through trusted roles, and what was consulted is trusted afterwards. -/
theorem C38_visits (s : St) : ∃ vs, SearchRun x path s vs (getTargetInfo x path s).1 (getTargetInfo x path s).2 ∧
    ∀ v ∈ vs, Reached x.env (getTargetInfo x path s).2.trusted path (· = b!"targets") v.role ∧
      ∀ m, v.found = some m → (getTargetInfo x path s).2.trusted.targets.get? v.role = some m := by
  obtain ⟨vs, h⟩ := getTargetInfo_run (x := x) (path := path) s
  exact ⟨vs, h, searchRun_visits h⟩

/-! ## C39 -/

theorem search_terminating {k : Nat} {agenda : List (Str × Str)} {seen : List Str} {s s' : St} {vs : List Visit} {out : Res (Option TargetFiles)}
    (h : Search x path k agenda seen s vs out s') {pre post : List Visit} {v : Visit} {m : Metadata TargetsType} {name : Str} (hvs : vs = pre ++ v :: post)
    (hf : v.found = some m) (hc : Covers x.env m path name true) (hp : post ≠ []) :
    ∃ children, NextRoles x.env m path children true ∧ ∀ u ∈ post, Reached x.env s'.trusted path (· ∈ children) u.role := by
  induction h generalizing pre with
  | limit => cases pre <;> cases hvs
  | empty => cases pre <;> cases hvs
  | skip _ _ ih => exact ih hvs
  | failed =>
    cases pre with
    | nil => cases hvs; exact absurd rfl hp
    | cons a pre => cases pre <;> cases hvs
  | found =>
    cases pre with
    | nil => cases hvs; exact absurd rfl hp
    | cons a pre => cases pre <;> cases hvs
  | crash =>
    cases pre with
    | nil => cases hvs; exact absurd rfl hp
    | cons a pre => cases pre <;> cases hvs
  | @next k role parent agenda _ s s1 s2 s' m' children stop vs out hns h1 h2 hn ht _ _ hsr ih =>
    cases pre with
    | cons a pre => rw [List.cons_append, List.cons.injEq] at hvs; exact ih hvs.2
    | nil =>
      rw [List.nil_append, List.cons.injEq] at hvs
      obtain ⟨rfl, rfl⟩ := hvs
      cases hf
      cases stop with
      | false =>
        exfalso
        obtain ⟨all, _, _, h5, h6⟩ := hn
        obtain ⟨n', h7, _⟩ := h5 _ _ hc
        rcases h6 with ⟨_, h8, _⟩ | ⟨h8, _⟩
        · cases h8 _ h7
        · cases h8
      | true =>
        refine ⟨children, hn, ?_⟩
        refine (search_reached hsr ?_).1
        intro p hp
        rcases List.mem_append.1 hp with hp | hp
        · obtain ⟨c, hc, rfl⟩ := List.mem_map.1 hp
          exact .start hc
        · cases hp

theorem searchRun_terminating {s s' : St} {pre post : List Visit} {v : Visit} {out : Res (Option TargetFiles)} (h : SearchRun x path s (pre ++ v :: post) out s')
    {m : Metadata TargetsType} {name : Str} (hf : v.found = some m) (hc : Covers x.env m path name true) :
    ∃ children, (post = [] ∨ NextRoles x.env m path children true) ∧ ∀ u ∈ post, Reached x.env s'.trusted path (· ∈ children) u.role := by
  by_cases hp : post = []
  · subst hp; exact ⟨[], .inl rfl, by simp⟩
  · rcases run_search h with ⟨s1, k, hs, _, _⟩ | ⟨hn, _⟩
    · obtain ⟨c, h1, h2⟩ := search_terminating hs rfl hf hc hp
      exact ⟨c, .inr h1, h2⟩
    · cases pre <;> cases hn

/-- C39: if `GetTargetInfo` consulted a role with a terminating delegation that covers the path and went on, then every later role is reached from the delegations of that role up to
and including the first terminating one (in the order of this run): there is no backtracking. -/
theorem C39_terminating (s : St) : ∃ vs, SearchRun x path s vs (getTargetInfo x path s).1 (getTargetInfo x path s).2 ∧
    ∀ pre v post m name, vs = pre ++ v :: post → v.found = some m → Covers x.env m path name true →
      ∃ children, (post = [] ∨ NextRoles x.env m path children true) ∧ ∀ u ∈ post, Reached x.env (getTargetInfo x path s).2.trusted path (· ∈ children) u.role := by
  obtain ⟨vs, h⟩ := getTargetInfo_run (x := x) (path := path) s
  refine ⟨vs, h, ?_⟩
  rintro pre v post m name rfl hf hc
  exact searchRun_terminating h hf hc

/-! ## C36 -/

theorem search_found {k : Nat} {agenda : List (Str × Str)} {seen : List Str} {s s' : St} {vs : List Visit} {out : Res (Option TargetFiles)}
    (h : Search x path k agenda seen s vs out s') {o : Option TargetFiles} (ho : out = .ok o) : ∀ v ∈ vs, ∃ m, v.found = some m := by
  induction h with
  | limit => cases ho
  | empty => cases ho
  | skip _ _ ih => exact ih ho
  | failed _ _ _ hn => exact absurd ho (hn o)
  | found => simp
  | crash => cases ho
  | next _ _ _ _ _ _ _ _ ih =>
    intro v hv
    rcases List.mem_cons.1 hv with rfl | hv
    · exact ⟨_, rfl⟩
    · exact ih ho v hv

theorem session_getTargetInfo {s0 s : St} (hs : Session x s0 s) : ClientHistory x.env s0.trusted (getTargetInfo x path s).2.trusted :=
  session_history (.step (.getTargetInfo path) hs)

theorem searchRun_listed {now : Time} {t0 : Trusted} {w : World} {s s' : St} (h0 : Trusted.new x.env now x.cfg.localTrustedRoot = .ok t0) (hs : Session x ⟨t0, w⟩ s)
    {o : Option TargetFiles} (h : getTargetInfo x path s = (.ok o, s')) {vs : List Visit} (hr : SearchRun x path s vs (.ok o) s') :
    ∀ v ∈ vs, ∃ sn f m, s'.trusted.snapshot = some sn ∧ sn.signed.metas.get? (v.role ++ b!".json") = some (some f) ∧ v.found = some m ∧
      m.signed.version = f.version := by
  intro v hv
  have hh := session_getTargetInfo (path := path) hs
  rw [h] at hh
  rcases run_search hr with ⟨s1, k, hse, _, _⟩ | ⟨rfl, _⟩
  · obtain ⟨m, hm⟩ := search_found hse rfl v hv
    have h1 := ((searchRun_visits hr) v hv).2 m hm
    obtain ⟨sn, f, data, h2, h3, h4, _⟩ := (C16_targets_match_snapshot (new_root h0).2.2.2.2.2.1 hh h1).listed
    exact ⟨sn, f, m, h2, h3, hm, h4⟩
  · cases hv

/-- C36, as far as it holds: a successful `GetTargetInfo` consulted only roles that the snapshot lists, with the listed version. Missing: failures are not always errors
(`C36_crash`). -/
theorem C36_listed_partial {now : Time} {t0 : Trusted} {w : World} {s s' : St} (h0 : Trusted.new x.env now x.cfg.localTrustedRoot = .ok t0) (hs : Session x ⟨t0, w⟩ s)
    {o : Option TargetFiles} (h : getTargetInfo x path s = (.ok o, s')) : ∃ vs, SearchRun x path s vs (.ok o) s' ∧
    ∀ v ∈ vs, ∃ sn f m, s'.trusted.snapshot = some sn ∧ sn.signed.metas.get? (v.role ++ b!".json") = some (some f) ∧ v.found = some m ∧
      m.signed.version = f.version := by
  obtain ⟨vs, hr⟩ := getTargetInfo_run (x := x) (path := path) s
  rw [h] at hr
  exact ⟨vs, hr, searchRun_listed h0 hs h hr⟩

/-! ## C41 -/

theorem loadTargets_others (role parent r : Str) (hne : r ≠ role) (s : St) :
    (loadTargets x role parent s).2.trusted.targets.get? r = s.trusted.targets.get? r := by
  refine keeps_loadTargets (x := x) (role := role) (parent := parent) (φ := fun t => t.targets.get? r) ?_ s
  intro d t
  rcases updateTargets_cases x.env t d role parent with ⟨n, h, _⟩ | ⟨e, h⟩ | h <;> rw [h]
  exact Entries.get?_set_ne _ _ (Ne.symm hne)

theorem search_root {k : Nat} {agenda : List (Str × Str)} {seen : List Str} {s s' : St} {vs : List Visit} {out : Res (Option TargetFiles)}
    (h : Search x path k agenda seen s vs out s') : s'.trusted.root = s.trusted.root := by
  induction h with
  | limit => rfl
  | empty => rfl
  | skip _ _ ih => exact ih
  | @failed k role parent _ _ s s' _ _ _ h1 => have := (loadTargets_keeps (x := x) role parent s).1; rwa [h1] at this
  | @found k role parent _ _ s s' _ _ _ h1 => have := (loadTargets_keeps (x := x) role parent s).1; rwa [h1] at this
  | @crash k role parent _ _ s s' _ _ h1 => have := (loadTargets_keeps (x := x) role parent s).1; rwa [h1] at this
  | @next k role parent _ _ s s1 s2 s' _ _ _ vs _ _ h1 _ _ ht _ _ _ ih =>
    have := (loadTargets_keeps (x := x) role parent s).1
    rw [h1] at this
    rw [ih, ht]; exact this

/-- A role that was not trusted when the search began is verified for the delegation through which it is visited. -/
theorem search_verified {k : Nat} {agenda : List (Str × Str)} {seen : List Str} {s s' : St} {vs : List Visit} {out : Res (Option TargetFiles)}
    (h : Search x path k agenda seen s vs out s') : ∀ v ∈ vs, s.trusted.targets.get? v.role = none → ∀ m, v.found = some m →
      ∃ D, DelegatorIs s'.trusted v.parent D ∧ Verifies x.env D v.role (.targets m) := by
  have key : ∀ {role parent : Str} {s s1 s' : St} {m : Metadata TargetsType}, loadTargets x role parent s = (.ok m, s1) → s.trusted.targets.get? role = none →
      Grows s1.trusted s'.trusted → s'.trusted.root = s1.trusted.root → ∃ D, DelegatorIs s'.trusted parent D ∧ Verifies x.env D role (.targets m) := by
    intro role parent s s1 s' m h1 hn hg hr
    obtain ⟨data, ha, _⟩ := loadTargets_accepted h1 hn
    obtain ⟨sn, ts, f, D, _, _, _, _, _, _, _, hD, hv⟩ := ha.snapshot
    have hg1 := loadTargets_grows (x := x) role parent s
    rw [h1] at hg1
    have hr1 := (loadTargets_keeps (x := x) role parent s).1
    rw [h1] at hr1
    refine ⟨D, ?_, hv⟩
    cases hD with
    | root =>
      have : s.trusted.root = s'.trusted.root := by rw [hr]; exact hr1.symm
      rw [this]; exact .root
    | targets h2 h3 => exact .targets h2 (hg _ _ (hg1 _ _ h3))
  induction h with
  | limit => simp
  | empty => simp
  | skip _ _ ih => exact ih
  | failed =>
    intro v hv _ m hm
    rw [List.mem_singleton] at hv; subst hv; cases hm
  | found _ h1 =>
    intro v hv hn m hm
    rw [List.mem_singleton] at hv; subst hv; cases hm
    exact key h1 hn (fun _ _ h => h) rfl
  | crash _ h1 =>
    intro v hv hn m hm
    rw [List.mem_singleton] at hv; subst hv; cases hm
    exact key h1 hn (fun _ _ h => h) rfl
  | @next k role parent agenda seen s s1 s2 s' m' children stop vs out hns h1 h2 hnx ht _ _ hsr ih =>
    intro v hv hn m hm
    rcases List.mem_cons.1 hv with rfl | hv
    · cases hm
      refine key h1 hn ?_ ?_
      · rw [← ht]; exact search_grows hsr
      · rw [← ht]; exact search_root hsr
    · refine ih v hv ?_ m hm
      have hne : v.role ≠ role := by
        intro he
        exact (search_bounded hsr).2.1 v hv (by rw [he]; exact .head _)
      have := loadTargets_others (x := x) role parent v.role hne s
      rw [h1] at this
      rw [ht]; exact this.trans hn

theorem searchRun_new_roles {s s' : St} {vs : List Visit} {out : Res (Option TargetFiles)} (h : SearchRun x path s vs out s') {v : Visit} (hv : v ∈ vs)
    (hn : ∀ s1, s1 = s ∨ refresh x s = (.ok (), s1) → s1.trusted.targets.get? v.role = none) {m : Metadata TargetsType} (hm : v.found = some m) :
    ∃ D, DelegatorIs s'.trusted v.parent D ∧ Verifies x.env D v.role (.targets m) := by
  rcases run_search h with ⟨s1, k, hs, h1, _⟩ | ⟨rfl, _⟩
  · exact search_verified hs v hv (hn s1 h1) m hm
  · cases hv

/-- C41, as far as it holds: roles that were not trusted before the search (or its refresh) are verified with the keys of the role that delegated to them in this search.
Missing: roles that were trusted already (`C41_false`). -/
theorem C41_new_roles_partial (s : St) : ∃ vs, SearchRun x path s vs (getTargetInfo x path s).1 (getTargetInfo x path s).2 ∧
    ∀ v ∈ vs, (∀ s1, s1 = s ∨ refresh x s = (.ok (), s1) → s1.trusted.targets.get? v.role = none) → ∀ m, v.found = some m →
      ∃ D, DelegatorIs (getTargetInfo x path s).2.trusted v.parent D ∧ Verifies x.env D v.role (.targets m) := by
  obtain ⟨vs, h⟩ := getTargetInfo_run (x := x) (path := path) s
  exact ⟨vs, h, fun v hv hn m hm => searchRun_new_roles h hv hn hm⟩

theorem keeps_refresh {r : Str} (hr : r ≠ TARGETS) : Keeps (fun t => t.targets.get? r) (refresh x) := by
  have k1 : ∀ d t, (Trusted.updateRoot x.env t d).2.targets.get? r = t.targets.get? r := by
    intro d t
    rcases updateRoot_cases x.env t d with ⟨n, h, _⟩ | ⟨e, h⟩ | h <;> rw [h]
  have k2 : ∀ d t, (Trusted.updateTimestamp x.env t d).2.targets.get? r = t.targets.get? r := by
    intro d t; rw [updateTimestamp_keeps]
  have k3 : ∀ d b t, (Trusted.updateSnapshot x.env t d b).2.targets.get? r = t.targets.get? r := by
    intro d b t; rw [updateSnapshot_keeps]
  have k4 : ∀ d t, (Trusted.updateDelegatedTargets x.env t d TARGETS ROOT).2.targets.get? r = t.targets.get? r := by
    intro d t
    rcases updateTargets_cases x.env t d TARGETS ROOT with ⟨n, h, _⟩ | ⟨e, h⟩ | h <;> rw [h]
    exact Entries.get?_set_ne _ _ (Ne.symm hr)
  have k5 : ∀ n v, Keeps (fun t => t.targets.get? r) (loadRootLoop x n v) := by
    intro n
    induction n with
    | zero => intro v; exact keeps_pure _
    | succ n ih =>
      intro v
      rw [loadRootLoop]
      refine keeps_bind (keeps_try (keeps_onWorld _)) ?_
      intro o
      rcases o with e | d
      · cases e
        case downloadHTTP => dsimp only; split; exact keeps_throw _; exact keeps_pure _
        all_goals exact keeps_throw _
      · exact keeps_bind (keeps_onTrusted (k1 d)) (fun _ => keeps_bind (keeps_onWorld _) (fun _ => ih _))
  unfold refresh
  split
  · exact keeps_bind (keeps_onWorld _) (fun d1 => keeps_bind (keeps_onTrusted (k2 d1)) (fun _ => keeps_bind (keeps_onWorld _) (fun d2 =>
      keeps_bind (keeps_onTrusted (k3 d2 false)) (fun _ => keeps_bind (keeps_onWorld _) (fun d3 => keeps_bind (keeps_onTrusted (k4 d3)) (fun _ => keeps_pure _))))))
  · exact keeps_bind (keeps_bind keeps_getTrusted (fun t => k5 _ _)) (fun _ => keeps_bind (keeps_loadTimestamp k2) (fun _ =>
      keeps_bind (keeps_loadSnapshot k3) (fun _ => keeps_bind (keeps_loadTargets k4) (fun _ => keeps_pure _))))

theorem searchRun_first_lookup {s s' : St} (hs : s.trusted.targets = []) {vs : List Visit} {out : Res (Option TargetFiles)} (h : SearchRun x path s vs out s')
    {v : Visit} (hv : v ∈ vs) (hn : v.role ≠ b!"targets") {m : Metadata TargetsType} (hm : v.found = some m) :
    ∃ D, DelegatorIs s'.trusted v.parent D ∧ Verifies x.env D v.role (.targets m) := by
  refine searchRun_new_roles h hv ?_ hm
  intro s1 h1
  have h0 : s.trusted.targets.get? v.role = none := by rw [hs]; rfl
  rcases h1 with rfl | h1
  · exact h0
  · have := keeps_refresh (x := x) (r := v.role) hn s
    rw [h1] at this
    exact this.trans h0

/-- C41 holds for the first lookup of a client. -/
theorem C41_first_lookup_partial (s : St) (hs : s.trusted.targets = []) : ∃ vs, SearchRun x path s vs (getTargetInfo x path s).1 (getTargetInfo x path s).2 ∧
    ∀ v ∈ vs, v.role ≠ b!"targets" → ∀ m, v.found = some m →
      ∃ D, DelegatorIs (getTargetInfo x path s).2.trusted v.parent D ∧ Verifies x.env D v.role (.targets m) := by
  obtain ⟨vs, h⟩ := getTargetInfo_run (x := x) (path := path) s
  exact ⟨vs, h, fun v hv hn m hm => searchRun_first_lookup hs h hv hn hm⟩

/-- C41 for the first lookup of a client and the delegations of roles not called `root`: the metadata of the delegating role are trusted, and the delegated ones verify against them.
Missing: the delegations of a role called `root` (`C41_false_root`), and roles that were trusted already (`C41_false`). -/
theorem C41_parent_partial (s : St) (hs : s.trusted.targets = []) : ∃ vs, SearchRun x path s vs (getTargetInfo x path s).1 (getTargetInfo x path s).2 ∧
    ∀ v ∈ vs, v.role ≠ b!"targets" → v.parent ≠ b!"root" → ∀ m, v.found = some m →
      ∃ p, (getTargetInfo x path s).2.trusted.targets.get? v.parent = some p ∧ Verifies x.env (.targets p) v.role (.targets m) := by
  obtain ⟨vs, h⟩ := getTargetInfo_run (x := x) (path := path) s
  refine ⟨vs, h, fun v hv hn hp m hm => ?_⟩
  obtain ⟨D, hD, hV⟩ := searchRun_first_lookup hs h hv hn hm
  generalize hpp : v.parent = pp at hD hp
  cases hD with
  | root => exact absurd rfl hp
  | targets _ hg => exact ⟨_, hg, hV⟩

/-! ## C42 -/

/-- Every target carries its own name. -/
def Spec.PathsSet (t : TargetsType) : Prop := ∀ k o, t.targets.get? k = some o → ∃ tf, o = some tf ∧ tf.path = k

theorem setPaths_names {es es' : Entries (Option TargetFiles)} (h : setPaths es = .ok es') :
    ∀ k o, es'.get? k = some o → ∃ tf, o = some tf ∧ tf.path = k := by
  induction es generalizing es' with
  | nil => cases h; simp [Entries.get?]
  | cons e es ih =>
    obtain ⟨k0, v⟩ := e
    cases v with
    | none => cases h
    | some t =>
      obtain ⟨r, h1, h2⟩ := Res.bind_eq_ok.1 h
      cases h2
      intro k o ho
      simp only [Entries.get?] at ho
      split at ho
      · next he => cases ho; exact ⟨_, rfl, he⟩
      · exact ih h1 k o ho

theorem unmarshal_pathsSet {env : Env} {j : Json} {t : TargetsType} (h : TargetsType.unmarshal env j = .ok t) : PathsSet t := by
  obtain ⟨a, _, h⟩ := Res.bind_eq_ok.1 h
  obtain ⟨b, h1, h⟩ := Res.bind_eq_ok.1 h
  obtain ⟨d, _, h⟩ := Res.bind_eq_ok.1 h
  cases h
  show PathsSet { b with unrec := _ }
  simp only [TargetsType.setTargetPaths] at h1
  split at h1
  · next he => cases h1; intro k o ho; simp [he, GoMap.get?] at ho
  · obtain ⟨es, h2, h3⟩ := Res.bind_eq_ok.1 h1
    cases h3
    intro k o ho
    exact setPaths_names h2 k o ho

theorem fromBytes_pathsSet {env : Env} {data : Bytes} {m : Metadata TargetsType} (h : ParsesTo env data m) : PathsSet m.signed := by
  obtain ⟨_, _, h⟩ := Res.bind_eq_ok.1 h
  obtain ⟨j, _, h⟩ := Res.bind_eq_ok.1 h
  obtain ⟨m', h1, h⟩ := Res.bind_eq_ok.1 h
  obtain ⟨_, _, h⟩ := Res.bind_eq_ok.1 h
  cases h
  obtain ⟨a, h2, h⟩ := Res.bind_eq_ok.1 h1
  obtain ⟨b, h3, h⟩ := Res.bind_eq_ok.1 h
  obtain ⟨d, _, h⟩ := Res.bind_eq_ok.1 h
  cases h3
  cases h
  have hz : PathsSet (RoleType.zero : TargetsType) := by intro k o ho; cases ho
  show PathsSet a.signed
  have hset : ∀ f j (a a' : Metadata TargetsType), PathsSet a.signed → Metadata.setField env f j a = .ok a' → PathsSet a'.signed := by
    intro f j a a' ha h
    simp only [Metadata.setField] at h
    split at h <;> obtain ⟨v, h1, h2⟩ := Res.bind_eq_ok.1 h <;> cases h2
    · exact unmarshal_pathsSet h1
    · exact ha
  cases j with
  | obj m => exact decFields_inv (P := fun a => PathsSet a.signed) hset hz h2
  | null => cases h2; exact hz
  | _ => cases h2

/-- C42: an info returned by `GetTargetInfo` is not nil and is named by the requested path. -/
theorem C42_path {now : Time} {t0 : Trusted} {w : World} {s s' : St} (h0 : Trusted.new x.env now x.cfg.localTrustedRoot = .ok t0) (hs : Session x ⟨t0, w⟩ s)
    {o : Option TargetFiles} (h : getTargetInfo x path s = (.ok o, s')) : ∃ tf, o = some tf ∧ tf.path = path := by
  obtain ⟨role, m, _, h1, h2⟩ := C38_delegation_chain h
  have hh := session_getTargetInfo (path := path) hs
  rw [h] at hh
  obtain ⟨sn, f, data, _, _, _, hp, _⟩ := (C16_targets_match_snapshot (new_root h0).2.2.2.2.2.1 hh h1).listed
  exact fromBytes_pathsSet hp path o h2

end

end Tuf
