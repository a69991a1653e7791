import Verif.Spec.Effort
import Verif.Props.Refresh
import Verif.Props.Search

/-! # Counting what calls do -/

namespace Tuf
open Spec

theorem total_append (w : Event → Nat) (a b : List Event) : total w (a ++ b) = total w a + total w b := by simp [total]

/-- The code adds at most `n` to the weight of the history. -/
def Costs {α : Type} (w : Event → Nat) (n : Nat) (m : M α) : Prop := ∀ s, total w (m s).2.world.trace ≤ total w s.world.trace + n

/-- The same for code that only touches the world. -/
def CostsW {α : Type} (w : Event → Nat) (n : Nat) (m : W α) : Prop := ∀ s, total w (m s).2.trace ≤ total w s.trace + n

section
variable {x : Ctx} {α β : Type} {w : Event → Nat} {n k : Nat}

theorem costs_bind {m : M α} {f : α → M β} (hm : Costs w n m) (hf : ∀ a, Costs w k (f a)) : Costs w (n + k) (m >>= f) := by
  intro s
  have h := hm s
  rw [SM.bind_apply]
  rcases hr : m s with ⟨r, s1⟩
  rw [hr] at h
  dsimp only at h
  cases r with
  | ok a => have := hf a s1; dsimp only; omega
  | err e => dsimp only; omega
  | panic => dsimp only; omega

theorem costsW_bind {m : W α} {f : α → W β} (hm : CostsW w n m) (hf : ∀ a, CostsW w k (f a)) : CostsW w (n + k) (m >>= f) := by
  intro s
  have h := hm s
  rw [SM.bind_apply]
  rcases hr : m s with ⟨r, s1⟩
  rw [hr] at h
  dsimp only at h
  cases r with
  | ok a => have := hf a s1; dsimp only; omega
  | err e => dsimp only; omega
  | panic => dsimp only; omega

theorem Costs.mono {m : M α} (h : Costs w n m) (hn : n ≤ k) : Costs w k m := fun s => by have := h s; omega
theorem CostsW.mono {m : W α} (h : CostsW w n m) (hn : n ≤ k) : CostsW w k m := fun s => by have := h s; omega
theorem costs_pure (a : α) : Costs w 0 (pure a : M α) := fun _ => Nat.le_refl _
theorem costs_throw (e : Err) : Costs w 0 (SM.throw e : M α) := fun _ => Nat.le_refl _
theorem costs_panic : Costs w 0 (SM.panic : M α) := fun _ => Nat.le_refl _
theorem costs_lift (r : Res α) : Costs w 0 (SM.lift r : M α) := fun _ => Nat.le_refl _
theorem costs_getTrusted : Costs w 0 getTrusted := fun _ => Nat.le_refl _
theorem costs_try {m : M α} (h : Costs w n m) : Costs w n (SM.try' m) := fun s => by rw [SM.try_snd]; exact h s
theorem costs_onTrusted (f : Trusted → Res α × Trusted) : Costs w 0 (onTrusted f) := fun s => by rw [onTrusted_apply]; exact Nat.le_refl _
theorem costs_world {m : W α} (h : CostsW w n m) : Costs w n (onWorld m) := fun s => by rw [onWorld_apply]; exact h s.world
theorem costsW_pure (a : α) : CostsW w 0 (pure a : W α) := fun _ => Nat.le_refl _
theorem costsW_throw (e : Err) : CostsW w 0 (SM.throw e : W α) := fun _ => Nat.le_refl _
theorem costsW_lift (r : Res α) : CostsW w 0 (SM.lift r : W α) := fun _ => Nat.le_refl _
theorem costsW_try {m : W α} (h : CostsW w n m) : CostsW w n (SM.try' m) := fun s => by rw [SM.try_snd]; exact h s

theorem total_emit (s : World) (e : Event) : total w (s.emit e).trace = total w s.trace + w e := by
  simp [World.emit, total]

/-! ## Operations -/

theorem costs_fetch {n : Nat} {url : Str} {l : Int} (h : ∀ tr r, x.host.fetch tr url l = r → w (.fetch url l r) ≤ n) :
    CostsW w n (doFetch x.host url l) := by
  intro s
  unfold doFetch
  have := h s.trace _ rfl
  cases hf : x.host.fetch s.trace url l <;> (rw [hf] at this; dsimp only; rw [total_emit]; omega)

theorem costs_read {n : Nat} (h : ∀ q r, w (.read q r) ≤ n) (path : Str) : CostsW w n (readFile x.host path) := by
  intro s
  unfold readFile
  dsimp only
  cases hr : (if x.host.readFails s.trace path then none else s.fs path) <;>
    (dsimp only; rw [total_emit]; have := h path none; first | omega | (rename_i d; have := h path (some d); omega))

/-- A bound for all events other than requests and reads. -/
def Other (w : Event → Nat) (n : Nat) : Prop := ∀ e, (∀ u l r, e ≠ .fetch u l r) → (∀ q r, e ≠ .read q r) → w e ≤ n

theorem costs_emit {c : Nat} (h : Other w c) (s : World) (e : Event) (h1 : ∀ u l r, e ≠ .fetch u l r) (h2 : ∀ q r, e ≠ .read q r) :
    total w (s.emit e).trace ≤ total w s.trace + c := by
  rw [total_emit]
  exact Nat.add_le_add_left (h e h1 h2) _

theorem costs_create {c : Nat} (h : Other w c) : CostsW w c (createTemp x.host) := by
  intro s
  unfold createTemp
  split
  · dsimp only
    split <;> exact costs_emit h _ _ (by simp) (by simp)
  · exact costs_emit h _ _ (by simp) (by simp)

theorem costs_writeFile {c : Nat} (h : Other w c) (f : Str) (d : Bytes) : CostsW w (2 * c) (writeFile x.host f d) := by
  intro s
  unfold writeFile
  split
  · have := costs_emit h s (.failed b!"open") (by simp) (by simp); dsimp only; omega
  · have h1 := costs_emit h s (.truncate f) (by simp) (by simp)
    have h2 := costs_emit h (s.emit (.truncate f)) (.write f (d.take (x.host.writeCount (s.emit (.truncate f)).trace d.length))) (by simp) (by simp)
    dsimp only
    split <;> (dsimp only; omega)

theorem costs_rename {c : Nat} (h : Other w c) (a b : Str) : CostsW w c (renameFile x.host a b) := by
  intro s
  unfold renameFile
  split <;> exact costs_emit h _ _ (by simp) (by simp)

theorem costs_remove {c : Nat} (h : Other w c) (a : Str) : CostsW w c (removeFile x.host a) := by
  intro s
  unfold removeFile
  split <;> exact costs_emit h _ _ (by simp) (by simp)

theorem costs_mkdir {c : Nat} (h : Other w c) (a : Str) : CostsW w c (mkdirAll x.host a) := by
  intro s
  unfold mkdirAll
  dsimp only
  split <;> exact costs_emit h _ _ (by simp) (by simp)

theorem costs_iterate {c : Nat} (h : Other w c) (es : List α) : CostsW w c (iterateMap x.host es) := by
  intro s
  exact costs_emit h _ _ (by simp) (by simp)

theorem costs_persist {c : Nat} (h : Other w c) (role : Str) (data : Bytes) : CostsW w (4 * c) (persistMetadata x role data) := by
  unfold persistMetadata
  split
  · exact (costsW_pure _).mono (by omega)
  · refine (costsW_bind (k := 3 * c) (costs_create h) (fun f => ?_)).mono (by omega)
    refine (costsW_bind (k := c) (costsW_try (costs_writeFile h f data)) (fun r => ?_)).mono (by omega)
    cases r with
    | error e => exact (costsW_bind (k := 0) (costs_remove h f) (fun _ => costsW_throw e))
    | ok _ => exact costs_rename h _ _

/-! ## The loads -/

/-- What the operations cost: `f` a request, `r` a read, `c` anything else. -/
structure Prices (x : Ctx) (w : Event → Nat) (r c : Nat) : Prop where
  read : ∀ q o, w (.read q o) ≤ r
  other : Other w c

variable {r c : Nat}

theorem costs_tryLocal (p : Prices x w r c) (role : Str) (f : Bytes → Trusted → Res α × Trusted) : Costs w r (tryLocal x role f) := by
  unfold tryLocal
  refine (costs_bind (k := 0) (costs_try (costs_world (costs_read p.read _))) (fun o => ?_)).mono (by omega)
  cases o with
  | error e => exact costs_pure _
  | ok d =>
    refine costs_bind (n := 0) (k := 0) (costs_try (costs_onTrusted _)) (fun o => ?_)
    cases o with
    | ok a => exact costs_pure _
    | error e => dsimp only; split; exact costs_pure _; exact costs_throw _

theorem costs_rootLoop (p : Prices x w r c) {f : Nat} (hf : ∀ url, CostsW w f (doFetch x.host url x.cfg.rootMaxLength)) (n : Nat) (v : Int) :
    Costs w (n * (f + 4 * c)) (loadRootLoop x n v) := by
  induction n generalizing v with
  | zero => exact (costs_pure _).mono (by omega)
  | succ n ih =>
    rw [loadRootLoop]
    refine (costs_bind (n := f) (k := 4 * c + n * (f + 4 * c)) (costs_try (costs_world (hf _))) (fun o => ?_)).mono (by rw [Nat.succ_mul n]; omega)
    rcases o with e | d
    · cases e
      case downloadHTTP => dsimp only; split; exact (costs_throw _).mono (by omega); exact (costs_pure _).mono (by omega)
      all_goals exact (costs_throw _).mono (by omega)
    · refine (costs_bind (k := 4 * c + n * (f + 4 * c)) (costs_onTrusted _) (fun _ => ?_)).mono (by omega)
      exact costs_bind (costs_world (costs_persist p.other _ _)) (fun _ => ih _)

theorem costs_loadRoot (p : Prices x w r c) {f : Nat} (hf : ∀ url, CostsW w f (doFetch x.host url x.cfg.rootMaxLength))
    (h0 : 0 ≤ x.cfg.maxRootRotations) (h1 : x.cfg.maxRootRotations < 2 ^ 63) : Costs w (x.cfg.maxRootRotations.toNat * (f + 4 * c)) (loadRoot x) := by
  unfold loadRoot
  refine (costs_bind (k := x.cfg.maxRootRotations.toNat * (f + 4 * c)) costs_getTrusted (fun t => ?_)).mono (by omega)
  have hb := wrap64_bounds (t.root.signed.version + 1)
  exact (costs_rootLoop p hf _ _).mono (Nat.mul_le_mul_right _ (rootRounds (by omega) h1).1)

theorem costs_loadTimestamp (p : Prices x w r c) {f : Nat} (hf : ∀ url, CostsW w f (doFetch x.host url x.cfg.timestampMaxLength)) :
    Costs w (r + f + 4 * c) (loadTimestamp x) := by
  unfold loadTimestamp
  refine (costs_bind (k := f + 4 * c) (costs_tryLocal p _ _) (fun _ => ?_)).mono (by omega)
  refine costs_bind (costs_world (hf _)) (fun d => ?_)
  refine (costs_bind (n := 0) (k := 4 * c) (costs_try (costs_onTrusted _)) (fun o => ?_)).mono (by omega)
  cases o with
  | error e => dsimp only; split; exact (costs_pure _).mono (by omega); exact (costs_throw _).mono (by omega)
  | ok _ => exact costs_world (costs_persist p.other _ _)

/-- Limits of requests for snapshot and targets differ from state to state; here any request costs at most `f`. -/
theorem costs_loadSnapshot (p : Prices x w r c) {f : Nat} (hf : ∀ url l, CostsW w f (doFetch x.host url l)) :
    Costs w (r + f + 4 * c) (loadSnapshot x) := by
  unfold loadSnapshot
  refine (costs_bind (k := f + 4 * c) (costs_tryLocal p _ _) (fun o => ?_)).mono (by omega)
  cases o with
  | some _ => exact (costs_pure _).mono (by omega)
  | none =>
    refine (costs_bind (k := f + 4 * c) costs_getTrusted (fun t => ?_)).mono (by omega)
    split
    · exact (costs_throw _).mono (by omega)
    · refine (costs_bind (k := f + 4 * c) (costs_lift _) (fun i => ?_)).mono (by omega)
      refine costs_bind (costs_world (hf _ _)) (fun d => ?_)
      exact (costs_bind (n := 0) (costs_onTrusted _) (fun _ => costs_world (costs_persist p.other _ _))).mono (by omega)

theorem costs_loadTargets (p : Prices x w r c) {f : Nat} (hf : ∀ url l, CostsW w f (doFetch x.host url l)) (role parent : Str) :
    Costs w (r + f + 4 * c) (loadTargets x role parent) := by
  unfold loadTargets
  refine (costs_bind (k := r + f + 4 * c) costs_getTrusted (fun t => ?_)).mono (by omega)
  split
  · exact (costs_pure _).mono (by omega)
  · refine (costs_bind (k := f + 4 * c) (costs_tryLocal p _ _) (fun o => ?_)).mono (by omega)
    cases o with
    | some _ => exact (costs_pure _).mono (by omega)
    | none =>
      refine (costs_bind (k := f + 4 * c) costs_getTrusted (fun t => ?_)).mono (by omega)
      split
      · exact (costs_throw _).mono (by omega)
      · refine (costs_bind (k := f + 4 * c) (costs_lift _) (fun i => ?_)).mono (by omega)
        refine costs_bind (costs_world (hf _ _)) (fun d => ?_)
        refine (costs_bind (n := 0) (k := 4 * c) (costs_onTrusted _) (fun _ => ?_)).mono (by omega)
        exact (costs_bind (k := 0) (costs_world (costs_persist p.other _ _)) (fun _ => costs_pure _)).mono (by omega)

/-! ## Calls -/

/-- The price of a refresh. -/
theorem costs_refresh (p : Prices x w r c) {f : Nat} (hf : ∀ url l, CostsW w f (doFetch x.host url l))
    (h0 : 0 ≤ x.cfg.maxRootRotations) (h1 : x.cfg.maxRootRotations < 2 ^ 63) :
    Costs w (x.cfg.maxRootRotations.toNat * (f + 4 * c) + 3 * (r + f + 4 * c)) (refresh x) := by
  unfold refresh
  split
  · unfold unsafeLocalRefresh
    refine Costs.mono (n := 3 * r) ?_ (by omega)
    have hl : ∀ role, Costs w r (onWorld (loadLocalMetadata x role)) := fun role => costs_world (costs_read p.read _)
    refine (costs_bind (k := 2 * r) (hl _) (fun _ => ?_)).mono (by omega)
    refine (costs_bind (k := 2 * r) (costs_onTrusted _) (fun _ => ?_)).mono (by omega)
    refine (costs_bind (k := r) (hl _) (fun _ => ?_)).mono (by omega)
    refine (costs_bind (k := r) (costs_onTrusted _) (fun _ => ?_)).mono (by omega)
    refine (costs_bind (k := 0) (hl _) (fun _ => ?_)).mono (by omega)
    exact costs_bind (n := 0) (costs_onTrusted _) (fun _ => costs_pure _)
  · unfold onlineRefresh
    refine costs_bind (costs_loadRoot p (fun u => hf u _) h0 h1) (fun _ => ?_)
    refine (costs_bind (k := 2 * (r + f + 4 * c)) (costs_loadTimestamp p (fun u => hf u _)) (fun _ => ?_)).mono (by omega)
    refine (costs_bind (k := r + f + 4 * c) (costs_loadSnapshot p hf) (fun _ => ?_)).mono (by omega)
    exact (costs_bind (k := 0) (costs_loadTargets p hf _ _) (fun _ => costs_pure _)).mono (by omega)

theorem costs_pushChildren (h : Other w c) (path role : Str) (m : Metadata TargetsType) (rest : List RoleParent) :
    CostsW w c (pushChildren x path role m rest) := by
  unfold pushChildren
  split
  · exact (costsW_pure _).mono (by omega)
  · refine (costsW_bind (k := c) (costsW_lift _) (fun roles => ?_)).mono (by omega)
    exact (costsW_bind (k := 0) (costs_iterate h _) (fun o => costsW_pure _)).mono (by omega)

theorem costs_walk (p : Prices x w r c) {f : Nat} (hf : ∀ url l, CostsW w f (doFetch x.host url l)) (path : Str) (k : Nat) (stack : List RoleParent) (visited : List Str) :
    Costs w (k * (r + f + 5 * c)) (walk x path k stack visited) := by
  induction k generalizing stack visited with
  | zero => exact (costs_throw _).mono (by omega)
  | succ k ih =>
    rw [walk]
    split
    · exact (costs_throw _).mono (by omega)
    · rename_i d rest _
      refine (costs_bind (n := r + f + 4 * c) (k := c + k * (r + f + 5 * c)) (costs_loadTargets p hf _ _) (fun m => ?_)).mono (by rw [Nat.succ_mul k]; omega)
      split
      · exact (costs_pure _).mono (by omega)
      · exact costs_bind (costs_world (costs_pushChildren p.other _ _ _ _)) (fun s => ih _ _)

theorem loadTargets_known {s : St} {role parent : Str} {m : Metadata TargetsType} (hm : s.trusted.targets.get? role = some m) :
    loadTargets x role parent s = (.ok m, s) := by
  unfold loadTargets
  rw [SM.bind_apply]
  show (match s.trusted.targets.get? role with
    | some role => (pure role : M _)
    | none => _) s = _
  rw [hm]
  rfl

/-- Top-level targets are trusted already when a search begins, so that the first visit costs at most an iteration. -/
theorem costs_search (p : Prices x w r c) {f : Nat} (hf : ∀ url l, CostsW w f (doFetch x.host url l)) (path : Str) {s : St} (hs : (s.trusted.targets.get? TARGETS).isSome) :
    total w (preOrderDepthFirstWalk x path s).2.world.trace ≤ total w s.world.trace + (c + x.cfg.maxDelegations.toNat * (r + f + 5 * c)) := by
  unfold preOrderDepthFirstWalk
  by_cases hd : 0 ≤ x.cfg.maxDelegations
  · rw [show (x.cfg.maxDelegations + 1).toNat = x.cfg.maxDelegations.toNat + 1 by omega, walk]
    have e : List.dropWhile (fun d : RoleParent => decide (d.role ∈ ([] : List Str))) [⟨TARGETS, ROOT⟩] = [⟨TARGETS, ROOT⟩] := rfl
    rw [e]
    obtain ⟨m, hm⟩ := Option.isSome_iff_exists.1 hs
    dsimp only
    rw [SM.bind_apply, loadTargets_known hm]
    dsimp only
    rcases m.signed.targets.get? path with _ | tf
    · exact costs_bind (costs_world (costs_pushChildren p.other _ _ _ _)) (fun st => costs_walk p hf path _ _ _) s
    · show total w s.world.trace ≤ _; omega
  · rw [show (x.cfg.maxDelegations + 1).toNat = 0 by omega]
    show total w s.world.trace ≤ _; omega

theorem costs_getTargetInfo (p : Prices x w r c) {f : Nat} (hf : ∀ url l, CostsW w f (doFetch x.host url l))
    (h0 : 0 ≤ x.cfg.maxRootRotations) (h1 : x.cfg.maxRootRotations < 2 ^ 63) (path : Str) :
    Costs w (x.cfg.maxRootRotations.toNat * (f + 4 * c) + 3 * (r + f + 4 * c) + (c + x.cfg.maxDelegations.toNat * (r + f + 5 * c))) (getTargetInfo x path) := by
  intro s
  unfold getTargetInfo
  rw [SM.bind_apply]
  show total w ((if (s.trusted.targets.get? TARGETS).isSome = true then preOrderDepthFirstWalk x path else refresh x >>= fun _ => preOrderDepthFirstWalk x path) s).2.world.trace ≤ _
  split
  · rename_i hs
    have := costs_search p hf path hs
    omega
  · rw [SM.bind_apply]
    have h2 := costs_refresh p hf h0 h1 s
    rcases e : refresh x s with ⟨o, s1⟩
    rw [e] at h2
    dsimp only at h2
    cases o with
    | ok u =>
      have := costs_search p hf path (refresh_targets e)
      dsimp only
      omega
    | err e => dsimp only; omega
    | panic => dsimp only; omega

theorem costs_downloadTarget (p : Prices x w r c) {f : Nat} (tf : TargetFiles) (hf : ∀ url, CostsW w f (doFetch x.host url tf.length)) (fp base : Str) :
    Costs w (f + 3 * c) (downloadTarget x tf fp base) := by
  unfold downloadTarget
  refine (costs_bind (k := f + 3 * c) (costs_lift _) (fun _ => ?_)).mono (by omega)
  refine (costs_bind (k := f + 3 * c) (costs_lift _) (fun _ => ?_)).mono (by omega)
  refine (costs_bind (k := f + 3 * c) costs_getTrusted (fun _ => ?_)).mono (by omega)
  refine (costs_bind (n := c) (k := f + 2 * c) (costs_world ?_) (fun _ => ?_)).mono (by omega)
  · unfold targetURLPath
    split
    · exact (costsW_bind (k := 0) (costs_iterate p.other _) (fun _ => costsW_pure _)).mono (by omega)
    · exact (costsW_pure _).mono (by omega)
  refine (costs_bind (k := 2 * c) (costs_world (hf _)) (fun _ => ?_)).mono (by omega)
  refine (costs_bind (k := 2 * c) (costs_lift _) (fun _ => ?_)).mono (by omega)
  refine (costs_bind (n := 2 * c) (k := 0) (costs_world ?_) (fun _ => costs_pure _)).mono (by omega)
  unfold storeTarget
  split
  · exact (costsW_pure _).mono (by omega)
  · exact costs_writeFile p.other _ _

theorem costs_findCachedTarget (p : Prices x w r c) (tf : TargetFiles) (fp : Str) : Costs w r (findCachedTarget x tf fp) := by
  unfold findCachedTarget
  split
  · exact (costs_pure _).mono (by omega)
  · refine (costs_bind (k := r) (costs_lift _) (fun _ => ?_)).mono (by omega)
    refine (costs_bind (k := 0) (costs_try (costs_world (costs_read p.read _))) (fun o => ?_)).mono (by omega)
    cases o with
    | error e => exact costs_pure _
    | ok d =>
      dsimp only
      cases tf.verifyLengthHashes x.env d with
      | ok _ => exact costs_pure _
      | err e => exact costs_pure _
      | panic => exact costs_panic

theorem costs_newUpdater (p : Prices x w r c) : CostsW w (6 * c) (newUpdater x) := by
  intro s
  unfold newUpdater
  split
  · dsimp only; omega
  · split
    · refine (costsW_bind (n := 2 * c) (k := 4 * c) ?_ (fun _ => ?_)).mono (by omega) s
      · unfold ensurePathsExist
        split
        · exact (costsW_pure _).mono (by omega)
        · exact (costsW_bind (costs_mkdir p.other _) (fun _ => costs_mkdir p.other _)).mono (by omega)
      · exact (costsW_bind (k := 0) (costs_persist p.other _ _) (fun _ => costsW_pure _)).mono (by omega)
    · dsimp only; omega
    · dsimp only; omega

end

/-! ## Bytes -/

/-- The code adds at most `n` to the weight of this history. -/
def CostsAt {α : Type} (w : Event → Nat) (n : Nat) (m : M α) (s : St) : Prop := total w (m s).2.world.trace ≤ total w s.world.trace + n

section
variable {x : Ctx} {α β : Type} {w : Event → Nat} {n k : Nat}

theorem costsAt_bind {m : M α} {f : α → M β} {s : St} (hm : CostsAt w n m s) (hf : ∀ a s1, m s = (.ok a, s1) → CostsAt w k (f a) s1) :
    CostsAt w (n + k) (m >>= f) s := by
  unfold CostsAt at *
  rw [SM.bind_apply]
  rcases hr : m s with ⟨r, s1⟩
  rw [hr] at hm
  dsimp only at hm
  cases r with
  | ok a => have := hf a s1 hr; dsimp only; omega
  | err e => dsimp only; omega
  | panic => dsimp only; omega

theorem CostsAt.mono {m : M α} {s : St} (h : CostsAt w n m s) (hn : n ≤ k) : CostsAt w k m s := by unfold CostsAt at *; omega

theorem bytes_prices : Prices x bytesIn 0 0 where
  read := fun _ _ => Nat.le_refl _
  other := fun e h _ => by
    cases e with
    | fetch u l r => exact absurd rfl (h u l r)
    | _ => exact Nat.le_refl _

theorem bytes_fetch (h : ObeysLimits x.host) (url : Str) (l : Int) : CostsW bytesIn l.toNat (doFetch x.host url l) := by
  refine costs_fetch ?_
  rintro tr r hr
  cases r with
  | error e => exact Nat.zero_le _
  | ok d => have := h _ _ _ _ hr; show d.length ≤ _; omega

theorem listedLimit_ptr {metas : GoMap (Option MetaFiles)} {file : Str} {m : MetaFiles} (h : Res.deref (metas.ptr file) = .ok m) (dflt : Int) :
    (metaLength m dflt).toNat = listedLimit metas file dflt := by
  unfold GoMap.ptr at h
  unfold listedLimit metaLength
  rcases hg : metas.get? file with _ | (_ | m')
  · rw [hg] at h; cases h
  · rw [hg] at h; cases h
  · rw [hg] at h; cases h; dsimp only; split <;> rfl

theorem bytes_loadSnapshot (h : ObeysLimits x.host) (s : St) : CostsAt bytesIn (snapshotAllowance x.cfg s.trusted) (loadSnapshot x) s := by
  unfold loadSnapshot
  refine (costsAt_bind (n := 0) (k := snapshotAllowance x.cfg s.trusted) (costs_tryLocal (c := 0) bytes_prices _ _ s) (fun o s1 h1 => ?_)).mono (by omega)
  have hk : s1.trusted.timestamp = s.trusted.timestamp := by
    have := keeps_tryLocal (x := x) (role := SNAPSHOT) (φ := fun t => t.timestamp) (f := fun data t => t.updateSnapshot x.env data true)
      (fun d t => by rw [updateSnapshot_keeps]) s
    rw [h1] at this
    exact this
  cases o with
  | some _ => exact (show CostsAt bytesIn 0 _ s1 from costs_pure _ s1).mono (by omega)
  | none =>
    refine (costsAt_bind (n := 0) (k := snapshotAllowance x.cfg s.trusted) (costs_getTrusted s1) (fun t s2 h2 => ?_)).mono (by omega)
    cases h2
    unfold snapshotAllowance
    rw [← hk]
    rcases ht : s1.trusted.timestamp with _ | ts
    · exact costs_throw _ _
    · dsimp only
      refine (costsAt_bind (n := 0) (k := listedLimit ts.signed.metas b!"snapshot.json" x.cfg.snapshotMaxLength) (costs_lift _ _) (fun i s2 h2 => ?_)).mono (by omega)
      have hi : Res.deref (ts.signed.metas.ptr (jsonName SNAPSHOT)) = .ok i := congrArg Prod.fst h2
      have hl := listedLimit_ptr hi x.cfg.snapshotMaxLength
      refine (costsAt_bind (k := 0) (costs_world (bytes_fetch h _ _) s2) (fun d s3 h3 => ?_)).mono (Nat.le_of_eq hl)
      exact costsAt_bind (n := 0) (k := 0) (costs_onTrusted _ _) (fun _ _ _ => costs_world (costs_persist (c := 0) (bytes_prices (x := x)).other _ _) _)

theorem bytes_loadTargets (h : ObeysLimits x.host) (role parent : Str) (s : St) :
    CostsAt bytesIn (targetsAllowance x.cfg s.trusted role) (loadTargets x role parent) s := by
  unfold loadTargets
  refine (costsAt_bind (n := 0) (k := targetsAllowance x.cfg s.trusted role) (costs_getTrusted s) (fun t s2 h2 => ?_)).mono (by omega)
  cases h2
  split
  · exact (show CostsAt bytesIn 0 _ _ from costs_pure _ _).mono (by omega)
  · refine (costsAt_bind (n := 0) (k := targetsAllowance x.cfg s.trusted role) (costs_tryLocal (c := 0) bytes_prices _ _ s) (fun o s1 h1 => ?_)).mono (by omega)
    have hk : s1.trusted.snapshot = s.trusted.snapshot := by
      have := keeps_tryLocal (x := x) (role := role) (φ := fun t => t.snapshot) (f := fun data t => t.updateDelegatedTargets x.env data role parent)
        (fun d t => by rw [updateTargets_keeps]) s
      rw [h1] at this
      exact this
    cases o with
    | some _ => exact (show CostsAt bytesIn 0 _ s1 from costs_pure _ s1).mono (by omega)
    | none =>
      refine (costsAt_bind (n := 0) (k := targetsAllowance x.cfg s.trusted role) (costs_getTrusted s1) (fun t s2 h2 => ?_)).mono (by omega)
      cases h2
      unfold targetsAllowance
      rw [← hk]
      rcases ht : s1.trusted.snapshot with _ | sn
      · exact costs_throw _ _
      · dsimp only
        refine (costsAt_bind (n := 0) (k := listedLimit sn.signed.metas (role ++ b!".json") x.cfg.targetsMaxLength) (costs_lift _ _) (fun i s2 h2 => ?_)).mono (by omega)
        have hi : Res.deref (sn.signed.metas.ptr (jsonName role)) = .ok i := congrArg Prod.fst h2
        have hl := listedLimit_ptr hi x.cfg.targetsMaxLength
        refine (costsAt_bind (k := 0) (costs_world (bytes_fetch h _ _) s2) (fun d s3 h3 => ?_)).mono (Nat.le_of_eq hl)
        refine costsAt_bind (n := 0) (k := 0) (costs_onTrusted _ _) (fun _ _ _ => ?_)
        exact costsAt_bind (n := 0) (k := 0) (costs_world (costs_persist (c := 0) (bytes_prices (x := x)).other _ _) _) (fun _ _ _ => costs_pure _ _)

/-- Loading targets leaves timestamp and snapshot alone. -/
theorem keeps_loadTargets' {γ : Type} {φ : Trusted → γ} (hφ : ∀ t ts, φ { t with targets := ts } = φ t) (role parent : Str) : Keeps φ (loadTargets x role parent) :=
  keeps_loadTargets (fun d t => by rw [updateTargets_keeps]; exact hφ _ _)

theorem bytes_refresh (h : ObeysLimits x.host) (h0 : 0 ≤ x.cfg.maxRootRotations) (h1 : x.cfg.maxRootRotations < 2 ^ 63) (s : St) :
    CostsAt bytesIn (x.cfg.maxRootRotations.toNat * x.cfg.rootMaxLength.toNat + x.cfg.timestampMaxLength.toNat +
      snapshotAllowance x.cfg (refresh x s).2.trusted + targetsAllowance x.cfg (refresh x s).2.trusted b!"targets") (refresh x) s := by
  unfold refresh
  split
  · refine CostsAt.mono (n := 0) ?_ (Nat.zero_le _)
    have hl : ∀ role s, CostsAt bytesIn 0 (onWorld (loadLocalMetadata x role)) s := fun role s => costs_world (costs_read (fun _ _ => Nat.le_refl _) _) s
    refine costsAt_bind (n := 0) (k := 0) (hl _ _) (fun _ _ _ => ?_)
    refine costsAt_bind (n := 0) (k := 0) (costs_onTrusted _ _) (fun _ _ _ => ?_)
    refine costsAt_bind (n := 0) (k := 0) (hl _ _) (fun _ _ _ => ?_)
    refine costsAt_bind (n := 0) (k := 0) (costs_onTrusted _ _) (fun _ _ _ => ?_)
    refine costsAt_bind (n := 0) (k := 0) (hl _ _) (fun _ _ _ => ?_)
    exact costsAt_bind (n := 0) (k := 0) (costs_onTrusted _ _) (fun _ _ _ => costs_pure _ _)
  · have hroot := costs_loadRoot (c := 0) bytes_prices (fun u => bytes_fetch h u x.cfg.rootMaxLength) h0 h1 s
    have hts := costs_loadTimestamp (c := 0) bytes_prices (fun u => bytes_fetch h u x.cfg.timestampMaxLength)
    simp only [Nat.mul_zero, Nat.add_zero, Nat.zero_add] at hroot hts
    unfold CostsAt onlineRefresh
    rw [SM.bind_apply]
    rcases e1 : loadRoot x s with ⟨r1, s1⟩
    rw [e1] at hroot
    dsimp only at hroot
    cases r1 with
    | err e => dsimp only; omega
    | panic => dsimp only; omega
    | ok _ =>
      dsimp only
      rw [SM.bind_apply]
      have h2 := hts s1
      rcases e2 : loadTimestamp x s1 with ⟨r2, s2⟩
      rw [e2] at h2
      dsimp only at h2
      cases r2 with
      | err e => dsimp only; omega
      | panic => dsimp only; omega
      | ok _ =>
        dsimp only
        rw [SM.bind_apply]
        have h3 := bytes_loadSnapshot h s2
        have k3 : (loadSnapshot x s2).2.trusted.timestamp = s2.trusted.timestamp :=
          keeps_loadSnapshot (φ := fun t => t.timestamp) (fun d b t => by rw [updateSnapshot_keeps]) s2
        unfold CostsAt at h3
        rcases e3 : loadSnapshot x s2 with ⟨r3, s3⟩
        rw [e3] at h3 k3
        dsimp only at h3 k3
        have a3 : snapshotAllowance x.cfg s3.trusted = snapshotAllowance x.cfg s2.trusted := by unfold snapshotAllowance; rw [k3]
        cases r3 with
        | err e => dsimp only; omega
        | panic => dsimp only; omega
        | ok _ =>
          dsimp only
          rw [SM.bind_apply]
          have h4 := bytes_loadTargets h TARGETS ROOT s3
          have k4 : (loadTargets x TARGETS ROOT s3).2.trusted.timestamp = s3.trusted.timestamp := keeps_loadTargets' (φ := fun t => t.timestamp) (fun _ _ => rfl) _ _ s3
          have k5 : (loadTargets x TARGETS ROOT s3).2.trusted.snapshot = s3.trusted.snapshot := keeps_loadTargets' (φ := fun t => t.snapshot) (fun _ _ => rfl) _ _ s3
          unfold CostsAt at h4
          rcases e4 : loadTargets x TARGETS ROOT s3 with ⟨r4, s4⟩
          rw [e4] at h4 k4 k5
          dsimp only at h4 k4 k5
          have a4 : snapshotAllowance x.cfg s4.trusted = snapshotAllowance x.cfg s3.trusted := by unfold snapshotAllowance; rw [k4]
          have a5 : targetsAllowance x.cfg s4.trusted b!"targets" = targetsAllowance x.cfg s3.trusted TARGETS := by unfold targetsAllowance; rw [k5]; rfl
          cases r4 with
          | err e => dsimp only; omega
          | panic => dsimp only; omega
          | ok _ => show total bytesIn s4.world.trace ≤ _ + (_ + snapshotAllowance x.cfg s4.trusted + targetsAllowance x.cfg s4.trusted b!"targets"); omega

theorem bytes_walk (h : ObeysLimits x.host) {L : Nat} (path : Str) (k : Nat) (stack : List RoleParent) (visited : List Str) (s : St)
    (hL : ∀ role, targetsAllowance x.cfg s.trusted role ≤ L) :
    CostsAt bytesIn (k * L) (walk x path k stack visited) s ∧ (walk x path k stack visited s).2.trusted.snapshot = s.trusted.snapshot := by
  induction k generalizing stack visited s with
  | zero => exact ⟨(show CostsAt bytesIn 0 _ s from costs_throw _ s).mono (by omega), rfl⟩
  | succ k ih =>
    rw [walk]
    rcases List.dropWhile (fun d : RoleParent => decide (d.role ∈ visited)) stack with _ | ⟨d, rest⟩
    · exact ⟨(show CostsAt bytesIn 0 _ s from costs_throw _ s).mono (by omega), rfl⟩
    · dsimp only
      have hk := fun s => keeps_loadTargets' (x := x) (φ := fun t => t.snapshot) (fun _ _ => rfl) d.role d.parent s
      have hk := hk s
      dsimp only at hk
      have hb := bytes_loadTargets h d.role d.parent s
      have hd := hL d.role
      unfold CostsAt at hb ⊢
      rw [SM.bind_apply]
      rcases e1 : loadTargets x d.role d.parent s with ⟨r1, s1⟩
      rw [e1] at hb hk
      dsimp only at hb hk
      rw [Nat.succ_mul]
      cases r1 with
      | err e => exact ⟨by dsimp only; omega, hk⟩
      | panic => exact ⟨by dsimp only; omega, hk⟩
      | ok m =>
        dsimp only
        rcases m.signed.targets.get? path with _ | tf
        case some => exact ⟨by show total bytesIn s1.world.trace ≤ _; omega, hk⟩
        · dsimp only
          rw [SM.bind_apply]
          have hp := costs_world (costs_pushChildren (x := x) (w := bytesIn) (c := 0) (bytes_prices (x := x)).other path d.role m rest) s1
          have ht : (onWorld (pushChildren x path d.role m rest) s1).2.trusted = s1.trusted := by rw [onWorld_apply]
          rcases e2 : onWorld (pushChildren x path d.role m rest) s1 with ⟨r2, s2⟩
          rw [e2] at hp ht
          dsimp only at hp ht
          cases r2 with
          | err e => exact ⟨by dsimp only; omega, by dsimp only; rw [ht]; exact hk⟩
          | panic => exact ⟨by dsimp only; omega, by dsimp only; rw [ht]; exact hk⟩
          | ok st =>
            have hs : s2.trusted.snapshot = s.trusted.snapshot := by rw [ht]; exact hk
            have := ih st (d.role :: visited) s2 (fun role => by have := hL role; unfold targetsAllowance at *; rw [hs]; exact this)
            unfold CostsAt at this
            dsimp only
            exact ⟨by omega, this.2.trans hs⟩

end

end Tuf
