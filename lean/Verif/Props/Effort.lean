import Verif.Proofs.Effort
import Verif.Props.Small

/-! # Calls do a bounded amount of work: property C139 -/

namespace Tuf
open Spec Sample

section
variable {x : Ctx}

/-- The most requests a call makes. -/
def Spec.mostRequests (c : Cfg) : Api → Nat
  | .refresh => c.maxRootRotations.toNat + 3
  | .getTargetInfo _ => c.maxRootRotations.toNat + 3 + c.maxDelegations.toNat
  | .downloadTarget .. => 1
  | .findCachedTarget .. => 0

/-- The most operations on disk and network of a call, requests included. -/
def Spec.mostSteps (c : Cfg) : Api → Nat
  | .refresh => 5 * c.maxRootRotations.toNat + 18
  | .getTargetInfo _ => 5 * c.maxRootRotations.toNat + 18 + 1 + 7 * c.maxDelegations.toNat
  | .downloadTarget .. => 4
  | .findCachedTarget .. => 1

theorem step_prices : Prices x anyStep 1 1 := ⟨fun _ _ => Nat.le_refl _, fun _ _ _ => Nat.le_refl _⟩

theorem request_prices : Prices x aRequest 0 0 where
  read := fun _ _ => Nat.le_refl _
  other := fun e h _ => by
    cases e with
    | fetch u l r => exact absurd rfl (h u l r)
    | _ => exact Nat.le_refl _

/-- C139: whatever server, cache and file system do, a call makes a bounded number of requests. -/
theorem C139_requests (h0 : 0 ≤ x.cfg.maxRootRotations) (h1 : x.cfg.maxRootRotations < 2 ^ 63) (s : St) (a : Api) :
    total aRequest (a.run x s).2.world.trace ≤ total aRequest s.world.trace + mostRequests x.cfg a := by
  have hf : ∀ url l, CostsW aRequest 1 (doFetch x.host url l) := fun _ _ => costs_fetch (fun _ _ _ => Nat.le_refl _)
  cases a with
  | refresh => have := costs_refresh (c := 0) request_prices hf h0 h1 s; simp only [mostRequests, Api.run]; omega
  | getTargetInfo p => have := costs_getTargetInfo (c := 0) request_prices hf h0 h1 p s; simp only [mostRequests, Api.run]; omega
  | downloadTarget tf f u => have := costs_downloadTarget (c := 0) request_prices tf (fun u => hf u _) f u s; simp only [mostRequests, Api.run]; omega
  | findCachedTarget tf f => have := costs_findCachedTarget (x := x) (c := 0) request_prices tf f s; simp only [mostRequests, Api.run]; omega

theorem total_anyStep (tr : List Event) : total anyStep tr = tr.length := by
  induction tr with
  | nil => rfl
  | cons e tr ih => simp only [total, List.map_cons, List.sum_cons, List.length_cons] at *; rw [ih]; show 1 + _ = _; omega

/-- C139: the same for all operations on disk and network. -/
theorem C139_steps (h0 : 0 ≤ x.cfg.maxRootRotations) (h1 : x.cfg.maxRootRotations < 2 ^ 63) (s : St) (a : Api) :
    (a.run x s).2.world.trace.length ≤ s.world.trace.length + mostSteps x.cfg a := by
  have hf : ∀ url l, CostsW anyStep 1 (doFetch x.host url l) := fun _ _ => costs_fetch (fun _ _ _ => Nat.le_refl _)
  rw [← total_anyStep, ← total_anyStep]
  cases a with
  | refresh => have := costs_refresh step_prices hf h0 h1 s; simp only [mostSteps, Api.run]; omega
  | getTargetInfo p => have := costs_getTargetInfo step_prices hf h0 h1 p s; simp only [mostSteps, Api.run]; omega
  | downloadTarget tf f u => have := costs_downloadTarget step_prices tf (fun u => hf u _) f u s; simp only [mostSteps, Api.run]; omega
  | findCachedTarget tf f => have := costs_findCachedTarget (x := x) step_prices tf f s; simp only [mostSteps, Api.run]; omega

/-- C139: `New` makes no request and at most six operations on the disk. -/
theorem C139_new (w : World) :
    total aRequest (newUpdater x w).2.trace = total aRequest w.trace ∧ (newUpdater x w).2.trace.length ≤ w.trace.length + 6 := by
  constructor
  · have h1 := costs_newUpdater (x := x) (c := 0) request_prices w
    obtain ⟨evs, h⟩ : ∃ evs, (newUpdater x w).2.trace = w.trace ++ evs := by
      rcases exec_newUpdater (x := x) (w := w) with h | ⟨t, _, h, _⟩
      · exact ⟨[], by rw [h]; simp⟩
      · obtain ⟨evs, h2, _⟩ := exec_all h (Q := fun _ => True) (fun _ _ _ _ => trivial)
        exact ⟨evs, h2⟩
    rw [h, total_append] at h1 ⊢
    omega
  · have h1 := costs_newUpdater (x := x) step_prices w
    rw [total_anyStep, total_anyStep] at h1
    omega

/-! ## Bytes -/

/-- C139: with a fetcher that obeys its limits `Refresh` receives no more than the configured limits for roots and the timestamp and what the timestamp and
the snapshot that are trusted in the end list for snapshot and targets. -/
theorem C139_refresh_bytes (h : ObeysLimits x.host) (h0 : 0 ≤ x.cfg.maxRootRotations) (h1 : x.cfg.maxRootRotations < 2 ^ 63) (s : St) :
    total bytesIn (refresh x s).2.world.trace ≤ total bytesIn s.world.trace + (x.cfg.maxRootRotations.toNat * x.cfg.rootMaxLength.toNat +
      x.cfg.timestampMaxLength.toNat + snapshotAllowance x.cfg (refresh x s).2.trusted + targetsAllowance x.cfg (refresh x s).2.trusted b!"targets") :=
  bytes_refresh h h0 h1 s

/-- C139: a server without the keys, whose documents are all refused, can only make a new client receive the configured limits for roots and the timestamp. -/
theorem C139_refused_bytes (h : ObeysLimits x.host) (h0 : 0 ≤ x.cfg.maxRootRotations) (h1 : x.cfg.maxRootRotations < 2 ^ 63) (s : St)
    (ht : (refresh x s).2.trusted.timestamp = none) (hs : (refresh x s).2.trusted.snapshot = none) :
    total bytesIn (refresh x s).2.world.trace ≤
      total bytesIn s.world.trace + (x.cfg.maxRootRotations.toNat * x.cfg.rootMaxLength.toNat + x.cfg.timestampMaxLength.toNat) := by
  have := bytes_refresh h h0 h1 s
  unfold CostsAt snapshotAllowance targetsAllowance at this
  rw [ht, hs] at this
  simpa using this

theorem keeps_walk {γ : Type} {φ : Trusted → γ} (hφ : ∀ t ts, φ { t with targets := ts } = φ t) (path : Str) (k : Nat) (stack : List RoleParent) (visited : List Str) :
    Keeps φ (walk x path k stack visited) := by
  induction k generalizing stack visited with
  | zero => exact keeps_throw _
  | succ k ih =>
    rw [walk]
    split
    · exact keeps_throw _
    · refine keeps_bind (keeps_loadTargets' hφ _ _) (fun m => ?_)
      split
      · exact keeps_pure _
      · exact keeps_bind (keeps_onWorld _) (fun _ => ih _ _)

theorem bytes_search (h : ObeysLimits x.host) {L : Nat} (path : Str) {s : St} (hs : (s.trusted.targets.get? TARGETS).isSome)
    (hL : ∀ role, targetsAllowance x.cfg s.trusted role ≤ L) :
    total bytesIn (preOrderDepthFirstWalk x path s).2.world.trace ≤ total bytesIn s.world.trace + x.cfg.maxDelegations.toNat * L := by
  unfold preOrderDepthFirstWalk
  by_cases hd : 0 ≤ x.cfg.maxDelegations
  · rw [show (x.cfg.maxDelegations + 1).toNat = x.cfg.maxDelegations.toNat + 1 by omega, walk]
    have e : List.dropWhile (fun d : RoleParent => decide (d.role ∈ ([] : List Str))) [⟨TARGETS, ROOT⟩] = [⟨TARGETS, ROOT⟩] := rfl
    rw [e]
    obtain ⟨m, hm⟩ := Option.isSome_iff_exists.1 hs
    dsimp only
    rw [SM.bind_apply, loadTargets_known hm]
    dsimp only
    rcases m.signed.targets.get? path with _ | tf
    · dsimp only
      refine (show CostsAt bytesIn (0 + x.cfg.maxDelegations.toNat * L) _ s from ?_).mono (by omega)
      refine costsAt_bind (costs_world (costs_pushChildren (c := 0) (bytes_prices (x := x)).other _ _ _ _) s) (fun st s1 h1 => ?_)
      have ht : s1.trusted = s.trusted := by
        have : (onWorld (pushChildren x path TARGETS m []) s).2.trusted = s.trusted := by rw [onWorld_apply]
        rw [h1] at this
        exact this
      exact (bytes_walk h path _ _ _ s1 (by rw [ht]; exact hL)).1
    · show total bytesIn s.world.trace ≤ _; omega
  · rw [show (x.cfg.maxDelegations + 1).toNat = 0 by omega]
    show total bytesIn s.world.trace ≤ _; omega

/-- C139: a search receives, besides the bytes of a refresh, at most what the trusted snapshot lists for each delegated role it visits. -/
theorem C139_search_bytes (h : ObeysLimits x.host) (h0 : 0 ≤ x.cfg.maxRootRotations) (h1 : x.cfg.maxRootRotations < 2 ^ 63) (s : St) (path : Str) {L : Nat}
    (hL : ∀ role, targetsAllowance x.cfg (getTargetInfo x path s).2.trusted role ≤ L) :
    total bytesIn (getTargetInfo x path s).2.world.trace ≤ total bytesIn s.world.trace +
      (x.cfg.maxRootRotations.toNat * x.cfg.rootMaxLength.toNat + x.cfg.timestampMaxLength.toNat + snapshotAllowance x.cfg (getTargetInfo x path s).2.trusted + L +
        x.cfg.maxDelegations.toNat * L) := by
  have hk : ∀ {γ : Type} {φ : Trusted → γ} (hφ : ∀ t ts, φ { t with targets := ts } = φ t) (s1 : St), φ (preOrderDepthFirstWalk x path s1).2.trusted = φ s1.trusted :=
    fun hφ s1 => keeps_walk hφ path _ _ _ s1
  have hrun : getTargetInfo x path s = (if (s.trusted.targets.get? TARGETS).isSome = true then preOrderDepthFirstWalk x path else refresh x >>= fun _ => preOrderDepthFirstWalk x path) s := rfl
  have hta : ∀ (s1 : St) role, targetsAllowance x.cfg (preOrderDepthFirstWalk x path s1).2.trusted role = targetsAllowance x.cfg s1.trusted role :=
    fun s1 role => hk (φ := fun t => targetsAllowance x.cfg t role) (fun _ _ => rfl) s1
  have hsa : ∀ s1 : St, snapshotAllowance x.cfg (preOrderDepthFirstWalk x path s1).2.trusted = snapshotAllowance x.cfg s1.trusted :=
    fun s1 => hk (φ := fun t => snapshotAllowance x.cfg t) (fun _ _ => rfl) s1
  by_cases hs : (s.trusted.targets.get? TARGETS).isSome
  · rw [if_pos hs] at hrun
    rw [hrun] at hL ⊢
    have := bytes_search h path hs (L := L) (fun role => by rw [← hta]; exact hL role)
    omega
  · rw [if_neg hs, SM.bind_apply] at hrun
    have hb := bytes_refresh h h0 h1 s
    unfold CostsAt at hb
    rcases e : refresh x s with ⟨o, s1⟩
    rw [e] at hb hrun
    dsimp only at hb hrun
    cases o with
    | ok u =>
      dsimp only at hrun
      rw [hrun] at hL ⊢
      have h2 := bytes_search h path (refresh_targets e) (L := L) (fun role => by rw [← hta]; exact hL role)
      have h3 := hL b!"targets"
      rw [hta] at h3
      rw [hsa]
      omega
    | err e' =>
      dsimp only at hrun
      rw [hrun] at hL ⊢
      have h3 := hL b!"targets"
      dsimp only at h3 ⊢
      omega
    | panic =>
      dsimp only at hrun
      rw [hrun] at hL ⊢
      have h3 := hL b!"targets"
      dsimp only at h3 ⊢
      omega

/-- C139: `DownloadTarget` receives at most the length in the target's information, `FindCachedTarget` and `New` nothing. -/
theorem C139_target_bytes (h : ObeysLimits x.host) (s : St) (tf : TargetFiles) (f u : Str) :
    total bytesIn (downloadTarget x tf f u s).2.world.trace ≤ total bytesIn s.world.trace + tf.length.toNat ∧
    total bytesIn (findCachedTarget x tf f s).2.world.trace ≤ total bytesIn s.world.trace :=
  ⟨costs_downloadTarget (c := 0) bytes_prices tf (fun u => bytes_fetch h u _) f u s, costs_findCachedTarget (c := 0) bytes_prices tf f s⟩

/-- C139: the default fetcher obeys its limits, whatever responses it gets (limits that are no 64-bit integers cannot be passed). -/
theorem C139_default_fetcher {h : Host} (response : List Event → Str → Option Response)
    (hf : ∀ tr url n, h.fetch tr url n =
      if inInt64 n then (match (downloadFile url n (response tr url)).1 with
        | .ok d => .ok d
        | .err e => .error e
        | .panic => .error (.other "panic")) else .error (.other "no int64")) : ObeysLimits h := by
  intro tr url n d hd
  rw [hf] at hd
  split at hd
  · rename_i hn
    simp only [inInt64, Bool.and_eq_true, decide_eq_true_eq] at hn
    rcases e : downloadFile url n (response tr url) with ⟨r, k⟩
    rw [e] at hd
    cases r with
    | ok d' => cases hd; exact (C74_bounded url n (response tr url) hn.1 hn.2).1 d k e
    | err _ => cases hd
    | panic => cases hd
  · cases hd

end

/-! ## A case in which the bounds are reached -/

namespace Sample

/-- A server with roots 2 and 3 that obeys limits. -/
def effortServer (url : Str) : Except Err Bytes :=
  if url = b!"u/2.root.json" then .ok [1, 2]
  else if url = b!"u/3.root.json" then .ok [1, 3]
  else server url

def effortHost : Host :=
  { host with fetch := fun _ url n => match effortServer url with
    | .ok d => if (d.length : Int) ≤ n then .ok d else .error (.downloadLengthMismatch "too long")
    | .error e => .error e }

/-- A client that follows two rotations and visits one delegated role, with the smallest limits that let the documents through. -/
def effortCtx : Ctx :=
  ⟨repoEnv, effortHost, { cfg with maxRootRotations := 2, maxDelegations := 1, rootMaxLength := 2, timestampMaxLength := 2, snapshotMaxLength := 2, targetsMaxLength := 2 }⟩

theorem effort_obeys : ObeysLimits effortCtx.host := by
  intro tr url n d h
  change (match effortServer url with
    | .ok d => if (d.length : Int) ≤ n then Except.ok d else .error (Err.downloadLengthMismatch "too long")
    | .error e => .error e) = .ok d at h
  split at h
  · split at h
    · cases h; assumption
    · cases h
  · cases h

/-- What a call added. -/
def added (x : Ctx) (a : Api) : Option (Nat × Nat × Nat) :=
  (fresh x []).2.map (fun s => ((a.run x s).2.world.trace.length - s.world.trace.length, total aRequest (a.run x s).2.world.trace, total bytesIn (a.run x s).2.world.trace))

end Sample

/-- The case reaches the bounds: two roots, timestamp, snapshot, targets and one delegated role, of two bytes each. -/
theorem C139_example :
    added effortCtx .refresh = some (28, 5, 10) ∧ mostSteps effortCtx.cfg .refresh = 28 ∧ mostRequests effortCtx.cfg .refresh = 5 ∧
    added effortCtx (.getTargetInfo b!"d/g") = some (35, 6, 12) ∧ mostSteps effortCtx.cfg (.getTargetInfo b!"d/g") = 36 ∧ mostRequests effortCtx.cfg (.getTargetInfo b!"d/g") = 6 := by
  decide +kernel

/-- In that case the limits of the files come to ten bytes for the refresh, and to twelve with the delegated role. -/
theorem C139_example_bytes :
    (fresh effortCtx []).2.map (fun s => (snapshotAllowance effortCtx.cfg (refresh effortCtx s).2.trusted, targetsAllowance effortCtx.cfg (refresh effortCtx s).2.trusted b!"targets",
      targetsAllowance effortCtx.cfg (refresh effortCtx s).2.trusted b!"d", targetsAllowance effortCtx.cfg (refresh effortCtx s).2.trusted b!"e")) = some (2, 2, 2, 0) := by
  decide +kernel

example : 0 ≤ effortCtx.cfg.maxRootRotations ∧ effortCtx.cfg.maxRootRotations < 2 ^ 63 ∧ ObeysLimits effortCtx.host := ⟨by decide, by decide, effort_obeys⟩

end Tuf
