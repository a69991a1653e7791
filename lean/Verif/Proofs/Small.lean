import Verif.Model.Small
import Verif.Proofs.Updater

/-! # The small-step code run alone is the code of `Model/Updater.lean` -/

namespace Tuf.Small

theorem run_bind {α β : Type} (h : Host) (p : Prog α) (f : α → Prog β) (w : World) :
    (p.bind f).run h w = (f (p.run h w).1).run h (p.run h w).2 := by
  induction p generalizing w with
  | ret a => rfl
  | op o k ih => exact ih _ _

/-- The code acts like code on updaters. -/
def Same {α : Type} (h : Host) (c : Code Trusted α) (m : M α) : Prop :=
  ∀ s : St, (c s.trusted).run h s.world = (((m s).1, (m s).2.trusted), (m s).2.world)

/-- The code acts like code on the world. -/
def SameW {σ α : Type} (h : Host) (c : Code σ α) (m : W α) : Prop := ∀ t w, (c t).run h w = (((m w).1, t), (m w).2)

section
variable {σ α β : Type} {h : Host}

theorem same_bind {c : Code Trusted α} {m : M α} {g : α → Code Trusted β} {f : α → M β} (h1 : Same h c m) (h2 : ∀ a, Same h (g a) (f a)) :
    Same h (c >>= g) (m >>= f) := by
  intro s
  show ((c s.trusted).bind (Code.next g)).run h s.world = _
  rw [run_bind, h1 s, SM.bind_apply]
  rcases hm : m s with ⟨r, s1⟩
  cases r with
  | ok a => exact h2 a s1
  | err e => rfl
  | panic => rfl

theorem sameW_bind {c : Code σ α} {m : W α} {g : α → Code σ β} {f : α → W β} (h1 : SameW h c m) (h2 : ∀ a, SameW h (g a) (f a)) :
    SameW h (c >>= g) (m >>= f) := by
  intro t w
  show ((c t).bind (Code.next g)).run h w = _
  rw [run_bind, h1 t w, SM.bind_apply]
  rcases hm : m w with ⟨r, s1⟩
  cases r with
  | ok a => exact h2 a t s1
  | err e => rfl
  | panic => rfl

theorem same_pure (a : α) : Same h (pure a : Code Trusted α) (pure a) := fun _ => rfl
theorem same_throw (e : Err) : Same h (Code.throw e : Code Trusted α) (SM.throw e) := fun _ => rfl
theorem same_lift (r : Res α) : Same h (Code.lift r : Code Trusted α) (SM.lift r) := fun _ => rfl
theorem same_get : Same h Code.get getTrusted := fun _ => rfl
theorem same_state (f : Trusted → Res α × Trusted) : Same h (Code.onState f) (onTrusted f) := fun _ => rfl
theorem same_world {c : Code Trusted α} {m : W α} (hc : SameW h c m) : Same h c (onWorld m) := fun s => hc s.trusted s.world
theorem sameW_pure (a : α) : SameW h (pure a : Code σ α) (pure a) := fun _ _ => rfl
theorem sameW_throw (e : Err) : SameW h (Code.throw e : Code σ α) (SM.throw e) := fun _ _ => rfl
theorem sameW_lift (r : Res α) : SameW h (Code.lift r : Code σ α) (SM.lift r) := fun _ _ => rfl

theorem same_try {c : Code Trusted α} {m : M α} (h1 : Same h c m) : Same h (Code.try' c) (SM.try' m) := by
  intro s
  show ((c s.trusted).bind Code.caught).run h s.world = _
  rw [run_bind, h1 s]
  unfold SM.try'
  rcases m s with ⟨r, s1⟩
  cases r <;> rfl

theorem sameW_try {c : Code σ α} {m : W α} (h1 : SameW h c m) : SameW h (Code.try' c) (SM.try' m) := by
  intro t w
  show ((c t).bind Code.caught).run h w = _
  rw [run_bind, h1 t w]
  unfold SM.try'
  rcases m w with ⟨r, s1⟩
  cases r <;> rfl

/-! ## Operations -/

theorem same_fetch (url : Str) (n : Int) : SameW h (fetch url n : Code σ _) (doFetch h url n) := by
  intro t w
  show ((match (perform h w (.fetch url n)).1 with
    | .ok b => (pure b : Code σ Bytes)
    | .error e => Code.throw e) t).run h (perform h w (.fetch url n)).2 = _
  rw [show perform h w (.fetch url n) = (h.fetch w.trace url n, w.emit (.fetch url n (h.fetch w.trace url n))) from rfl]
  unfold doFetch
  dsimp only
  cases h.fetch w.trace url n <;> rfl

theorem same_read (path : Str) : SameW h (readFile path : Code σ _) (Tuf.readFile h path) := by
  intro t w
  show ((match (perform h w (.read path)).1 with
    | some b => (pure b : Code σ Bytes)
    | none => Code.throw ioErr) t).run h (perform h w (.read path)).2 = _
  rw [show perform h w (.read path) = (if h.readFails w.trace path then none else w.fs path,
    w.emit (.read path (if h.readFails w.trace path then none else w.fs path))) from rfl]
  unfold Tuf.readFile
  dsimp only
  generalize (if h.readFails w.trace path = true then none else w.fs path) = r
  cases r <;> rfl

theorem same_mkdir (path : Str) : SameW h (mkdirAll path : Code σ _) (Tuf.mkdirAll h path) := by
  intro t w
  show ((match (perform h w (.mkdir path)).1 with
    | true => (pure () : Code σ Unit)
    | false => Code.throw ioErr) t).run h (perform h w (.mkdir path)).2 = _
  rw [show perform h w (.mkdir path) = (path ≠ [] && !h.mkdirFails w.trace path,
    w.emit (.mkdir path (path ≠ [] && !h.mkdirFails w.trace path))) from rfl]
  unfold Tuf.mkdirAll
  dsimp only
  generalize (decide (path ≠ []) && !h.mkdirFails w.trace path) = b
  cases b <;> rfl

theorem overwrite_truncated (w : World) (path : Str) (d : Bytes) : overwrite (w.emit (.truncate path)).fs path d = (w.emit (.truncate path)).fs.put path (some d) := by
  have e : (w.emit (.truncate path)).fs path = some [] := if_pos rfl
  unfold overwrite
  rw [e]
  simp

theorem same_writeFile (path : Str) (data : Bytes) : SameW h (writeFile path data : Code σ _) (Tuf.writeFile h path data) := by
  intro t w
  unfold Tuf.writeFile
  by_cases ho : h.openFails w.trace path
  · rw [if_pos ho]
    show (_ : Prog _).run h _ = _
    show ((match (perform h w (.trunc path)).1 with
      | false => (Code.throw ioErr : Code σ Unit)
      | true => _) t).run h (perform h w (.trunc path)).2 = _
    have e : perform h w (.trunc path) = (false, w.emit (.failed b!"open")) := if_pos ho
    rw [e]
    rfl
  · rw [if_neg ho]
    show ((match (perform h w (.trunc path)).1 with
      | false => (Code.throw ioErr : Code σ Unit)
      | true => do
        let n ← Code.perform (.write path data)
        Code.lift (if (show Nat from n) < data.length then .err ioErr else .ok ())) t).run h (perform h w (.trunc path)).2 = _
    have e : perform h w (.trunc path) = (true, w.emit (.truncate path)) := if_neg ho
    rw [e]
    dsimp only
    show ((Code.lift (if h.writeCount (w.emit (.truncate path)).trace data.length < data.length then .err ioErr else .ok ()) : Code σ Unit) t).run h
      { fs := overwrite (w.emit (.truncate path)).fs path (data.take (h.writeCount (w.emit (.truncate path)).trace data.length)),
        trace := (w.emit (.truncate path)).trace ++ [.write path (data.take (h.writeCount (w.emit (.truncate path)).trace data.length))] } = _
    rw [overwrite_truncated]
    show ((Code.lift (if h.writeCount (w.emit (.truncate path)).trace data.length < data.length then .err ioErr else .ok ()) : Code σ Unit) t).run h
      ((w.emit (.truncate path)).emit (.write path (data.take (h.writeCount (w.emit (.truncate path)).trace data.length)))) = _
    split <;> rfl

theorem same_createTemp : SameW h (createTemp : Code σ _) (Tuf.createTemp h) := by
  intro t w
  show ((match (perform h w .temp).1 with
    | some name => (pure name : Code σ Str)
    | none => Code.throw ioErr) t).run h (perform h w .temp).2 = _
  unfold Tuf.createTemp
  have e : perform h w .temp = (match h.cwd w.trace, h.tempName w.trace with
    | some cwd, some n =>
      if (w.fs (cwd ++ b!"/tuf_tmp" ++ formatNat 10 n)).isSome then (none, w.emit (.failed b!"CreateTemp"))
      else (some (cwd ++ b!"/tuf_tmp" ++ formatNat 10 n), w.emit (.createTemp (cwd ++ b!"/tuf_tmp" ++ formatNat 10 n)))
    | _, _ => (none, w.emit (.failed b!"CreateTemp"))) := rfl
  rw [e]
  rcases h.cwd w.trace with _ | cwd
  · rfl
  · rcases h.tempName w.trace with _ | n
    · rfl
    · dsimp only
      by_cases hs : (w.fs (cwd ++ b!"/tuf_tmp" ++ formatNat 10 n)).isSome
      · rw [if_pos hs, if_pos hs]; rfl
      · rw [if_neg hs, if_neg hs]; rfl

theorem same_remove (path : Str) : SameW h (Code.perform (.remove path) : Code σ _) (Tuf.removeFile h path) := by
  intro t w
  unfold Tuf.removeFile
  show ((Res.ok (), t), if h.removeFails w.trace path then w.emit (.failed b!"remove") else w.emit (.remove path)) = _
  split <;> rfl

theorem same_rename (a b : Str) : SameW h (renameFile a b : Code σ _) (Tuf.renameFile h a b) := by
  intro t w
  unfold Tuf.renameFile
  show ((match (perform h w (.rename a b)).1 with
    | true => (pure () : Code σ Unit)
    | false => Code.throw ioErr) t).run h (perform h w (.rename a b)).2 = _
  by_cases hr : h.renameFails w.trace a b
  · rw [if_pos hr, show perform h w (.rename a b) = (false, w.emit (.failed b!"rename")) from if_pos hr]; rfl
  · rw [if_neg hr, show perform h w (.rename a b) = (true, w.emit (.rename a b)) from if_neg hr]; rfl

theorem same_iterate (es : List α) : SameW h (iterateMap es : Code σ _) (Tuf.iterateMap h es) := fun _ _ => rfl

end

/-! ## updater.go -/

section
variable {σ : Type} {x : Ctx}

theorem same_persist (role : Str) (data : Bytes) : SameW x.host (persistMetadata x role data : Code σ _) (Tuf.persistMetadata x role data) := by
  unfold persistMetadata Tuf.persistMetadata
  split
  · exact sameW_pure _
  · refine sameW_bind same_createTemp (fun f => sameW_bind (sameW_try (same_writeFile f data)) (fun r => ?_))
    cases r with
    | error e => exact sameW_bind (same_remove f) (fun _ => sameW_throw e)
    | ok _ => exact same_rename _ _

theorem same_new : SameW x.host (newUpdater x) (Tuf.newUpdater x) := by
  intro t w
  unfold newUpdater Tuf.newUpdater
  split
  · rfl
  · show ((Code.lift (Trusted.new x.env (x.host.now w.trace) x.cfg.localTrustedRoot) >>= fun t => do
      ensurePathsExist x
      persistMetadata x ROOT x.cfg.localTrustedRoot
      pure t : Code Unit Trusted) t).run x.host w = _
    cases hn : Trusted.new x.env (x.host.now w.trace) x.cfg.localTrustedRoot with
    | err e => rfl
    | panic => rfl
    | ok T =>
      refine sameW_bind (m := do Tuf.ensurePathsExist x) ?_ (fun _ => sameW_bind (same_persist _ _) (fun _ => sameW_pure T)) t w
      unfold ensurePathsExist Tuf.ensurePathsExist
      split
      · exact sameW_pure _
      · exact sameW_bind (same_mkdir _) (fun _ => same_mkdir _)

theorem same_rootLoop (n : Nat) (v : Int) : Same x.host (loadRootLoop x n v) (Tuf.loadRootLoop x n v) := by
  induction n generalizing v with
  | zero => exact same_pure _
  | succ n ih =>
    rw [loadRootLoop, Tuf.loadRootLoop]
    refine same_bind (same_try (same_world (same_fetch _ _))) (fun o => ?_)
    rcases o with e | d
    · cases e
      case downloadHTTP => dsimp only; split; exact same_throw _; exact same_pure _
      all_goals exact same_throw _
    · exact same_bind (same_state _) (fun _ => same_bind (same_world (same_persist _ _)) (fun _ => ih _))

theorem same_loadRoot : Same x.host (loadRoot x) (Tuf.loadRoot x) := same_bind same_get (fun _ => same_rootLoop _ _)

theorem same_tryLocal {α : Type} (role : Str) (f : Bytes → Trusted → Res α × Trusted) : Same x.host (tryLocal x role f) (Tuf.tryLocal x role f) := by
  unfold tryLocal Tuf.tryLocal
  refine same_bind (same_try (same_world (same_read _))) (fun o => ?_)
  cases o with
  | error e => exact same_pure _
  | ok d =>
    refine same_bind (same_try (same_state _)) (fun o => ?_)
    cases o with
    | ok a => exact same_pure _
    | error e => dsimp only; split; exact same_pure _; exact same_throw _

theorem same_loadTimestamp : Same x.host (loadTimestamp x) (Tuf.loadTimestamp x) := by
  unfold loadTimestamp Tuf.loadTimestamp
  refine same_bind (same_tryLocal _ _) (fun _ => same_bind (same_world (same_fetch _ _)) (fun d => same_bind (same_try (same_state _)) (fun o => ?_)))
  cases o with
  | error e => dsimp only; split; exact same_pure _; exact same_throw _
  | ok _ => exact same_world (same_persist _ _)

theorem same_loadSnapshot : Same x.host (loadSnapshot x) (Tuf.loadSnapshot x) := by
  unfold loadSnapshot Tuf.loadSnapshot
  refine same_bind (same_tryLocal _ _) (fun o => ?_)
  cases o with
  | some _ => exact same_pure _
  | none =>
    refine same_bind same_get (fun t => ?_)
    cases t.timestamp with
    | none => exact same_throw _
    | some ts =>
      exact same_bind (same_lift _) (fun i => same_bind (same_world (same_fetch _ _)) (fun d => same_bind (same_state _) (fun _ => same_world (same_persist _ _))))

theorem same_loadTargets (role parent : Str) : Same x.host (loadTargets x role parent) (Tuf.loadTargets x role parent) := by
  unfold loadTargets Tuf.loadTargets
  refine same_bind same_get (fun t => ?_)
  cases t.targets.get? role with
  | some m => exact same_pure _
  | none =>
    refine same_bind (same_tryLocal _ _) (fun o => ?_)
    cases o with
    | some _ => exact same_pure _
    | none =>
      refine same_bind same_get (fun t => ?_)
      cases t.snapshot with
      | none => exact same_throw _
      | some sn =>
        exact same_bind (same_lift _) (fun i => same_bind (same_world (same_fetch _ _)) (fun d => same_bind (same_state _) (fun _ =>
          same_bind (same_world (same_persist _ _)) (fun _ => same_pure _))))

theorem same_refresh : Same x.host (refresh x) (Tuf.refresh x) := by
  unfold refresh Tuf.refresh
  split
  · exact same_bind (same_world (same_read _)) (fun _ => same_bind (same_state _) (fun _ => same_bind (same_world (same_read _)) (fun _ => same_bind (same_state _) (fun _ =>
      same_bind (same_world (same_read _)) (fun _ => same_bind (same_state _) (fun _ => same_pure _))))))
  · exact same_bind same_loadRoot (fun _ => same_bind same_loadTimestamp (fun _ => same_bind same_loadSnapshot (fun _ => same_bind (same_loadTargets _ _) (fun _ => same_pure _))))

theorem same_pushChildren (path role : Str) (m : Metadata TargetsType) (rest : List RoleParent) :
    SameW x.host (pushChildren x path role m rest : Code σ _) (Tuf.pushChildren x path role m rest) := by
  unfold pushChildren Tuf.pushChildren
  cases m.signed.delegations with
  | none => exact sameW_pure _
  | some d => exact sameW_bind (sameW_lift _) (fun _ => sameW_bind (same_iterate _) (fun _ => sameW_pure _))

theorem same_walk (path : Str) (k : Nat) (stack : List RoleParent) (visited : List Str) :
    Same x.host (walk x path k stack visited) (Tuf.walk x path k stack visited) := by
  induction k generalizing stack visited with
  | zero => exact same_throw _
  | succ k ih =>
    rw [walk, Tuf.walk]
    cases List.dropWhile (fun d : RoleParent => decide (d.role ∈ visited)) stack with
    | nil => exact same_throw _
    | cons d rest =>
      refine same_bind (same_loadTargets _ _) (fun m => ?_)
      cases m.signed.targets.get? path with
      | some tf => exact same_pure _
      | none => exact same_bind (same_world (same_pushChildren _ _ _ _)) (fun _ => ih _ _)

theorem same_getTargetInfo (path : Str) : Same x.host (getTargetInfo x path) (Tuf.getTargetInfo x path) := by
  unfold getTargetInfo Tuf.getTargetInfo
  refine same_bind same_get (fun t => ?_)
  split
  · exact same_walk _ _ _ _
  · exact same_bind same_refresh (fun _ => same_walk _ _ _ _)

theorem same_downloadTarget (tf : TargetFiles) (f u : Str) : Same x.host (downloadTarget x tf f u) (Tuf.downloadTarget x tf f u) := by
  unfold downloadTarget Tuf.downloadTarget
  refine same_bind (same_lift _) (fun _ => same_bind (same_lift _) (fun _ => same_bind same_get (fun t => same_bind (same_world ?_) (fun _ =>
    same_bind (same_world (same_fetch _ _)) (fun d => same_bind (same_lift _) (fun _ => same_bind (same_world ?_) (fun _ => same_pure _)))))))
  · unfold targetURLPath Tuf.targetURLPath
    split
    · exact sameW_bind (same_iterate _) (fun _ => sameW_pure _)
    · exact sameW_pure _
  · unfold storeTarget Tuf.storeTarget
    split
    · exact sameW_pure _
    · exact same_writeFile _ _

theorem same_findCachedTarget (tf : TargetFiles) (f : Str) : Same x.host (findCachedTarget x tf f) (Tuf.findCachedTarget x tf f) := by
  unfold findCachedTarget Tuf.findCachedTarget
  split
  · exact same_pure _
  · refine same_bind (same_lift _) (fun _ => same_bind (same_try (same_world (same_read _))) (fun o => ?_))
    cases o with
    | error e => exact same_pure _
    | ok d =>
      dsimp only
      cases tf.verifyLengthHashes x.env d with
      | ok _ => exact same_pure _
      | err e => exact same_pure _
      | panic => exact fun _ => rfl

end

end Tuf.Small
