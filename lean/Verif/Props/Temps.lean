import Verif.Props.Progress

/-!
# Temporary files (C121)
-/

namespace Tuf
open Spec Sample

/-- Temporary files that cannot be written can be removed, and complete ones can be moved. -/
structure Spec.Tidy (h : Host) : Prop where
  remove : ∀ tr p, h.removeFails tr p = false
  rename : ∀ tr a b, h.renameFails tr a b = false

/-- The same temporary files. -/
def Spec.SameTemps (fs fs' : FS) : Prop := ∀ p, TempName p → fs' p = fs p

theorem sameTemps_refl (fs : FS) : SameTemps fs fs := fun _ _ => rfl

theorem sameTemps_trans {a b c : FS} (h1 : SameTemps a b) (h2 : SameTemps b c) : SameTemps a c := fun p hp => (h2 p hp).trans (h1 p hp)

theorem sameTemps_noTemps {a b : FS} (h : SameTemps a b) (ha : NoTemps a) : NoTemps b := fun p hp => (h p hp).trans (ha p hp)

section
variable {α β : Type} {x : Ctx}

/-- The computation leaves the temporary files as they were. -/
def TidyM (m : M α) : Prop := ∀ s, SameTemps s.world.fs (m s).2.world.fs
def TidyW (m : W α) : Prop := ∀ w, SameTemps w.fs (m w).2.fs

theorem tidyW_bind {m : W α} {f : α → W β} (hm : TidyW m) (hf : ∀ a, TidyW (f a)) : TidyW (m >>= f) := by
  intro w
  have h := hm w
  rw [SM.bind_apply]
  rcases hr : m w with ⟨r, w'⟩
  rw [hr] at h
  cases r with
  | ok a => exact sameTemps_trans h (hf a w')
  | err e => exact h
  | panic => exact h

theorem tidy_bind {m : M α} {f : α → M β} (hm : TidyM m) (hf : ∀ a, TidyM (f a)) : TidyM (m >>= f) := by
  intro s
  have h := hm s
  rw [SM.bind_apply]
  rcases hr : m s with ⟨r, s'⟩
  rw [hr] at h
  cases r with
  | ok a => exact sameTemps_trans h (hf a s')
  | err e => exact h
  | panic => exact h

theorem tidy_pure (a : α) : TidyM (pure a : M α) := fun _ => sameTemps_refl _
theorem tidy_throw (e : Err) : TidyM (SM.throw e : M α) := fun _ => sameTemps_refl _
theorem tidy_lift (r : Res α) : TidyM (SM.lift r : M α) := fun _ => sameTemps_refl _
theorem tidy_panic : TidyM (SM.panic : M α) := fun _ => sameTemps_refl _
theorem tidy_getTrusted : TidyM getTrusted := fun _ => sameTemps_refl _
theorem tidy_onWorld {m : W α} (h : TidyW m) : TidyM (onWorld m) := fun s => by rw [onWorld_apply]; exact h _
theorem tidy_try {m : M α} (hm : TidyM m) : TidyM (SM.try' m) := fun s => by rw [SM.try_snd]; exact hm s
theorem tidy_onTrusted (f : Trusted → Res α × Trusted) : TidyM (onTrusted f) := fun s => by rw [onTrusted_apply]; exact sameTemps_refl _

theorem tidyW_pure (a : α) : TidyW (pure a : W α) := fun _ => sameTemps_refl _
theorem tidyW_lift (r : Res α) : TidyW (SM.lift r : W α) := fun _ => sameTemps_refl _
theorem tidyW_iterate (h : Host) (es : List α) : TidyW (iterateMap h es) := fun _ => sameTemps_refl _
theorem tidyW_read (h : Host) (p : Str) : TidyW (readFile h p) := by
  intro w
  unfold readFile
  dsimp only
  split <;> exact sameTemps_refl _
theorem tidyW_fetch (h : Host) (u : Str) (n : Int) : TidyW (doFetch h u n) := by
  intro w
  unfold doFetch
  dsimp only
  split <;> exact sameTemps_refl _
theorem tidyW_mkdir (h : Host) (p : Str) : TidyW (mkdirAll h p) := by
  intro w
  unfold mkdirAll
  dsimp only
  split <;> exact sameTemps_refl _

theorem writeFile_others {h : Host} {f : Str} {data : Bytes} {w : World} {q : Str} (hq : q ≠ f) : (writeFile h f data w).2.fs q = w.fs q := by
  unfold writeFile
  split
  · rfl
  · dsimp only
    have : (((w.emit (.truncate f)).emit (.write f (data.take (h.writeCount (w.emit (.truncate f)).trace data.length))))).fs q = w.fs q := by
      show FS.put _ _ _ q = _
      rw [put_ne hq]
      show FS.put _ _ _ q = _
      rw [put_ne hq]
    split <;> exact this

theorem tidyW_persist (ht : Tidy x.host) (role : Str) (data : Bytes) : TidyW (persistMetadata x role data) := by
  intro w
  unfold persistMetadata
  split
  · exact sameTemps_refl _
  · rcases hc : createTemp x.host w with ⟨r, w1⟩
    rw [SM.bind_apply, hc]
    cases r with
    | err e =>
      unfold createTemp at hc
      split at hc
      · dsimp only at hc
        split at hc <;> cases hc
        exact sameTemps_refl _
      · cases hc
        exact sameTemps_refl _
    | panic =>
      unfold createTemp at hc
      split at hc
      · dsimp only at hc
        split at hc <;> cases hc
      · cases hc
    | ok f =>
      have hf : w.fs f = none ∧ ∀ q, q ≠ f → w1.fs q = w.fs q := by
        unfold createTemp at hc
        split at hc
        · dsimp only at hc
          split at hc
          · cases hc
          · next hn =>
            cases hc
            exact ⟨by simpa using hn, fun q hq => put_ne hq⟩
        · cases hc
      dsimp only
      rcases hw : writeFile x.host f data w1 with ⟨r2, w2⟩
      have h2 : ∀ q, q ≠ f → w2.fs q = w.fs q := by
        intro q hq
        have := writeFile_others (h := x.host) (f := f) (data := data) (w := w1) hq
        rw [hw] at this
        exact this.trans (hf.2 q hq)
      cases r2 with
      | panic =>
        unfold writeFile at hw
        split at hw
        · cases hw
        · dsimp only at hw
          split at hw <;> cases hw
      | err e =>
        rw [SM.bind_apply, SM.try_err hw]
        dsimp only
        rw [SM.bind_apply]
        unfold removeFile
        rw [if_neg (by simp [ht.remove])]
        intro q hq
        show FS.put _ f none q = _
        by_cases he : q = f
        · rw [he, hf.1]; exact if_pos rfl
        · rw [put_ne he, h2 q he]
      | ok u =>
        rw [SM.bind_apply, SM.try_ok hw]
        dsimp only
        unfold renameFile
        rw [if_neg (by simp [ht.rename])]
        intro q hq
        show FS.put _ f none q = _
        by_cases he : q = f
        · rw [he, hf.1]; exact if_pos rfl
        · rw [put_ne he, put_ne (fun h => persistPath_not_temp x.cfg role (by rw [← h]; exact hq)), h2 q he]

theorem tidyW_download (role : Str) (n : Int) (v : Str) : TidyW (downloadMetadata x role n v) := tidyW_fetch _ _ _

theorem tidy_rootLoop (ht : Tidy x.host) (n : Nat) (v : Int) : TidyM (loadRootLoop x n v) := by
  induction n generalizing v with
  | zero => exact tidy_pure _
  | succ n ih =>
    rw [loadRootLoop]
    refine tidy_bind (tidy_try (tidy_onWorld (tidyW_download _ _ _))) ?_
    intro r
    split
    · split
      · exact tidy_throw _
      · exact tidy_pure _
    · exact tidy_throw _
    · exact tidy_bind (tidy_onTrusted _) (fun _ => tidy_bind (tidy_onWorld (tidyW_persist ht _ _)) (fun _ => ih _))

theorem tidy_tryLocal (role : Str) (f : Bytes → Trusted → Res α × Trusted) : TidyM (tryLocal x role f) := by
  unfold tryLocal
  refine tidy_bind (tidy_try (tidy_onWorld (tidyW_read _ _))) ?_
  intro r
  split
  · exact tidy_pure _
  · refine tidy_bind (tidy_try (tidy_onTrusted _)) ?_
    intro r
    split
    · exact tidy_pure _
    · split
      · exact tidy_pure _
      · exact tidy_throw _

theorem tidy_loadTimestamp (ht : Tidy x.host) : TidyM (loadTimestamp x) := by
  unfold loadTimestamp
  refine tidy_bind (tidy_tryLocal _ _) (fun _ => tidy_bind (tidy_onWorld (tidyW_download _ _ _)) (fun d => tidy_bind (tidy_try (tidy_onTrusted _)) ?_))
  intro r
  split
  · split
    · exact tidy_pure _
    · exact tidy_throw _
  · exact tidy_onWorld (tidyW_persist ht _ _)

theorem tidy_loadSnapshot (ht : Tidy x.host) : TidyM (loadSnapshot x) := by
  unfold loadSnapshot
  refine tidy_bind (tidy_tryLocal _ _) ?_
  intro o
  split
  · exact tidy_pure _
  · refine tidy_bind tidy_getTrusted ?_
    intro t
    split
    · exact tidy_throw _
    · exact tidy_bind (tidy_lift _) (fun _ => tidy_bind (tidy_onWorld (tidyW_download _ _ _)) (fun _ => tidy_bind (tidy_onTrusted _) (fun _ => tidy_onWorld (tidyW_persist ht _ _))))

theorem tidy_loadTargets (ht : Tidy x.host) (role parent : Str) : TidyM (loadTargets x role parent) := by
  unfold loadTargets
  refine tidy_bind tidy_getTrusted ?_
  intro t
  split
  · exact tidy_pure _
  · refine tidy_bind (tidy_tryLocal _ _) ?_
    intro o
    split
    · exact tidy_pure _
    · refine tidy_bind tidy_getTrusted ?_
      intro t
      split
      · exact tidy_throw _
      · exact tidy_bind (tidy_lift _) (fun _ => tidy_bind (tidy_onWorld (tidyW_download _ _ _)) (fun _ => tidy_bind (tidy_onTrusted _) (fun _ =>
          tidy_bind (tidy_onWorld (tidyW_persist ht _ _)) (fun _ => tidy_pure _))))

theorem tidy_refresh (ht : Tidy x.host) : TidyM (refresh x) := by
  unfold refresh
  split
  · unfold unsafeLocalRefresh loadLocalMetadata
    exact tidy_bind (tidy_onWorld (tidyW_read _ _)) (fun _ => tidy_bind (tidy_onTrusted _) (fun _ => tidy_bind (tidy_onWorld (tidyW_read _ _)) (fun _ => tidy_bind (tidy_onTrusted _) (fun _ =>
      tidy_bind (tidy_onWorld (tidyW_read _ _)) (fun _ => tidy_bind (tidy_onTrusted _) (fun _ => tidy_pure _))))))
  · unfold onlineRefresh
    refine tidy_bind ?_ (fun _ => tidy_bind (tidy_loadTimestamp ht) (fun _ => tidy_bind (tidy_loadSnapshot ht) (fun _ => tidy_bind (tidy_loadTargets ht _ _) (fun _ => tidy_pure _))))
    unfold loadRoot
    exact tidy_bind tidy_getTrusted (fun _ => tidy_rootLoop ht _ _)

theorem tidy_walk (ht : Tidy x.host) (path : Str) (k : Nat) (stack : List RoleParent) (seen : List Str) : TidyM (walk x path k stack seen) := by
  induction k generalizing stack seen with
  | zero => exact tidy_throw _
  | succ k ih =>
    rw [walk]
    split
    · exact tidy_throw _
    · refine tidy_bind (tidy_loadTargets ht _ _) ?_
      intro m
      split
      · exact tidy_pure _
      · refine tidy_bind (tidy_onWorld ?_) (fun _ => ih _ _)
        unfold pushChildren
        split
        · exact tidyW_pure _
        · refine tidyW_bind (tidyW_lift _) (fun _ => tidyW_bind (tidyW_iterate _ _) (fun _ => ?_))
          exact tidyW_pure _

theorem tidy_getTargetInfo (ht : Tidy x.host) (path : Str) : TidyM (getTargetInfo x path) := by
  unfold getTargetInfo
  refine tidy_bind tidy_getTrusted ?_
  intro t
  split
  · exact tidy_walk ht _ _ _ _
  · exact tidy_bind (tidy_refresh ht) (fun _ => tidy_walk ht _ _ _ _)

theorem downloadTarget_temps {tf : TargetFiles} {f u : Str} (hf : ∀ p, targetFilePath x tf f = .ok p → ¬ TempName p) : TidyM (downloadTarget x tf f u) := by
  unfold downloadTarget
  cases hp : targetFilePath x tf f with
  | err e => exact fun _ => sameTemps_refl _
  | panic => exact fun _ => sameTemps_refl _
  | ok p =>
    have e : ∀ k : Str → M (Str × Bytes), (SM.lift (.ok p) >>= k) = k p := fun k => rfl
    rw [e]
    refine tidy_bind (tidy_lift _) (fun _ => tidy_bind tidy_getTrusted (fun t => tidy_bind (tidy_onWorld ?_) (fun _ => tidy_bind (tidy_onWorld (tidyW_fetch _ _ _)) (fun d =>
      tidy_bind (tidy_lift _) (fun _ => tidy_bind (tidy_onWorld ?_) (fun _ => tidy_pure _))))))
    · unfold targetURLPath
      split
      · exact tidyW_bind (tidyW_iterate _ _) (fun _ => tidyW_pure _)
      · exact tidyW_pure _
    · unfold storeTarget
      split
      · exact tidyW_pure _
      · intro w q hq
        exact writeFile_others (fun he => hf p hp (by rw [← he]; exact hq))

/-- **C121** when temporary files can be removed and moved: no call leaves a temporary file behind, removes or changes one that was there, whatever else fails. -/
theorem C121_calls_partial (ht : Tidy x.host) (a : Api) (ha : ∀ tf f u p, a = .downloadTarget tf f u → targetFilePath x tf f = .ok p → ¬ TempName p) (s : St) :
    SameTemps s.world.fs (a.run x s).2.world.fs := by
  cases a with
  | refresh => exact tidy_refresh ht s
  | getTargetInfo p => exact tidy_getTargetInfo ht p s
  | downloadTarget tf f u => exact downloadTarget_temps (fun p => ha tf f u p rfl) s
  | findCachedTarget tf f => 
    show SameTemps s.world.fs (findCachedTarget x tf f s).2.world.fs
    have : TidyM (findCachedTarget x tf f) := by
      unfold findCachedTarget
      split
      · exact tidy_pure _
      · refine tidy_bind (tidy_lift _) (fun _ => tidy_bind (tidy_try (tidy_onWorld (tidyW_read _ _))) ?_)
        intro r
        split
        · exact tidy_pure _
        · split
          · exact tidy_pure _
          · exact tidy_panic
          · exact tidy_pure _
    exact this s

/-- **C121** when temporary files can be removed and moved: neither does `New`. -/
theorem C121_new_partial (ht : Tidy x.host) (w : World) : SameTemps w.fs (newUpdater x w).2.fs := by
  unfold newUpdater
  split
  · exact sameTemps_refl _
  · split
    · refine tidyW_bind ?_ (fun _ => tidyW_bind (tidyW_persist ht _ _) (fun _ => tidyW_pure _)) w
      unfold ensurePathsExist
      split
      · exact tidyW_pure _
      · exact tidyW_bind (tidyW_mkdir _ _) (fun _ => tidyW_mkdir _ _)
    · exact sameTemps_refl _
    · exact sameTemps_refl _

end

/-! ## Examples -/

namespace Sample

/-- A disk on which files cannot be moved, and what two calls of `New` leave on it. -/
def stuck : Ctx := { ctx with host := { host with renameFails := fun _ _ _ => true } }
def stuck1 : Res Trusted × World := newUpdater stuck { fs := disk [] }
def stuck2 : Res Trusted × World := newUpdater stuck stuck1.2

/-- A disk on which nothing can be written, but files can be removed. -/
def full : Ctx := { ctx with host := { host with writeCount := fun _ _ => 0 } }

end Sample

example : Tidy full.host := ⟨fun _ _ => rfl, fun _ _ _ => rfl⟩

/-- On a full disk the temporary file was created and is removed again. -/
example : (newUpdater full { fs := disk [] }).1.map (fun _ => ()) = .err ioErr ∧
    (newUpdater full { fs := disk [] }).2.trace.any (fun e => match e with | .createTemp p => p == b!"w/tuf_tmp2" | _ => false) = true ∧
    (newUpdater full { fs := disk [] }).2.fs b!"w/tuf_tmp2" = none := by decide +kernel

/-- **C121** is false if a file cannot be moved: every attempt leaves a temporary file in the working directory. -/
theorem C121_false : stuck1.1.map (fun _ => ()) = .err ioErr ∧ stuck1.2.fs b!"w/tuf_tmp2" = some [1, 1] ∧ stuck2.1.map (fun _ => ()) = .err ioErr ∧ stuck2.2.fs b!"w/tuf_tmp2" = some [1, 1] ∧
    stuck2.2.fs b!"w/tuf_tmp8" = some [1, 1] ∧ TempName b!"w/tuf_tmp2" ∧ TempName b!"w/tuf_tmp8" :=
  ⟨by decide +kernel, by decide +kernel, by decide +kernel, by decide +kernel, by decide +kernel, ⟨b!"w", 2, by decide⟩, ⟨b!"w", 8, by decide⟩⟩

end Tuf
