import Verif.Spec.Targets
import Verif.Proofs.Hashes
import Verif.Props.SearchOrder

/-! # Target files: properties C43 to C46 and C49 -/

namespace Tuf
open Spec Sample

section
variable {x : Ctx}

theorem targetFilePath_cases (tf : TargetFiles) (given : Str) : (∃ p, targetFilePath x tf given = .ok p ∧ TargetPath x tf given p) ∨
    ((∃ e, targetFilePath x tf given = .err e) ∧ ∀ p, ¬ TargetPath x tf given p) := by
  unfold targetFilePath
  split
  · next hg =>
    unfold generateTargetFilePath
    split
    · next h =>
      refine .inr ⟨⟨_, rfl⟩, ?_⟩
      intro p hp
      cases hp with
      | given h' => exact h' hg
      | generated _ h' => rcases h' with h' | h'; exact h' h.1; rw [h.2] at h'; cases h'
    · next h =>
      cases hu : x.env.urlJoin x.cfg.localTargetsDir (queryEscape tf.path) with
      | none =>
        refine .inr ⟨⟨_, rfl⟩, ?_⟩
        intro p hp
        cases hp with
        | given h' => exact h' hg
        | generated _ _ h' => rw [hu] at h'; cases h'
      | some p =>
        refine .inl ⟨p, rfl, .generated hg ?_ hu⟩
        by_cases hl : x.cfg.localTargetsDir = []
        · refine .inr ?_
          cases hd : x.cfg.disableLocalCache with
          | true => rfl
          | false => exact absurd ⟨hl, hd⟩ h
        · exact .inl hl
  · next hg => exact .inl ⟨_, rfl, .given hg⟩

theorem targetBase_cases (given : Str) : (∃ b, targetBase x given = .ok b ∧ TargetBase x given b) ∨
    ((∃ e, targetBase x given = .err e) ∧ ∀ b, ¬ TargetBase x given b) := by
  unfold targetBase
  split
  · next hg =>
    split
    · next h =>
      refine .inr ⟨⟨_, rfl⟩, ?_⟩
      intro b hb
      cases hb with
      | given h' => exact h' hg
      | configured _ h' => exact h' h
    · next h => exact .inl ⟨_, rfl, .configured hg h (slashBase _)⟩
  · next hg => exact .inl ⟨_, rfl, .given hg (slashBase _)⟩

/-- The name part of the URL: the prefixed one or the plain path. -/
def UrlName (x : Ctx) (t : Trusted) (tf : TargetFiles) (name : Str) : Prop :=
  (t.root.signed.consistentSnapshot = true ∧ x.cfg.prefixTargetsWithHash = true ∧
    ((∃ alg v, (alg, v) ∈ tf.hashes.entries ∧ name = prefixedPath tf.path (hexEncode v)) ∨ (tf.hashes.entries = [] ∧ name = prefixedPath tf.path []))) ∨
  ((t.root.signed.consistentSnapshot = false ∨ x.cfg.prefixTargetsWithHash = false) ∧ name = tf.path)

theorem targetURLPath_cases (t : Trusted) (tf : TargetFiles) (w : World) : ∃ name evs, targetURLPath x t tf w = (.ok name, { fs := w.fs, trace := w.trace ++ evs }) ∧
    (evs = [] ∨ ∃ o, evs = [.iterate o]) ∧ UrlName x t tf name := by
  unfold targetURLPath
  cases hc : t.root.signed.consistentSnapshot with
  | false => exact ⟨tf.path, [], by rw [List.append_nil]; rfl, .inl rfl, .inr ⟨.inl hc, rfl⟩⟩
  | true =>
    cases hp : x.cfg.prefixTargetsWithHash with
    | false => exact ⟨tf.path, [], by rw [List.append_nil]; rfl, .inl rfl, .inr ⟨.inr hp, rfl⟩⟩
    | true =>
      obtain ⟨o, l, h1, h2, h3⟩ := iterateMap_apply x.host tf.hashes.entries w
      have hperm := perm_iterate (es := tf.hashes.entries) h1
      rw [← h2] at hperm
      rw [if_pos (by rfl), SM.bind_ok h3]
      refine ⟨_, [.iterate o], rfl, .inr ⟨o, rfl⟩, .inl ⟨hc, hp, ?_⟩⟩
      cases l with
      | nil => exact .inr ⟨hperm.symm.eq_nil, rfl⟩
      | cons p l => exact .inl ⟨p.1, p.2, hperm.mem_iff.1 (.head _), rfl⟩

/-- Everything `DownloadTarget` can do. -/
theorem downloadTarget_run (tf : TargetFiles) (given base : Str) (s : St) :
    (∃ e, downloadTarget x tf given base s = (.err e, s) ∧ ((∀ p, ¬ TargetPath x tf given p) ∨ ∀ b, ¬ TargetBase x base b)) ∨
    ∃ path b name r fs' pre evs, downloadTarget x tf given base s = (r, ⟨s.trusted, ⟨fs', s.world.trace ++ (pre ++ evs)⟩⟩) ∧
      TargetPath x tf given path ∧ TargetBase x base b ∧ UrlName x s.trusted tf name ∧ (pre = [] ∨ ∃ o, pre = [.iterate o]) ∧
      TargetRun x tf path (b ++ name) s.world.fs evs r fs' := by
  unfold downloadTarget
  rcases targetFilePath_cases (x := x) tf given with ⟨p, h1, h2⟩ | ⟨⟨e, h1⟩, h2⟩
  · rcases targetBase_cases (x := x) base with ⟨b, h3, h4⟩ | ⟨⟨e, h3⟩, h4⟩
    · refine .inr ?_
      rw [SM.bind_ok (by rw [h1]; rfl), SM.bind_ok (by rw [h3]; rfl), SM.bind_ok (getTrusted_apply s)]
      obtain ⟨name, pre, h5, h6, h7⟩ := targetURLPath_cases (x := x) s.trusted tf s.world
      have h5' : onWorld (targetURLPath x s.trusted tf) s = (.ok name, ⟨s.trusted, ⟨s.world.fs, s.world.trace ++ pre⟩⟩) := by rw [onWorld_apply, h5]
      rw [SM.bind_ok h5']
      suffices hs : ∃ r fs' evs, (onWorld (doFetch x.host (b ++ name) tf.length) >>= fun data => SM.lift (tf.verifyLengthHashes x.env data) >>= fun _ =>
          onWorld (storeTarget x p data) >>= fun _ => pure (p, data)) ⟨s.trusted, ⟨s.world.fs, s.world.trace ++ pre⟩⟩ =
            (r, ⟨s.trusted, ⟨fs', s.world.trace ++ pre ++ evs⟩⟩) ∧ TargetRun x tf p (b ++ name) s.world.fs evs r fs' by
        obtain ⟨r, fs', evs, h8, h9⟩ := hs
        exact ⟨p, b, name, r, fs', pre, evs, by rw [← List.append_assoc]; exact h8, h2, h4, h7, h6, h9⟩
      generalize s.world.trace ++ pre = tr
      generalize hf : x.host.fetch tr (b ++ name) tf.length = f
      cases f with
      | error e =>
        have : onWorld (doFetch x.host (b ++ name) tf.length) ⟨s.trusted, ⟨s.world.fs, tr⟩⟩ =
            (.err e, ⟨s.trusted, ⟨s.world.fs, tr ++ [.fetch (b ++ name) tf.length (.error e)]⟩⟩) := by
          rw [onWorld_apply]; unfold doFetch; rw [hf]; rfl
        rw [SM.bind_err this]
        exact ⟨_, _, _, rfl, .notFetched⟩
      | ok data =>
        have : onWorld (doFetch x.host (b ++ name) tf.length) ⟨s.trusted, ⟨s.world.fs, tr⟩⟩ =
            (.ok data, ⟨s.trusted, ⟨s.world.fs, tr ++ [.fetch (b ++ name) tf.length (.ok data)]⟩⟩) := by
          rw [onWorld_apply]; unfold doFetch; rw [hf]; rfl
        rw [SM.bind_ok this]
        by_cases hm : TargetMatches x.env tf data
        · rw [SM.bind_ok (by rw [targetVerify_ok.2 hm]; rfl)]
          cases hd : x.cfg.disableLocalCache with
          | true =>
            have : onWorld (storeTarget x p data) ⟨s.trusted, ⟨s.world.fs, tr ++ [.fetch (b ++ name) tf.length (.ok data)]⟩⟩ =
                (.ok (), ⟨s.trusted, ⟨s.world.fs, tr ++ [.fetch (b ++ name) tf.length (.ok data)]⟩⟩) := by
              rw [onWorld_apply]; unfold storeTarget; rw [if_pos hd]; rfl
            rw [SM.bind_ok this]
            exact ⟨_, _, _, rfl, .uncached hm hd⟩
          | false =>
            have hw : storeTarget x p data = writeFile x.host p data := by unfold storeTarget; rw [if_neg (by rw [hd]; simp)]
            rw [hw]
            generalize htr : tr ++ [.fetch (b ++ name) tf.length (.ok data)] = tr1
            cases ho : x.host.openFails tr1 p with
            | true =>
              have : onWorld (writeFile x.host p data) ⟨s.trusted, ⟨s.world.fs, tr1⟩⟩ = (.err ioErr, ⟨s.trusted, ⟨s.world.fs, tr1 ++ [.failed b!"open"]⟩⟩) := by
                rw [onWorld_apply]; unfold writeFile; rw [if_pos ho]; rfl
              rw [SM.bind_err this]
              exact ⟨_, _, _, by rw [← htr, List.append_assoc]; rfl, .notOpened hm hd⟩
            | false =>
              have hput : ∀ v : Bytes, (s.world.fs.put p (some [])).put p (some v) = s.world.fs.put p (some v) := by
                intro v; funext q; simp only [FS.put]; split <;> rfl
              generalize hn : x.host.writeCount (tr1 ++ [.truncate p]) data.length = n
              by_cases hlt : n < data.length
              · have : onWorld (writeFile x.host p data) ⟨s.trusted, ⟨s.world.fs, tr1⟩⟩ =
                    (.err ioErr, ⟨s.trusted, ⟨s.world.fs.put p (some (data.take n)), tr1 ++ [.truncate p] ++ [.write p (data.take n)]⟩⟩) := by
                  rw [onWorld_apply]; unfold writeFile; rw [if_neg (by simp [ho])]
                  simp only [World.emit, hn, if_pos hlt, applyEvent, hput]
                rw [SM.bind_err this]
                exact ⟨_, _, _, by rw [← htr]; simp only [List.append_assoc]; rfl, .notWritten hm hd hlt⟩
              · have ht : data.take n = data := List.take_of_length_le (by omega)
                have : onWorld (writeFile x.host p data) ⟨s.trusted, ⟨s.world.fs, tr1⟩⟩ =
                    (.ok (), ⟨s.trusted, ⟨s.world.fs.put p (some data), tr1 ++ [.truncate p] ++ [.write p data]⟩⟩) := by
                  rw [onWorld_apply]; unfold writeFile; rw [if_neg (by simp [ho])]
                  simp only [World.emit, hn, if_neg hlt, applyEvent, hput, ht]
                rw [SM.bind_ok this]
                exact ⟨_, _, _, by rw [← htr]; simp only [List.append_assoc]; rfl, .stored hm hd⟩
        · obtain ⟨msg, h⟩ := targetVerify_err hm
          rw [SM.bind_err (by rw [h]; rfl)]
          exact ⟨_, _, _, rfl, .mismatch hm⟩
    · refine .inl ⟨e, ?_, .inr h4⟩
      rw [SM.bind_ok (by rw [h1]; rfl), SM.bind_err (by rw [h3]; rfl)]
  · exact .inl ⟨e, by rw [SM.bind_err (by rw [h1]; rfl)], .inl h2⟩

/-! ## C43 -/

/-- C43: bytes returned by `DownloadTarget` were downloaded, have the length and every hash of the info, and unless caching is off are the content of the returned file. -/
theorem C43_matching {tf : TargetFiles} {given base path : Str} {data : Bytes} {s s' : St} (h : downloadTarget x tf given base s = (.ok (path, data), s')) :
    TargetMatches x.env tf data ∧ TargetPath x tf given path ∧ (x.cfg.disableLocalCache = false → s'.world.fs path = some data) ∧ s'.trusted = s.trusted ∧
    ∃ url, downloads s'.world.trace = downloads s.world.trace ++ [(url, tf.length, .ok data)] := by
  rcases downloadTarget_run (x := x) tf given base s with ⟨e, h1, _⟩ | ⟨p, b, name, r, fs', pre, evs, h1, h2, h3, h4, h5, h6⟩
  · rw [h1] at h; cases h
  · rw [h1] at h
    cases h
    have hpre : downloads (s.world.trace ++ pre) = downloads s.world.trace := by
      rcases h5 with rfl | ⟨o, rfl⟩ <;> simp [downloads]
    cases h6 with
    | uncached hm hd =>
      refine ⟨hm, h2, (fun h => by rw [hd] at h; cases h), rfl, b ++ name, ?_⟩
      rw [← hpre, ← List.append_assoc]; simp [downloads]
    | stored hm hd =>
      refine ⟨hm, h2, (fun _ => by simp [FS.put]), rfl, b ++ name, ?_⟩
      rw [← hpre, ← List.append_assoc]; simp [downloads]

/-- C43: the file of the target is changed only after bytes that match were downloaded, and no other file is ever changed; if the bytes do not match, the
call returns an error. `DownloadTarget` does not crash. -/
theorem C43_no_mismatch_stored (tf : TargetFiles) (given base : Str) (s : St) :
    (downloadTarget x tf given base s).1 ≠ .panic ∧
    (∀ q, (downloadTarget x tf given base s).2.world.fs q ≠ s.world.fs q → TargetPath x tf given q ∧ x.cfg.disableLocalCache = false ∧
      ∃ url data, (url, tf.length, .ok data) ∈ downloads (downloadTarget x tf given base s).2.world.trace ∧ TargetMatches x.env tf data) ∧
    (∀ url data new, downloads (downloadTarget x tf given base s).2.world.trace = downloads s.world.trace ++ new → (url, tf.length, Except.ok data) ∈ new →
      ¬ TargetMatches x.env tf data → (downloadTarget x tf given base s).2.world.fs = s.world.fs ∧
        ∃ msg, (downloadTarget x tf given base s).1 = .err (.lengthOrHashMismatch msg)) := by
  rcases downloadTarget_run (x := x) tf given base s with ⟨e, h1, _⟩ | ⟨p, b, name, r, fs', pre, evs, h1, h2, h3, h4, h5, h6⟩
  · rw [h1]
    refine ⟨by simp, fun q h => absurd rfl h, ?_⟩
    intro url data new hn hm
    have : new = [] := by simpa using hn
    rw [this] at hm; cases hm
  · rw [h1]
    have hpre : downloads (s.world.trace ++ (pre ++ evs)) = downloads s.world.trace ++ downloads evs := by
      rcases h5 with rfl | ⟨o, rfl⟩ <;> simp [downloads]
    refine ⟨?_, ?_, ?_⟩
    · cases h6 <;> simp
    · intro q hq
      dsimp only at hq
      have put_ne : ∀ v, (s.world.fs.put p v) q ≠ s.world.fs q → q = p := by
        intro v h
        simp only [FS.put] at h
        split at h
        · assumption
        · exact absurd rfl h
      rw [hpre]
      cases h6 with
      | notWritten hm hd =>
        rw [put_ne _ hq]
        exact ⟨h2, hd, b ++ name, _, List.mem_append_right _ (by simp [downloads]), hm⟩
      | stored hm hd =>
        rw [put_ne _ hq]
        exact ⟨h2, hd, b ++ name, _, List.mem_append_right _ (by simp [downloads]), hm⟩
      | _ => exact absurd rfl hq
    · intro url data new hn hmem hne
      dsimp only at hn ⊢
      rw [hpre] at hn
      have hn := (List.append_cancel_left hn).symm
      subst hn
      cases h6 with
      | mismatch h => exact ⟨rfl, _, rfl⟩
      | notFetched => simp [downloads] at hmem
      | uncached hm => simp [downloads] at hmem; obtain ⟨_, rfl⟩ := hmem; exact absurd hm hne
      | notOpened hm => simp [downloads] at hmem; obtain ⟨_, rfl⟩ := hmem; exact absurd hm hne
      | notWritten hm => simp [downloads] at hmem; obtain ⟨_, rfl⟩ := hmem; exact absurd hm hne
      | stored hm => simp [downloads] at hmem; obtain ⟨_, rfl⟩ := hmem; exact absurd hm hne

/-! ## C44 -/

theorem readFile_cases (h : Host) (p : Str) (s : St) :
    (∃ d, s.world.fs p = some d ∧ h.readFails s.world.trace p = false ∧ onWorld (readFile h p) s = (.ok d, ⟨s.trusted, ⟨s.world.fs, s.world.trace ++ [.read p (some d)]⟩⟩)) ∨
    ((s.world.fs p = none ∨ h.readFails s.world.trace p = true) ∧
      onWorld (readFile h p) s = (.err ioErr, ⟨s.trusted, ⟨s.world.fs, s.world.trace ++ [.read p none]⟩⟩)) := by
  rw [onWorld_apply]
  unfold readFile
  cases hf : h.readFails s.world.trace p with
  | true => exact .inr ⟨.inr rfl, rfl⟩
  | false =>
    cases hd : s.world.fs p with
    | none => exact .inr ⟨.inl rfl, rfl⟩
    | some d => exact .inl ⟨d, rfl, rfl, rfl⟩

/-- Everything `FindCachedTarget` can do. -/
theorem findCachedTarget_run (tf : TargetFiles) (given : Str) (s : St) :
    (x.cfg.disableLocalCache = true ∧ findCachedTarget x tf given s = (.ok ([], []), s)) ∨
    (x.cfg.disableLocalCache = false ∧ (∀ p, ¬ TargetPath x tf given p) ∧ ∃ e, findCachedTarget x tf given s = (.err e, s)) ∨
    (x.cfg.disableLocalCache = false ∧ ∃ path r, TargetPath x tf given path ∧
      ((∃ data, s.world.fs path = some data ∧ x.host.readFails s.world.trace path = false ∧ TargetMatches x.env tf data ∧
          findCachedTarget x tf given s = (.ok (path, data), ⟨s.trusted, ⟨s.world.fs, s.world.trace ++ [.read path r]⟩⟩)) ∨
       ((∀ data, s.world.fs path = some data → x.host.readFails s.world.trace path = true ∨ ¬ TargetMatches x.env tf data) ∧
          findCachedTarget x tf given s = (.ok ([], []), ⟨s.trusted, ⟨s.world.fs, s.world.trace ++ [.read path r]⟩⟩)))) := by
  unfold findCachedTarget
  cases hd : x.cfg.disableLocalCache with
  | true => exact .inl ⟨rfl, rfl⟩
  | false =>
    refine .inr ?_
    rw [if_neg (by simp)]
    rcases targetFilePath_cases (x := x) tf given with ⟨p, h1, h2⟩ | ⟨⟨e, h1⟩, h2⟩
    · refine .inr ⟨rfl, p, ?_⟩
      rw [SM.bind_ok (by rw [h1]; rfl)]
      rcases readFile_cases x.host p s with ⟨d, h3, h4, h5⟩ | ⟨h3, h5⟩
      · refine ⟨some d, h2, ?_⟩
        rw [SM.bind_ok (SM.try_ok h5)]
        dsimp only
        by_cases hm : TargetMatches x.env tf d
        · refine .inl ⟨d, h3, h4, hm, ?_⟩
          rw [targetVerify_ok.2 hm]; rfl
        · refine .inr ⟨?_, ?_⟩
          · intro d' hd'; rw [h3] at hd'; cases hd'; exact .inr hm
          · obtain ⟨msg, h⟩ := targetVerify_err hm
            rw [h]; rfl
      · refine ⟨none, h2, .inr ⟨?_, ?_⟩⟩
        · intro d' hd'
          rcases h3 with h3 | h3
          · rw [h3] at hd'; cases hd'
          · exact .inl h3
        · rw [SM.bind_ok (SM.try_err h5)]; rfl
    · refine .inl ⟨rfl, h2, e, ?_⟩
      rw [SM.bind_err (by rw [h1]; rfl)]

/-- C44: a path returned by `FindCachedTarget` is the target's file; the bytes returned are its content and have the length and every hash of the info. -/
theorem C44_matching {tf : TargetFiles} {given path : Str} {data : Bytes} {s s' : St} (h : findCachedTarget x tf given s = (.ok (path, data), s')) (hp : path ≠ []) :
    TargetPath x tf given path ∧ s.world.fs path = some data ∧ TargetMatches x.env tf data := by
  rcases findCachedTarget_run (x := x) tf given s with ⟨_, h1⟩ | ⟨_, _, e, h1⟩ | ⟨_, p, r, h1, ⟨d, h2, _, h3, h4⟩ | ⟨_, h4⟩⟩
  · rw [h1] at h; cases h; exact absurd rfl hp
  · rw [h1] at h; cases h
  · rw [h4] at h; cases h; exact ⟨h1, h2, h3⟩
  · rw [h4] at h; cases h; exact absurd rfl hp

/-- C44: without a matching file there is neither an error nor a path. -/
theorem C44_absent {tf : TargetFiles} {given path : Str} {s : St} (hp : TargetPath x tf given path)
    (h : ∀ data, s.world.fs path = some data → ¬ TargetMatches x.env tf data) : (findCachedTarget x tf given s).1 = .ok ([], []) := by
  rcases findCachedTarget_run (x := x) tf given s with ⟨_, h1⟩ | ⟨_, h0, e, h1⟩ | ⟨_, p, r, h1, ⟨d, h2, _, h3, h4⟩ | ⟨_, h4⟩⟩
  · rw [h1]
  · exact absurd hp (h0 _)
  · have : p = path := by
      cases h1 with
      | given ha => cases hp with
        | given => rfl
        | generated hb => exact absurd hb ha
      | generated ha _ hc => cases hp with
        | given hb => exact absurd ha hb
        | generated _ _ hd => rw [hc] at hd; cases hd; rfl
    subst this
    exact absurd h3 (h d h2)
  · rw [h4]

/-- C44: a matching file that can be read is found. -/
theorem C44_present {tf : TargetFiles} {given path : Str} {data : Bytes} {s : St} (hp : TargetPath x tf given path) (hd : x.cfg.disableLocalCache = false)
    (h : s.world.fs path = some data) (hr : x.host.readFails s.world.trace path = false) (hm : TargetMatches x.env tf data) :
    (findCachedTarget x tf given s).1 = .ok (path, data) := by
  rcases findCachedTarget_run (x := x) tf given s with ⟨h1, _⟩ | ⟨_, h0, e, h1⟩ | ⟨_, p, r, h1, h2⟩
  · rw [hd] at h1; cases h1
  · exact absurd hp (h0 _)
  · have : p = path := by
      cases h1 with
      | given ha => cases hp with
        | given => rfl
        | generated hb => exact absurd hb ha
      | generated ha _ hc => cases hp with
        | given hb => exact absurd ha hb
        | generated _ _ hd => rw [hc] at hd; cases hd; rfl
    subst this
    rcases h2 with ⟨d, h2, _, h3, h4⟩ | ⟨h3, h4⟩
    · rw [h] at h2; cases h2; rw [h4]
    · rcases h3 data h with h3 | h3
      · rw [hr] at h3; cases h3
      · exact absurd hm h3

/-- C44: `FindCachedTarget` at most reads one file: nothing is written, downloaded or added to the trusted set. -/
theorem C44_reads_only (tf : TargetFiles) (given : Str) (s : St) :
    (findCachedTarget x tf given s).2.world.fs = s.world.fs ∧ (findCachedTarget x tf given s).2.trusted = s.trusted ∧
    ∃ evs, (findCachedTarget x tf given s).2.world.trace = s.world.trace ++ evs ∧ evs.length ≤ 1 ∧ ∀ e ∈ evs, ∃ p r, e = .read p r := by
  rcases findCachedTarget_run (x := x) tf given s with ⟨_, h1⟩ | ⟨_, h0, e, h1⟩ | ⟨_, p, r, h1, ⟨d, h2, _, h3, h4⟩ | ⟨_, h4⟩⟩
  · rw [h1]; exact ⟨rfl, rfl, [], by simp, by simp, by simp⟩
  · rw [h1]; exact ⟨rfl, rfl, [], by simp, by simp, by simp⟩
  · rw [h4]; exact ⟨rfl, rfl, [_], rfl, by simp, by simp⟩
  · rw [h4]; exact ⟨rfl, rfl, [_], rfl, by simp, by simp⟩

/-! ## C45 -/

/-- C45 for infos that list a hash: the bytes are authenticated by it. Missing: infos without hashes, which are accepted by length alone (`C45_false`). -/
theorem C45_hashed_partial {tf : TargetFiles} {given base path : Str} {data : Bytes} {s s' : St} (h : downloadTarget x tf given base s = (.ok (path, data), s'))
    (hh : tf.hashes.entries ≠ []) : ∃ alg v, (alg, v) ∈ tf.hashes.entries ∧ Digest x.env data alg v := by
  obtain ⟨⟨_, h1⟩, _⟩ := C43_matching h
  obtain ⟨e, he⟩ := List.exists_mem_of_ne_nil _ hh
  exact ⟨e.1, e.2, he, h1 e.1 e.2 he⟩

/-! ## C46 -/

theorem cutSlash_spec (p : Str) : ((47 : UInt8) ∉ p ∧ cutSlash p = (p, [], false)) ∨ ∃ a b, p = a ++ 47 :: b ∧ (47 : UInt8) ∉ a ∧ cutSlash p = (a, b, true) := by
  induction p with
  | nil => exact .inl ⟨by simp, rfl⟩
  | cons c r ih =>
    by_cases hc : c = 47
    · subst hc; exact .inr ⟨[], r, rfl, by simp, by simp [cutSlash]⟩
    · rcases ih with ⟨h1, h2⟩ | ⟨a, b, rfl, h1, h2⟩
      · exact .inl ⟨by simp [h1, Ne.symm hc], by rw [cutSlash, if_neg hc, h2]⟩
      · exact .inr ⟨c :: a, b, rfl, by simp [h1, Ne.symm hc], by rw [cutSlash, if_neg hc, h2]⟩

/-- C46 for target paths with at most one slash: with consistent snapshots and hash prefixes the request is for the base URL followed by the path with one of the listed hashes
and a dot before its last component. Missing: deeper paths, for which the prefix goes to the wrong component (`C46_false`), and infos without hashes, for which the prefix is
a bare dot. -/
theorem C46_prefix_partial {tf : TargetFiles} {given base path : Str} {data : Bytes} {s s' : St} (h : downloadTarget x tf given base s = (.ok (path, data), s'))
    (hc : s.trusted.root.signed.consistentSnapshot = true) (hp : x.cfg.prefixTargetsWithHash = true) (hh : tf.hashes.entries ≠ []) (hone : tf.path.count 47 ≤ 1) :
    ∃ b alg v name, TargetBase x base b ∧ (alg, v) ∈ tf.hashes.entries ∧ PrefixedName tf.path (hexEncode v) name ∧
      downloads s'.world.trace = downloads s.world.trace ++ [(b ++ name, tf.length, .ok data)] := by
  rcases downloadTarget_run (x := x) tf given base s with ⟨e, h1, _⟩ | ⟨p, b, name, r, fs', pre, evs, h1, h2, h3, h4, h5, h6⟩
  · rw [h1] at h; cases h
  · rw [h1] at h
    cases h
    rcases h4 with ⟨_, _, ⟨alg, v, h7, rfl⟩ | ⟨h7, _⟩⟩ | ⟨h7 | h7, _⟩
    · refine ⟨b, alg, v, prefixedPath tf.path (hexEncode v), h3, h7, ?_, ?_⟩
      · unfold prefixedPath
        rcases cutSlash_spec tf.path with ⟨h8, h9⟩ | ⟨a, c, h8, h9, h10⟩
        · rw [h9]
          exact ⟨[], tf.path, rfl, h8, .inl rfl, rfl⟩
        · rw [h10]
          refine ⟨a ++ b!"/", c, by rw [h8]; simp, ?_, .inr ⟨a, rfl⟩, by simp⟩
          rw [h8, List.count_append, List.count_cons_self] at hone
          exact List.count_eq_zero.1 (by omega)
      · have hpre : downloads (s.world.trace ++ (pre ++ evs)) = downloads s.world.trace ++ downloads evs := by
          rcases h5 with rfl | ⟨o, rfl⟩ <;> simp [downloads]
        rw [hpre]
        cases h6 <;> rfl
    · exact absurd h7 hh
    · rw [hc] at h7; cases h7
    · rw [hp] at h7; cases h7

/-! ## C49 -/

/-- Only file `p` differs from `fs`, and it holds a prefix of `data`. -/
def PartOf (fs : FS) (p : Str) (data : Bytes) (fs' : FS) : Prop := ∀ q, fs' q = fs q ∨ (q = p ∧ ∃ k, fs' q = some (data.take k))

/-- Events that leave files alone or put a prefix of `data` into `p`. -/
def PartEvent (p : Str) (data : Bytes) : Event → Prop
  | .truncate q => q = p
  | .write q b => q = p ∧ ∃ k, b = data.take k
  | .fetch .. => True
  | .iterate _ => True
  | .failed _ => True
  | _ => False

theorem partOf_event {fs fs' : FS} {p : Str} {data : Bytes} {e : Event} (he : PartEvent p data e) (h : PartOf fs p data fs') : PartOf fs p data (applyEvent fs' e) := by
  have put : ∀ b, (∃ k, b = data.take k) → PartOf fs p data (fs'.put p (some b)) := by
    rintro b ⟨k, rfl⟩ q
    by_cases hq : q = p
    · exact .inr ⟨hq, k, by simp [FS.put, hq]⟩
    · rcases h q with h | ⟨h, _⟩
      · exact .inl (by simp [FS.put, hq, h])
      · exact absurd h hq
  cases e with
  | truncate q => cases he; exact put [] ⟨0, rfl⟩
  | write q b => obtain ⟨rfl, hb⟩ := he; exact put b hb
  | fetch => exact h
  | iterate => exact h
  | failed => exact h
  | _ => cases he

theorem partOf_replay {fs fs' : FS} {p : Str} {data : Bytes} {evs : List Event} (he : ∀ e ∈ evs, PartEvent p data e) (h : PartOf fs p data fs') :
    PartOf fs p data (replay fs' evs) := by
  unfold replay
  induction evs generalizing fs' with
  | nil => exact h
  | cons e evs ih => exact ih (fun e' h' => he e' (.tail _ h')) (partOf_event (he e (.head _)) h)

theorem partOf_crash {fs fs' : FS} {p : Str} {data : Bytes} {evs : List Event} (he : ∀ e ∈ evs, PartEvent p data e) (h : CrashState fs evs fs') : PartOf fs p data fs' := by
  have h0 : PartOf fs p data fs := fun q => .inl rfl
  obtain ⟨before, after, rfl, rfl | ⟨q, b, k, rest, rfl, rfl⟩⟩ := h
  · exact partOf_replay (fun e h => he e (List.mem_append_left _ h)) h0
  · refine partOf_replay ?_ h0
    intro e h
    rcases List.mem_append.1 h with h | h
    · exact he e (List.mem_append_left _ h)
    · rw [List.mem_singleton] at h
      subst h
      obtain ⟨h1, j, rfl⟩ := he (.write q b) (List.mem_append_right _ (.head _))
      exact ⟨h1, min k j, by rw [List.take_take]⟩

/-- C49: at every crash point of `DownloadTarget`, no file but the target's has changed; that one is unchanged or holds the beginning of bytes that match the info. -/
theorem C49_crash_points {tf : TargetFiles} {given base : Str} {s : St} {evs : List Event}
    (h : (downloadTarget x tf given base s).2.world.trace = s.world.trace ++ evs) {fs' : FS} (hc : CrashState s.world.fs evs fs') :
    fs' = s.world.fs ∨ ∃ path data, TargetPath x tf given path ∧ TargetMatches x.env tf data ∧
      ∀ q, fs' q = s.world.fs q ∨ (q = path ∧ ∃ k, fs' q = some (data.take k)) := by
  have nochange : ∀ evs : List Event, (∀ e ∈ evs, applyEvent s.world.fs e = s.world.fs ∧ ∀ p b, e ≠ .write p b) → CrashState s.world.fs evs fs' → fs' = s.world.fs := by
    intro evs he hc
    have hr : ∀ l : List Event, (∀ e ∈ l, applyEvent s.world.fs e = s.world.fs) → replay s.world.fs l = s.world.fs := by
      intro l hl
      unfold replay
      induction l with
      | nil => rfl
      | cons e l ih => rw [List.foldl_cons, hl e (.head _)]; exact ih (fun e' h' => hl e' (.tail _ h'))
    obtain ⟨before, after, rfl, rfl | ⟨q, b, k, rest, rfl, rfl⟩⟩ := hc
    · exact hr _ (fun e h => (he e (List.mem_append_left _ h)).1)
    · exact absurd rfl ((he (.write q b) (List.mem_append_right _ (.head _))).2 q b)
  rcases downloadTarget_run (x := x) tf given base s with ⟨e, h1, _⟩ | ⟨p, b, name, r, fs2, pre, evs2, h1, h2, h3, h4, h5, h6⟩
  · rw [h1] at h
    have : evs = [] := by simpa using h
    subst this
    exact .inl (nochange [] (by simp) hc)
  · rw [h1] at h
    have := List.append_cancel_left h
    subst this
    have hpre : ∀ e ∈ pre, (applyEvent s.world.fs e = s.world.fs ∧ ∀ p b, e ≠ .write p b) ∧ ∀ p d, PartEvent p d e := by
      rcases h5 with rfl | ⟨o, rfl⟩
      · simp
      · simp [applyEvent, PartEvent]
    cases h6 with
    | notFetched => exact .inl (nochange _ (by
        intro e he
        rcases List.mem_append.1 he with he | he
        · exact (hpre e he).1
        · simp at he; subst he; simp [applyEvent]) hc)
    | mismatch => exact .inl (nochange _ (by
        intro e he
        rcases List.mem_append.1 he with he | he
        · exact (hpre e he).1
        · simp at he; subst he; simp [applyEvent]) hc)
    | uncached hm => exact .inl (nochange _ (by
        intro e he
        rcases List.mem_append.1 he with he | he
        · exact (hpre e he).1
        · simp at he; subst he; simp [applyEvent]) hc)
    | notOpened hm => exact .inl (nochange _ (by
        intro e he
        rcases List.mem_append.1 he with he | he
        · exact (hpre e he).1
        · simp at he; rcases he with rfl | rfl <;> simp [applyEvent]) hc)
    | @notWritten data e n hm =>
      refine .inr ⟨p, data, h2, hm, partOf_crash ?_ hc⟩
      intro e he
      rcases List.mem_append.1 he with he | he
      · exact (hpre e he).2 _ _
      · simp at he; rcases he with rfl | rfl | rfl
        · trivial
        · rfl
        · exact ⟨rfl, n, rfl⟩
    | @stored data hm =>
      refine .inr ⟨p, data, h2, hm, partOf_crash ?_ hc⟩
      intro e he
      rcases List.mem_append.1 he with he | he
      · exact (hpre e he).2 _ _
      · simp at he; rcases he with rfl | rfl | rfl
        · trivial
        · rfl
        · exact ⟨rfl, data.length, by simp⟩

/-- C49: whatever state of the disk an interrupted `DownloadTarget` (or anything else) left behind, a later `FindCachedTarget` by any process returns either nothing or
bytes that are the content of the file and match. -/
theorem C49_interrupted {y : Ctx} {tf : TargetFiles} {s s' : St} {given path : Str} {data : Bytes} (hf : findCachedTarget y tf given s = (.ok (path, data), s')) :
    path = [] ∨ (s.world.fs path = some data ∧ TargetMatches y.env tf data) := by
  by_cases hp : path = []
  · exact .inl hp
  · exact .inr (C44_matching hf hp).2

end

/-! ## Concrete cases -/

namespace Sample

/-- The info of target `f` in the sample repository. -/
def infoF : TargetFiles := { length := 2, hashes := some [(b!"sha256", digest [7, 7])], path := b!"f" }
/-- A repository whose target `f` is listed without hashes, and a server that sends the given bytes for it. -/
def noHashRepo (bytes : Bytes) : Ctx :=
  let g := graph [(TARGETS, delegatingDoc [(b!"f", .obj [(b!"length", .num 2)])] [])]
  { g with host := hostOf (fun url => if url = b!"u/targets/f" then .ok bytes else g.host.fetch [] url 0) }
/-- Look up and download a target. -/
def lookup (x : Ctx) (path : Str) : M (Str × Bytes) := getTargetInfo x path >>= fun o =>
  match o with
  | some tf => downloadTarget x tf [] []
  | none => SM.panic
/-- A server that sends other bytes for `f`. -/
def evil : Ctx := { ctx with host := hostOf (fun url => if url = b!"u/targets/f" then .ok [6, 6] else server url) }

end Sample

/-- Download, then find in the cache; a wrong answer is refused; an interrupted download is not found. -/
example : (session ctx [] (refresh ctx >>= fun _ => downloadTarget ctx infoF [] [])).1 = .ok (b!"t/f", [7, 7]) ∧
    fileAt (session ctx [] (refresh ctx >>= fun _ => downloadTarget ctx infoF [] [])).2 b!"t/f" = some [7, 7] ∧
    (session ctx [] (downloadTarget ctx infoF [] [] >>= fun _ => findCachedTarget ctx infoF [])).1 = .ok (b!"t/f", [7, 7]) ∧
    isErr (session evil [] (downloadTarget evil infoF [] [])).1 = true ∧
    (session ctx [(b!"t/f", [7])] (findCachedTarget ctx infoF [])).1 = .ok ([], []) := by decide +kernel

/-- The negation of C45: signed metadata may list a target without hashes, and then any bytes of that length are accepted. -/
theorem C45_false : (session (noHashRepo [7, 7]) [] (lookup (noHashRepo [7, 7]) b!"f")).1 = .ok (b!"t/f", [7, 7]) ∧
    (session (noHashRepo [6, 6]) [] (lookup (noHashRepo [6, 6]) b!"f")).1 = .ok (b!"t/f", [6, 6]) := by decide +kernel

/-- The negation of C46: for `a/b/c` the hash goes before `b`. -/
theorem C46_false : prefixedPath b!"a/b/c" b!"00" = b!"a/00.b/c" ∧ ¬ PrefixedName b!"a/b/c" b!"00" b!"a/00.b/c" ∧
    urls (session { ctx with cfg := { cfg with prefixTargetsWithHash := true } } []
      (downloadTarget { ctx with cfg := { cfg with prefixTargetsWithHash := true } } { length := 2, hashes := some [(b!"sha256", [0])], path := b!"a/b/c" } [] [])).2 =
        [b!"u/targets/a/00.b/c"] := by
  refine ⟨by decide +kernel, ?_, by decide +kernel⟩
  rintro ⟨dir, name, h1, h2, h3, h4⟩
  have hl : dir.length + name.length = 5 := by rw [← List.length_append, ← h1]; rfl
  have e1 : dir = (b!"a/b/c").take dir.length := by rw [h1, List.take_left]
  have e2 : name = (b!"a/b/c").drop dir.length := by rw [h1, List.drop_left]
  generalize dir.length = n at e1 e2 hl
  have hn : n ≤ 5 := by omega
  subst e1 e2
  revert h2 h3 h4
  clear h1 hl
  revert n
  decide +kernel

end Tuf
