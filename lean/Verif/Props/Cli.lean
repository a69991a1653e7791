import Verif.Spec.Cli
import Verif.Props.Sound
import Verif.Props.Parsing

/-!
# The command line client: `get`

All hosts (network answers, disk errors, user), flags and targets.
-/

namespace Tuf
open Spec Sample

variable {env : Env} {h : CliHost} {a : CliArgs} {target : Str}

theorem onFiles_ok {α : Type} {m : W α} {s s' : CliSt} {r : α} (hm : onFiles m s = (.ok r, s')) : ∃ w, m s.world = (.ok r, w) ∧ s' = { s with world := w } := by
  unfold onFiles at hm
  rcases hr : m s.world with ⟨r', w⟩
  rw [hr] at hm
  cases hm
  exact ⟨w, rfl, rfl⟩

theorem onFiles_apply {α : Type} (m : W α) (s : CliSt) : onFiles m s = ((m s.world).1, { s with world := (m s.world).2 }) := rfl

theorem getwd_ok {s s' : CliSt} {d : Str} (hg : getwd h s = (.ok d, s')) : h.cwd s.world.trace = some d ∧ s' = s := by
  unfold getwd at hg
  cases hc : h.cwd s.world.trace with
  | none => rw [hc] at hg; cases hg
  | some d' => rw [hc] at hg; cases hg; exact ⟨rfl, rfl⟩

theorem getwd_snd (s : CliSt) : (getwd h s).2 = s := by
  unfold getwd
  split <;> rfl

theorem statFolder_snd (p : Str) (s : CliSt) : (statFolder h p s).2 = s := by
  unfold statFolder
  split <;> rfl

theorem statFile_snd (p : Str) (s : CliSt) : (statFile h p s).2 = s := by
  unfold statFile
  split <;> rfl

theorem bind_snd {σ α β : Type} {m : SM σ α} {f : α → SM σ β} {s : σ} (h1 : (m s).2 = s) (h2 : ∀ b, (f b s).2 = s) : ((m >>= f) s).2 = s := by
  rw [SM.bind_apply]
  rcases hm : m s with ⟨r, s1⟩
  rw [hm] at h1
  cases h1
  cases r with
  | ok b => exact h2 b
  | err e => rfl
  | panic => rfl

theorem verifyEnv_snd (s : CliSt) : (verifyEnv h s).2 = s := by
  unfold verifyEnv
  exact bind_snd (getwd_snd s) (fun cwd => bind_snd (statFolder_snd _ s) (fun _ => bind_snd (statFolder_snd _ s) (fun _ => bind_snd (statFile_snd _ s) (fun _ => rfl))))

theorem verifyEnv_ok {s s' : CliSt} {d : Str} (hv : verifyEnv h s = (.ok d, s')) : h.cwd s.world.trace = some d ∧ s' = s := by
  have h2 := verifyEnv_snd (h := h) s
  rw [hv] at h2
  refine ⟨?_, h2⟩
  unfold verifyEnv at hv
  obtain ⟨cwd, s1, h1, hv⟩ := SM.bind_eq_ok.1 hv
  obtain ⟨_, s2, _, hv⟩ := SM.bind_eq_ok.1 hv
  obtain ⟨_, s3, _, hv⟩ := SM.bind_eq_ok.1 hv
  obtain ⟨_, s4, _, hv⟩ := SM.bind_eq_ok.1 hv
  cases hv
  exact (getwd_ok h1).1

/-- The configuration of `get`. -/
structure CliCfg (cwd : Str) (rootBytes : Bytes) (cfg : Cfg) : Prop where
  root : cfg.localTrustedRoot = rootBytes
  metadata : cfg.localMetadataDir = metadataFolder cwd
  targets : cfg.localTargetsDir = downloadFolder cwd
  cache : cfg.disableLocalCache = false
  online : cfg.unsafeLocalMode = false

theorem cliConfig_ok {cwd : Str} {rootBytes : Bytes} {cfg : Cfg} (hc : cliConfig env a cwd rootBytes = .ok cfg) : CliCfg cwd rootBytes cfg := by
  unfold cliConfig Cfg.new at hc
  obtain ⟨c, h1, h2⟩ := Res.bind_eq_ok.1 hc
  split at h1
  · cases h1
  · cases h1
    cases h2
    exact ⟨rfl, rfl, rfl, rfl, rfl⟩

theorem readFile_ok {h : Host} {p : Str} {w w' : World} {b : Bytes} (hr : readFile h p w = (.ok b, w')) :
    w.fs p = some b ∧ h.readFails w.trace p = false ∧ w' = w.emit (.read p (some b)) := by
  unfold readFile at hr
  simp only at hr
  split at hr
  · next b' hb =>
    cases hr
    split at hb
    · cases hb
    · next hf => exact ⟨hb, by simpa using hf, by rw [if_neg hf, hb]⟩
  · cases hr

/-- The parts of a successful `get`. -/
theorem getCmd_parts {s s' : CliSt} {r : GetResult} (hg : getCmd env h a target s = (.ok r, s')) :
    ∃ cwd d cfg w, h.cwd s.world.trace = some cwd ∧ s.world.fs (anchorFile cwd) = some d ∧ CliCfg cwd d cfg ∧
      withUpdater ⟨env, h.toHost, cfg⟩ target (s.world.emit (.read (anchorFile cwd) (some d))) = (.ok r, w) ∧ s' = { s with world := w } := by
  unfold getCmd at hg
  split at hg
  · cases hg
  · obtain ⟨cwd, s1, h1, hg⟩ := SM.bind_eq_ok.1 hg
    obtain ⟨d, s2, h2, hg⟩ := SM.bind_eq_ok.1 hg
    obtain ⟨cfg, s3, h3, hg⟩ := SM.bind_eq_ok.1 hg
    obtain ⟨c1, rfl⟩ := verifyEnv_ok h1
    obtain ⟨w1, k2, rfl⟩ := onFiles_ok h2
    obtain ⟨k3, rfl⟩ := lift_ok h3
    obtain ⟨w2, k4, rfl⟩ := onFiles_ok hg
    obtain ⟨c2, _, rfl⟩ := readFile_ok k2
    exact ⟨cwd, d, cfg, w2, c1, c2, cliConfig_ok k3, k4, rfl⟩

theorem newUpdater_root {x : Ctx} {w w' : World} {t : Trusted} (hn : newUpdater x w = (.ok t, w')) :
    Trusted.new x.env (x.host.now w.trace) x.cfg.localTrustedRoot = .ok t := by
  rcases exec_newUpdater (x := x) (w := w) with h1 | ⟨t', h1, _, h2⟩
  · unfold newUpdater at hn
    split at hn
    · cases hn
    · split at hn
      · next t' ht =>
        rw [ht]
        obtain ⟨_, _, _, hn⟩ := SM.bind_eq_ok.1 hn
        obtain ⟨_, _, _, hn⟩ := SM.bind_eq_ok.1 hn
        cases hn
        rfl
      · cases hn
      · cases hn
  · rw [hn] at h2
    rw [h2 t rfl]
    exact h1

theorem getWith_delivers {x : Ctx} {t0 : Trusted} {w : World} {now : Time} (h0 : Trusted.new x.env now x.cfg.localTrustedRoot = .ok t0) (hd : x.cfg.disableLocalCache = false)
    {s : St} {r : GetResult} (hg : getWith x target ⟨t0, w⟩ = (.ok r, s)) :
    Delivered x.env t0.root now target r.file s.world.fs ∧ ∃ tf, tf.path = target ∧ TargetPath x tf [] r.file := by
  unfold getWith at hg
  obtain ⟨_, s1, h1, hg1⟩ := SM.bind_eq_ok.1 hg
  obtain ⟨o, s2, h2, hg2⟩ := SM.bind_eq_ok.1 hg1
  obtain ⟨tf, s3, h3, hg3⟩ := SM.bind_eq_ok.1 hg2
  obtain ⟨k3, rfl⟩ := lift_ok h3
  have hs1 : Session x ⟨t0, w⟩ s1 := by
    have := Session.refl (x := x) (s := ⟨t0, w⟩) |>.step .refresh
    simp only [Api.run, h1] at this
    exact this
  have hs2 : Session x ⟨t0, w⟩ s3 := by
    have := hs1.step (.getTargetInfo target)
    simp only [Api.run, h2] at this
    exact this
  obtain ⟨tf', role, m, sn, rfl, hp, ha, hr, hm, he, _, _, hc, _⟩ := C83_end_to_end h0 hs1 h2
  cases k3
  have hroot := C11_root_rotations_partial h0 (session_history hs2).history
  have href := C20_reference_time h0 (session_history hs2).history
  have hx : ∀ file (fs : FS) data, fs file = some data → TargetMatches x.env tf data → TargetPath x tf [] file →
      Delivered x.env t0.root now target file fs ∧ ∃ tf, tf.path = target ∧ TargetPath x tf [] file := fun file fs data k1 k2 k3 =>
    ⟨⟨s3.trusted, role, m, tf, data, hroot, hc, href, ha, hr, he, hm, k1, k2⟩, tf, hp, k3⟩
  obtain ⟨⟨file, data⟩, s4, h4, hg4⟩ := SM.bind_eq_ok.1 hg3
  split at hg4
  · next hne =>
    cases hg4
    obtain ⟨k1, k2, k3⟩ := C44_matching h4 hne
    have k4 := (C44_reads_only (x := x) tf [] s3).1
    rw [h4] at k4
    exact hx _ _ data (by rw [k4]; exact k2) k3 k1
  · obtain ⟨⟨file, data⟩, s5, h5, hg5⟩ := SM.bind_eq_ok.1 hg4
    cases hg5
    obtain ⟨k1, k2, k3, _⟩ := C43_matching h5
    exact hx _ _ data (k3 hd) k1 k2

/-! ## C94 -/

/-- C94: when `get` ends well, the file it names is the one for the target in the download folder, and has exactly the bytes that authentic, complete and current metadata lists for
the target, where trust begins with the root file in the metadata folder. -/
theorem C94_get_delivers {s s' : CliSt} {r : GetResult} (hg : getCmd env h a target s = (.ok r, s')) :
    ∃ cwd d now t0, h.cwd s.world.trace = some cwd ∧ s.world.fs (anchorFile cwd) = some d ∧ Trusted.new env now d = .ok t0 ∧
      now = h.now (s.world.trace ++ [.read (anchorFile cwd) (some d)]) ∧ Delivered env t0.root now target r.file s'.world.fs ∧
      env.urlJoin (joinPath cwd b!"tuf_download") (queryEscape target) = some r.file := by
  obtain ⟨cwd, d, cfg, w, h1, h2, h3, h4, rfl⟩ := getCmd_parts hg
  unfold withUpdater at h4
  split at h4
  · next t0 w1 hn =>
    split at h4
    rename_i r' s1 hw
    cases h4
    have hnew := newUpdater_root hn
    obtain ⟨k1, tf, k2, k3⟩ := getWith_delivers hnew h3.cache hw
    have h5 := h3.root
    rw [show (Ctx.cfg ⟨env, h.toHost, cfg⟩) = cfg from rfl, h5] at hnew
    refine ⟨cwd, d, _, t0, h1, h2, hnew, rfl, k1, ?_⟩
    have h6 := h3.targets
    generalize r.file = f at k3
    cases k3 with
    | given hne => exact absurd rfl hne
    | generated _ _ hu =>
      simp only [h6, k2] at hu
      exact hu
  · cases h4
  · cases h4

/-! ## C95 -/

/-- The files that downloads may write. -/
def cliExtra (x : Ctx) : Extra := ⟨True, fun _ _ => True, fun p => ∃ path, x.env.urlJoin x.cfg.localTargetsDir (queryEscape path) = some p⟩

theorem exec_getWith {x : Ctx} {s : St} : Exec x (EventOk x (cliExtra x) (JustAccepted x.env s.trusted)) s (getWith x target s).2 := by
  have mono : ∀ {ex : Extra} {a b : St} {J : Trusted → Str → Bytes → Prop}, (∀ p, ex.file p → (cliExtra x).file p) → Exec x (EventOk x ex J) a b →
      Exec x (EventOk x (cliExtra x) J) a b :=
    fun hf he => he.mono (fun _ _ _ h => eventOk_mono (fun _ => trivial) (fun _ _ _ => trivial) hf (fun _ _ _ h => h) h)
  unfold getWith
  have e0 : Exec x (EventOk x Extra.none (JustAccepted x.env s.trusted)) s (refresh x s).2 := exec_refresh trivial .refl
  refine exec_bind (mono (fun p hp => False.elim hp) e0) (fun _ s1 h1 => ?_)
  rw [h1] at e0
  have e1 : Exec x (EventOk x Extra.none (JustAccepted x.env s.trusted)) s1 (getTargetInfo x target s1).2 := exec_getTargetInfo trivial e0.history
  refine exec_bind (mono (fun p hp => False.elim hp) e1) (fun o s2 h2 => ?_)
  refine exec_bind exec_lift (fun tf s3 h3 => ?_)
  refine exec_bind exec_findCachedTarget (fun c s4 h4 => ?_)
  split
  · exact .refl
  · refine exec_bind (mono ?_ exec_downloadTarget) (fun _ _ _ => .refl)
    intro p hp
    have hp : targetFilePath x tf [] = .ok p := hp
    unfold targetFilePath at hp
    rw [if_pos rfl] at hp
    unfold generateTargetFilePath at hp
    split at hp
    · cases hp
    · exact ⟨_, Res.ofOption_eq_ok.1 hp⟩

/-- The events of `get` after the trust anchor was read. -/
theorem exec_withUpdater {x : Ctx} {w : World} : (withUpdater x target w).2 = w ∨ ∃ t0 s', Trusted.new x.env (x.host.now w.trace) x.cfg.localTrustedRoot = .ok t0 ∧
    s'.world = (withUpdater x target w).2 ∧
    Exec x (EventOk x (cliExtra x) (fun t role data => data = x.cfg.localTrustedRoot ∨ JustAccepted x.env t0 t role data)) ⟨t0, w⟩ s' := by
  rcases exec_newUpdater (x := x) (w := w) with h | ⟨t0, h0, h1, h2⟩
  · unfold withUpdater
    rcases hn : newUpdater x w with ⟨r, w1⟩
    rw [hn] at h
    cases h
    cases r with
    | ok t =>
      exact .inr ⟨t, _, newUpdater_root hn, rfl, (exec_getWith (x := x) (target := target) (s := ⟨t, w1⟩)).mono
        (fun _ _ _ h => eventOk_mono id (fun _ _ h => h) (fun _ h => h) (fun _ _ _ h => .inr h) h)⟩
    | err e => exact .inl rfl
    | panic => exact .inl rfl
  · have e1 : Exec x (EventOk x (cliExtra x) (fun t role data => data = x.cfg.localTrustedRoot ∨ JustAccepted x.env t0 t role data)) ⟨t0, w⟩ ⟨t0, (newUpdater x w).2⟩ :=
      h1.mono (fun _ _ _ h => eventOk_mono (fun _ => trivial) (fun _ _ _ => trivial) (fun _ h => False.elim h) (fun _ _ _ h => .inl h.2.1) h)
    right
    unfold withUpdater
    rcases hn : newUpdater x w with ⟨r, w1⟩
    rw [hn] at e1 h2
    cases r with
    | ok t =>
      obtain rfl := h2 t rfl
      exact ⟨_, _, h0, rfl, e1.trans ((exec_getWith (x := x) (target := target) (s := ⟨t, w1⟩)).mono
        (fun _ _ _ h => eventOk_mono id (fun _ _ h => h) (fun _ h => h) (fun _ _ _ h => .inr h) h))⟩
    | err e => exact ⟨_, _, h0, rfl, e1⟩
    | panic => exact ⟨_, _, h0, rfl, e1⟩

theorem Spec.RootChain.trans {a b c : Metadata RootType} (h1 : RootChain env a b) (h2 : RootChain env b c) : RootChain env a c := by
  induction h2 with
  | refl => exact h1
  | step _ hr ih => exact .step ih hr

theorem accepted_anchored {now : Time} {d0 data : Bytes} {t0 t : Trusted} (h0 : Trusted.new env now d0 = .ok t0) (hj : JustAccepted env t0 t b!"root" data) :
    Anchored env t0.root data := by
  intro now' t' hn
  obtain ⟨c, before, ho, hh, _, hr⟩ := hj
  have hp := (new_root hn).1
  cases c with
  | root d =>
    obtain ⟨_, rfl⟩ := ho
    have hc := C11_root_rotations_partial h0 (hh.history.step (.root d))
    rw [hr] at hc
    rcases updateRoot_cases env before d with ⟨n, he, ha⟩ | ⟨e, he⟩ | he
    · rw [Call.run, he] at hr
      cases hr
      have h1 := ha.parsed
      rw [ParsesTo] at hp h1
      rw [hp] at h1
      cases h1
      exact hc
    · rw [Call.run, he] at hr; cases hr
    · rw [Call.run, he] at hr; cases hr
  | timestamp d => exact absurd ho.1 (by decide)
  | snapshot d b => exact absurd ho.1 (by decide)
  | targets d r q =>
    obtain ⟨rfl, rfl⟩ := ho
    rcases updateTargets_cases env before d b!"root" q with ⟨n, he, ha⟩ | ⟨e, he⟩ | he
    · obtain ⟨j, j1, doc, sg, j2, j3, j4⟩ := C19_declared (T := RootType) hp
      obtain ⟨j', k1, doc', sg', k2, k3, k4⟩ := C19_declared (T := TargetsType) ha.parsed
      rw [j1] at k1
      cases k1
      rw [j2] at k2
      cases k2
      cases j3.functional k3
      obtain ⟨t, l1, l2⟩ := j4
      obtain ⟨t', l3, l4⟩ := k4
      cases l1.functional l3
      exact absurd (IsText.functional l2 l4) (by decide)
    · rw [Call.run, he] at hr; cases hr
    · rw [Call.run, he] at hr; cases hr

theorem crash_nil {fs fs' : FS} (hc : CrashState fs [] fs') : fs' = fs := by
  obtain ⟨b, c, hbc, h⟩ := hc
  cases b with
  | nil =>
    rcases h with rfl | ⟨q, d, k, rest, rfl, _⟩
    · rfl
    · cases hbc
  | cons e l => cases hbc

/-- A crash during events that begin with a read. -/
theorem crash_read {fs fs' : FS} {p : Str} {r : Option Bytes} {evs : List Event} (hc : CrashState fs (.read p r :: evs) fs') : CrashState fs evs fs' := by
  obtain ⟨b, c, hbc, h⟩ := hc
  cases b with
  | nil =>
    rcases h with rfl | ⟨q, d, k, rest, rfl, _⟩
    · exact ⟨[], evs, rfl, .inl rfl⟩
    · cases hbc
  | cons e l =>
    injection hbc with h1 h2
    subst h1 h2
    exact ⟨l, c, rfl, h⟩

/-- What a moment of `get` leaves in the trust anchor. -/
theorem getCmd_crash {cwd : Str} {s : CliSt} {evs : List Event} (hcwd : h.cwd s.world.trace = some cwd) (hf : ∀ path, env.urlJoin (downloadFolder cwd) (queryEscape path) ≠ some (anchorFile cwd))
    (ht : (getCmd env h a target s).2.world.trace = s.world.trace ++ evs) {fs' : FS} (hc : CrashState s.world.fs evs fs') :
    fs' (anchorFile cwd) = s.world.fs (anchorFile cwd) ∨ ∃ d now t0, s.world.fs (anchorFile cwd) = some d ∧ Trusted.new env now d = .ok t0 ∧
      ∃ data, fs' (anchorFile cwd) = some data ∧ (data = d ∨ ∃ t, JustAccepted env t0 t b!"root" data) := by
  unfold getCmd at ht
  split at ht
  · have : evs = [] := by simpa [SM.throw] using ht
    subst this
    rw [crash_nil hc]
    exact .inl rfl
  · rename_i hurl
    rw [SM.bind_apply] at ht
    have hsnd := verifyEnv_snd (h := h) s
    rcases hv : verifyEnv h s with ⟨r, s1⟩
    rw [hv] at ht hsnd
    obtain rfl : s = s1 := hsnd.symm
    cases r with
    | err e =>
      have : evs = [] := by simpa using ht
      subst this
      rw [crash_nil hc]
      exact .inl rfl
    | panic =>
      have : evs = [] := by simpa using ht
      subst this
      rw [crash_nil hc]
      exact .inl rfl
    | ok cwd' =>
      obtain ⟨hcwd', _⟩ := verifyEnv_ok hv
      rw [hcwd] at hcwd'
      cases hcwd'
      simp only [SM.bind_apply, onFiles_apply] at ht
      rcases hr : readFile h.toHost (joinPath (metadataFolder cwd) b!"root.json") s.world with ⟨r, w1⟩
      rw [hr] at ht
      have hw1 : ∃ o, w1 = s.world.emit (.read (anchorFile cwd) o) := by
        have := congrArg Prod.snd hr
        dsimp only at this
        rw [← this]
        unfold readFile
        dsimp only
        split <;> exact ⟨_, rfl⟩
      obtain ⟨o, rfl⟩ := hw1
      have hone : ∀ {evs' : List Event}, s.world.trace ++ .read (anchorFile cwd) o :: evs' = s.world.trace ++ evs → CrashState s.world.fs evs' fs' := by
        intro evs' he
        have := List.append_cancel_left he
        subst this
        exact crash_read hc
      cases r with
      | err e =>
        have he : CrashState s.world.fs [] fs' := hone (by simpa [World.emit] using ht)
        rw [crash_nil he]
        exact .inl rfl
      | panic =>
        have he : CrashState s.world.fs [] fs' := hone (by simpa [World.emit] using ht)
        rw [crash_nil he]
        exact .inl rfl
      | ok d =>
        obtain ⟨hd, _, he⟩ := readFile_ok hr
        simp only [SM.lift_apply] at ht
        cases hcfg : cliConfig env a cwd d with
        | err e =>
          rw [hcfg] at ht
          have he : CrashState s.world.fs [] fs' := hone (by simpa [World.emit] using ht)
          rw [crash_nil he]
          exact .inl rfl
        | panic =>
          rw [hcfg] at ht
          have he : CrashState s.world.fs [] fs' := hone (by simpa [World.emit] using ht)
          rw [crash_nil he]
          exact .inl rfl
        | ok cfg =>
          rw [hcfg] at ht
          have hok := cliConfig_ok hcfg
          have hdir : (Ctx.cfg ⟨env, h.toHost, cfg⟩).localMetadataDir = metadataFolder cwd := hok.metadata
          have hanchor : anchorFile cwd = persistPath cfg ROOT := by
            unfold persistPath
            rw [hok.metadata]
            rfl
          rcases exec_withUpdater (x := ⟨env, h.toHost, cfg⟩) (target := target) (w := s.world.emit (.read (anchorFile cwd) o)) with k | ⟨t0, s', k1, k2, k3⟩
          · have he : CrashState s.world.fs [] fs' := hone (by
              have ht := ht
              dsimp only at ht
              rw [k] at ht
              simpa [World.emit] using ht)
            rw [crash_nil he]
            exact .inl rfl
          · obtain ⟨evs', k4, _⟩ := k3.events
            have he : CrashState s.world.fs evs' fs' := hone (by
              have ht := ht
              dsimp only at ht
              rw [← k2, k4] at ht
              simpa [World.emit] using ht)
            have hnot : ¬ TempName (anchorFile cwd) := by
              rw [hanchor]
              exact persistPath_not_temp cfg ROOT
            rcases crash_files k3 k4 he hnot (fun ⟨path, hq⟩ => hf path (by rw [← hok.targets]; exact hq)) with h3 | ⟨role, data, t', h3, h4, h5⟩
            · exact .inl h3
            · obtain rfl : ROOT = role := persistPath_inj (cfg := cfg) (hanchor.symm.trans h3)
              have hroot : (Ctx.cfg ⟨env, h.toHost, cfg⟩).localTrustedRoot = d := hok.root
              rw [hroot] at h5 k1
              exact .inr ⟨d, _, t0, hd, k1, data, h4, h5.imp id (fun h5 => ⟨t', h5⟩)⟩

/-- C95: whatever happened to the files of a client by any number of `get` commands, on any servers and disks and interrupted at any moments, a client that takes the file in the
metadata folder as its trusted root has a root that consecutive, doubly signed rotations lead to from the root with which it all began. -/
theorem C95_anchor {cwd : Str} {fs fs' : FS} {first : Metadata RootType} (hl : Later env cwd fs fs')
    (hf : ∀ path, env.urlJoin (joinPath cwd b!"tuf_download") (queryEscape path) ≠ some (anchorFile cwd)) (h0 : ∀ d, fs (anchorFile cwd) = some d → Anchored env first d) :
    ∀ d, fs' (anchorFile cwd) = some d → Anchored env first d := by
  induction hl with
  | refl => exact h0
  | other _ he ih => rw [he]; exact ih
  | get _ hs hcwd ht hc ih =>
    subst hs
    intro d hd
    rcases getCmd_crash (hcwd _) hf ht hc with k | ⟨d0, now, t0, k1, k2, data, k3, k4⟩
    · rw [k] at hd
      exact ih d hd
    · rw [k3] at hd
      cases hd
      rcases k4 with rfl | ⟨t, k4⟩
      · exact ih _ k1
      · intro now' t' hn
        exact (ih d0 k1 now t0 k2).trans (accepted_anchored k2 k4 now' t' hn)

/-- C95, end to end: whatever happened before, a target that `get` delivers is authenticated by a chain of trust from the root with which it all began. -/
theorem C95_get_delivers {cwd : Str} {fs : FS} {d0 : Bytes} {now0 : Time} {t0 : Trusted} {s s' : CliSt} {r : GetResult} (h0 : fs (anchorFile cwd) = some d0)
    (hn : Trusted.new env now0 d0 = .ok t0) (hl : Later env cwd fs s.world.fs)
    (hf : ∀ path, env.urlJoin (joinPath cwd b!"tuf_download") (queryEscape path) ≠ some (anchorFile cwd)) (hcwd : h.cwd s.world.trace = some cwd)
    (hg : getCmd env h a target s = (.ok r, s')) :
    ∃ now, Delivered env t0.root now target r.file s'.world.fs := by
  obtain ⟨cwd', d, now, t1, k1, k2, k3, _, ⟨t, role, m, tf, data, k4, k5⟩, _⟩ := C94_get_delivers hg
  rw [hcwd] at k1
  cases k1
  refine ⟨now, t, role, m, tf, data, RootChain.trans (C95_anchor hl hf ?_ d k2 now t1 k3) k4, k5⟩
  intro d' hd'
  rw [h0] at hd'
  cases hd'
  intro now' t' hn'
  have h1 := (new_root hn').1
  have h2 := (new_root hn).1
  rw [ParsesTo] at h1 h2
  rw [h1] at h2
  rw [← Res.ok.inj h2]
  exact .refl

end Tuf
