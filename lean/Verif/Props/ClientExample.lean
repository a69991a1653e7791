import Verif.Spec.ClientExample
import Verif.Props.CliInit

/-!
# The example client with trust on first use: property C124

All hosts (network answers, disk errors), URLs and targets.
-/

namespace Tuf
open Spec Sample

/-! ## Crashes of code in sequence -/

theorem crash_append {fs fs' : FS} {a b : List Event} (hc : CrashState fs (a ++ b) fs') : CrashState fs a fs' ∨ CrashState (replay fs a) b fs' := by
  obtain ⟨before, after, he, h⟩ := hc
  rcases List.append_eq_append_iff.1 he with ⟨l, rfl, rfl⟩ | ⟨l, rfl, rfl⟩
  · right
    refine ⟨l, after, rfl, ?_⟩
    rcases h with rfl | ⟨p, d, k, rest, h1, rfl⟩
    · left; rw [replay_append]
    · right; exact ⟨p, d, k, rest, h1, by rw [List.append_assoc, replay_append]⟩
  · rcases h with rfl | ⟨p, d, k, rest, h1, rfl⟩
    · left; exact ⟨before, l, rfl, .inl rfl⟩
    · cases l with
      | nil =>
        right
        rw [List.append_nil]
        exact ⟨[], b, rfl, .inr ⟨p, d, k, rest, h1, by rw [replay_append]; rfl⟩⟩
      | cons e l =>
        injection h1 with h1 h2
        subst h1
        left
        exact ⟨before, _, rfl, .inr ⟨p, d, k, l, rfl, rfl⟩⟩

/-- Events that leave the files alone. -/
theorem crash_idle {fs fs' : FS} {evs : List Event} (hi : ∀ e ∈ evs, (∃ p r, e = .read p r) ∨ ∃ p b, e = .mkdir p b) (hc : CrashState fs evs fs') : fs' = fs := by
  induction evs with
  | nil => exact crash_nil hc
  | cons e l ih =>
    have : replay fs [e] = fs := by
      rcases hi e (.head _) with ⟨p, r, rfl⟩ | ⟨p, b, rfl⟩ <;> rfl
    rcases crash_append (a := [e]) (b := l) hc with h | h
    · obtain ⟨b, c, hbc, h⟩ := h
      cases b with
      | nil =>
        rcases h with rfl | ⟨q, d, k, rest, rfl, _⟩
        · rfl
        · injection hbc with h1 h2
          rcases hi e (.head _) with ⟨p, r, rfl⟩ | ⟨p, b, rfl⟩ <;> cases h1
      | cons f b =>
        injection hbc with h1 h2
        subst h1
        have := List.append_eq_nil_iff.1 h2.symm
        obtain ⟨rfl, rfl⟩ := this
        rcases h with rfl | ⟨q, d, k, rest, h, _⟩
        · exact this
        · cases h
    · rw [this] at h
      exact ih (fun e he => hi e (.tail _ he)) h

/-! ## Updaters for one purpose -/

theorem exec_usingUpdater {x : Ctx} {α : Type} {use : M α} {file : St → Str → Prop}
    (hu : ∀ s, Exec x (EventOk x ⟨True, fun _ _ => True, file s⟩ (JustAccepted x.env s.trusted)) s (use s).2) {w : World} :
    (usingUpdater x use w).2 = w ∨ ∃ t0 w1 s', Trusted.new x.env (x.host.now w.trace) x.cfg.localTrustedRoot = .ok t0 ∧
    s'.world = (usingUpdater x use w).2 ∧
    Exec x (EventOk x ⟨True, fun _ _ => True, file ⟨t0, w1⟩⟩ (fun t role data => data = x.cfg.localTrustedRoot ∨ JustAccepted x.env t0 t role data)) ⟨t0, w⟩ s' := by
  rcases exec_newUpdater (x := x) (w := w) with h | ⟨t0, h0, h1, h2⟩
  · unfold usingUpdater
    rcases hn : newUpdater x w with ⟨r, w1⟩
    rw [hn] at h
    cases h
    cases r with
    | ok t =>
      exact .inr ⟨t, _, _, newUpdater_root hn, rfl, (hu ⟨t, w1⟩).mono
        (fun _ _ _ h => eventOk_mono id (fun _ _ h => h) (fun _ h => h) (fun _ _ _ h => .inr h) h)⟩
    | err e => exact .inl rfl
    | panic => exact .inl rfl
  · have e1 : Exec x (EventOk x ⟨True, fun _ _ => True, file ⟨t0, (newUpdater x w).2⟩⟩ (fun t role data => data = x.cfg.localTrustedRoot ∨ JustAccepted x.env t0 t role data)) ⟨t0, w⟩ ⟨t0, (newUpdater x w).2⟩ :=
      h1.mono (fun _ _ _ h => eventOk_mono (fun _ => trivial) (fun _ _ _ => trivial) (fun _ h => False.elim h) (fun _ _ _ h => .inl h.2.1) h)
    right
    unfold usingUpdater
    rcases hn : newUpdater x w with ⟨r, w1⟩
    rw [hn] at e1 h2
    cases r with
    | ok t =>
      obtain rfl := h2 t rfl
      exact ⟨_, _, _, h0, rfl, e1.trans ((hu ⟨t, w1⟩).mono
        (fun _ _ _ h => eventOk_mono id (fun _ _ h => h) (fun _ h => h) (fun _ _ _ h => .inr h) h))⟩
    | err e => exact ⟨_, _, _, h0, rfl, e1⟩
    | panic => exact ⟨_, _, _, h0, rfl, e1⟩

theorem usingUpdater_ok {x : Ctx} {α : Type} {use : M α} {w w' : World} {r : α} (hr : usingUpdater x use w = (.ok r, w')) :
    ∃ t0 w1 s, newUpdater x w = (.ok t0, w1) ∧ Trusted.new x.env (x.host.now w.trace) x.cfg.localTrustedRoot = .ok t0 ∧ use ⟨t0, w1⟩ = (.ok r, s) ∧ w' = s.world := by
  unfold usingUpdater at hr
  split at hr
  · next t0 w1 hn =>
    split at hr
    rename_i r' s1 hw
    cases hr
    exact ⟨t0, w1, s1, hn, newUpdater_root hn, hw, rfl⟩
  · cases hr
  · cases hr

variable {env : Env} {h : CliHost} {u : DemoURLs} {target dir : Str}

/-! ## The parts of the program -/

theorem demoConfig_ok {rootBytes : Bytes} {cfg : Cfg} (hc : demoConfig env u dir rootBytes = .ok cfg) :
    cfg.localTrustedRoot = rootBytes ∧ cfg.localMetadataDir = dir ∧ cfg.localTargetsDir = joinPath dir b!"download" ∧ cfg.disableLocalCache = false := by
  unfold demoConfig Cfg.new at hc
  obtain ⟨c, h1, h2⟩ := Res.bind_eq_ok.1 hc
  split at h1
  · cases h1
  · cases h1
    cases h2
    exact ⟨rfl, rfl, rfl, rfl⟩

theorem demoGet_delivers {x : Ctx} {t0 : Trusted} {w : World} {now : Time} (h0 : Trusted.new x.env now x.cfg.localTrustedRoot = .ok t0) (hd : x.cfg.disableLocalCache = false)
    {s : St} {file : Str} (hg : demoGet x target ⟨t0, w⟩ = (.ok file, s)) :
    Delivered x.env t0.root now target file s.world.fs ∧ ∃ tf, tf.path = target ∧ TargetPath x tf [] file := by
  unfold demoGet at hg
  obtain ⟨_, s1, h1, hg1⟩ := SM.bind_eq_ok.1 hg
  obtain ⟨o, s2, h2, hg2⟩ := SM.bind_eq_ok.1 hg1
  obtain ⟨tf, s3, h3, hg3⟩ := SM.bind_eq_ok.1 hg2
  obtain ⟨k3, rfl⟩ := lift_ok h3
  have hs1 : Session x ⟨t0, w⟩ s1 := by
    have := Session.refl (x := x) (s := ⟨t0, w⟩) |>.step .refresh
    simp only [Api.run, h1] at this
    exact this
  have hs2 : Session x ⟨t0, w⟩ s3 := by
    have := hs1.step (.getTargetInfo target)
    simp only [Api.run, h2] at this
    exact this
  obtain ⟨tf', role, m, sn, rfl, hp, ha, hr, hm, he, _, _, hc, _⟩ := C83_end_to_end h0 hs1 h2
  cases k3
  have hroot := C11_root_rotations_partial h0 (session_history hs2).history
  have href := C20_reference_time h0 (session_history hs2).history
  obtain ⟨_, s4, h4, hg4⟩ := SM.bind_eq_ok.1 hg3
  obtain ⟨⟨file', data⟩, s5, h5, hg5⟩ := SM.bind_eq_ok.1 hg4
  cases hg5
  obtain ⟨k1, k2, k3, _⟩ := C43_matching h5
  exact ⟨⟨s3.trusted, role, m, tf, data, hroot, hc, href, ha, hr, he, hm, k3 hd, k1⟩, tf, hp, k2⟩

theorem exec_demoGet {x : Ctx} (s : St) :
    Exec x (EventOk x ⟨True, fun _ _ => True, fun p => ∃ path, x.env.urlJoin x.cfg.localTargetsDir (queryEscape path) = some p⟩ (JustAccepted x.env s.trusted)) s (demoGet x target s).2 := by
  have mono : ∀ {ex : Extra} {a b : St} {J : Trusted → Str → Bytes → Prop}, (∀ p, ex.file p → ∃ path, x.env.urlJoin x.cfg.localTargetsDir (queryEscape path) = some p) →
      Exec x (EventOk x ex J) a b → Exec x (EventOk x ⟨True, fun _ _ => True, fun p => ∃ path, x.env.urlJoin x.cfg.localTargetsDir (queryEscape path) = some p⟩ J) a b :=
    fun hf he => he.mono (fun _ _ _ h => eventOk_mono (fun _ => trivial) (fun _ _ _ => trivial) hf (fun _ _ _ h => h) h)
  unfold demoGet
  have e0 : Exec x (EventOk x Extra.none (JustAccepted x.env s.trusted)) s (refresh x s).2 := exec_refresh trivial .refl
  refine exec_bind (mono (fun p hp => False.elim hp) e0) (fun _ s1 h1 => ?_)
  rw [h1] at e0
  have e1 : Exec x (EventOk x Extra.none (JustAccepted x.env s.trusted)) s1 (getTargetInfo x target s1).2 := exec_getTargetInfo trivial e0.history
  refine exec_bind (mono (fun p hp => False.elim hp) e1) (fun o s2 h2 => ?_)
  refine exec_bind exec_lift (fun tf s3 h3 => ?_)
  refine exec_bind exec_findCachedTarget (fun c s4 h4 => ?_)
  refine exec_bind (mono ?_ exec_downloadTarget) (fun _ _ _ => .refl)
  intro p hp
  have hp : targetFilePath x tf [] = .ok p := hp
  unfold targetFilePath at hp
  rw [if_pos rfl] at hp
  unfold generateTargetFilePath at hp
  split at hp
  · cases hp
  · exact ⟨_, Res.ofOption_eq_ok.1 hp⟩

/-- The folder is determined and the files are as before. -/
theorem demo_init (s : CliSt) : ∃ s1 d, SM.try' (initEnvironment h) s = (.ok d, s1) ∧ DemoFolder (h.cwd s.world.trace) (demoDir d) ∧ s1.world.fs = s.world.fs ∧
    ∃ evs, s1.world.trace = s.world.trace ++ evs ∧ ∀ e ∈ evs, ∃ p b, e = .mkdir p b := by
  have hmk : ∀ p (s : CliSt), ∃ s1 r, SM.try' (mkdir h p) s = (.ok r, s1) ∧ s1.world.fs = s.world.fs ∧ ∃ e, s1.world.trace = s.world.trace ++ [e] ∧ ∃ p b, e = .mkdir p b := by
    intro p s
    unfold SM.try' mkdir
    split
    · next hh => split at hh <;> cases hh; exact ⟨_, _, rfl, rfl, _, rfl, _, _, rfl⟩
    · next hh => split at hh <;> cases hh; exact ⟨_, _, rfl, rfl, _, rfl, _, _, rfl⟩
    · next hh => split at hh <;> cases hh
  cases hc : h.cwd s.world.trace with
  | none =>
    refine ⟨s, .error ioErr, ?_, .missing, rfl, [], by simp, by simp⟩
    refine SM.try_err ?_
    unfold initEnvironment
    refine SM.bind_err ?_
    unfold getwd
    rw [hc]
  | some cwd =>
    obtain ⟨s1, r1, m1, m2, e1, m3, m4⟩ := hmk (joinPath cwd b!"tmp") s
    obtain ⟨s2, r2, n1, n2, e2, n3, n4⟩ := hmk (joinPath (joinPath cwd b!"tmp") b!"download") s1
    refine ⟨s2, .ok (joinPath cwd b!"tmp"), ?_, .found, n2.trans m2, [e1, e2], by rw [n3, m3]; simp, ?_⟩
    · refine SM.try_ok ?_
      unfold initEnvironment
      rw [SM.bind_ok (show getwd h s = (.ok cwd, s) by unfold getwd; rw [hc]), SM.bind_ok m1, SM.bind_ok n1]
      rfl
    · intro e he
      rcases List.mem_cons.1 he with rfl | he
      · exact m4
      · rcases List.mem_cons.1 he with rfl | he
        · exact n4
        · cases he

theorem demo_stat {s : CliSt} {d : Bytes} (hd : s.world.fs (demoAnchor dir) = some d) (hs : h.statFails s.world.trace (demoAnchor dir) = false) :
    trustOnFirstUse env h u dir s = (.ok (), s) := by
  unfold trustOnFirstUse
  have : statFile h (joinPath dir b!"root.json") s = (.ok (), s) := by
    unfold statFile
    rw [show s.world.fs (joinPath dir b!"root.json") = some d from hd, show h.statFails s.world.trace (joinPath dir b!"root.json") = false from hs]
    rfl
  rw [SM.bind_ok (SM.try_ok this)]
  rfl

theorem writeFile_leaves {h : Host} {p : Str} {data : Bytes} {w w' : World} {r : Res Unit} (hw : writeFile h p data w = (r, w')) :
    r ≠ .panic ∧ (∃ evs, w'.trace = w.trace ++ evs ∧ w'.fs = replay w.fs evs) ∧ (w'.fs p = w.fs p ∨ ∃ d, d <+: data ∧ w'.fs p = some d) := by
  unfold writeFile at hw
  split at hw
  · cases hw; exact ⟨by simp, ⟨_, rfl, rfl⟩, .inl rfl⟩
  · dsimp only at hw
    split at hw
    · cases hw
      exact ⟨by simp, ⟨[_, _], by simp [World.emit]; exact ⟨rfl, rfl⟩, rfl⟩, .inr ⟨_, List.take_prefix _ _, if_pos rfl⟩⟩
    · cases hw
      exact ⟨by simp, ⟨[_, _], by simp [World.emit]; exact ⟨rfl, rfl⟩, rfl⟩, .inr ⟨_, List.take_prefix _ _, if_pos rfl⟩⟩

/-- What the first use leaves as trust anchor: the old one, or what the server sent, or the beginning of that. -/
theorem demo_first {s s' : CliSt} {r : Res Unit} (hr : trustOnFirstUse env h u dir s = (r, s')) :
    r ≠ .panic ∧ (∃ evs, s'.world.trace = s.world.trace ++ evs ∧ s'.world.fs = replay s.world.fs evs) ∧
    (s'.world.fs (demoAnchor dir) = s.world.fs (demoAnchor dir) ∨ ((s.world.fs (demoAnchor dir) = none ∨ h.statFails s.world.trace (demoAnchor dir) = true) ∧
      ∃ url data d, env.urlJoin u.metadata b!"1.root.json" = some url ∧ h.httpGet s.world.trace url = .ok data ∧ d <+: data ∧ s'.world.fs (demoAnchor dir) = some d)) := by
  cases hst : (s.world.fs (demoAnchor dir)).isSome && !h.statFails s.world.trace (demoAnchor dir) with
  | true =>
    rw [Bool.and_eq_true, Bool.not_eq_true'] at hst
    obtain ⟨d, hd⟩ := Option.isSome_iff_exists.1 hst.1
    rw [demo_stat hd hst.2] at hr
    cases hr
    exact ⟨by simp, ⟨[], by simp, rfl⟩, .inl rfl⟩
  | false =>
    have hno : s.world.fs (demoAnchor dir) = none ∨ h.statFails s.world.trace (demoAnchor dir) = true := by
      rw [Bool.and_eq_false_iff] at hst
      rcases hst with hst | hst
      · left; simpa using hst
      · right; simpa using hst
    unfold trustOnFirstUse at hr
    have : statFile h (joinPath dir b!"root.json") s = (.err ioErr, s) := by
      unfold statFile
      rw [show ((s.world.fs (joinPath dir b!"root.json")).isSome && !h.statFails s.world.trace (joinPath dir b!"root.json")) = false from hst]
      rfl
    rw [SM.bind_ok (SM.try_err this)] at hr
    dsimp only at hr
    cases hu : env.urlJoin u.metadata b!"1.root.json" with
    | none =>
      rw [hu, SM.bind_err (show SM.lift (Res.ofOption (Err.other "url") (none : Option Str)) s = (.err _, s) from rfl)] at hr
      cases hr
      exact ⟨by simp, ⟨[], by simp, rfl⟩, .inl rfl⟩
    | some url =>
      rw [hu, SM.bind_ok (show SM.lift (Res.ofOption (Err.other "url") (some url)) s = (.ok url, s) from rfl)] at hr
      cases hg : h.httpGet s.world.trace url with
      | error e =>
        have : onFiles (plainGet h url) s = (.err e, { s with world := s.world.emit (.fetch url (-1) (.error e)) }) := by
          rw [onFiles_apply]; unfold plainGet; rw [hg]
        rw [SM.bind_err this] at hr
        cases hr
        exact ⟨by simp, ⟨[_], rfl, rfl⟩, .inl rfl⟩
      | ok data =>
        have : onFiles (plainGet h url) s = (.ok data, { s with world := s.world.emit (.fetch url (-1) (.ok data)) }) := by
          rw [onFiles_apply]; unfold plainGet; rw [hg]
        rw [SM.bind_ok this, onFiles_apply] at hr
        cases hr
        obtain ⟨k1, ⟨evs, k2, k3⟩, k4⟩ := writeFile_leaves (h := h.toHost) (p := demoAnchor dir) (data := data) (w := s.world.emit (.fetch url (-1) (.ok data))) (r := _) (w' := _) rfl
        refine ⟨k1, ⟨.fetch url (-1) (.ok data) :: evs, ?_, k3⟩, ?_⟩
        · exact k2.trans (by simp [World.emit])
        · rcases k4 with k4 | ⟨d, k4, k5⟩
          · exact .inl k4
          · exact .inr ⟨hno, url, data, d, rfl, hg, k4, k5⟩

theorem demoDownload_ok {w w' : World} {file : Str} (hd : demoDownload env h u dir target w = (.ok file, w')) :
    ∃ d now t0, w.fs (demoAnchor dir) = some d ∧ Trusted.new env now d = .ok t0 ∧ Delivered env t0.root now target file w'.fs ∧
      env.urlJoin (joinPath dir b!"download") (queryEscape target) = some file := by
  unfold demoDownload at hd
  obtain ⟨d, w1, h1, hd1⟩ := SM.bind_eq_ok.1 hd
  obtain ⟨cfg, w2, h2, hd2⟩ := SM.bind_eq_ok.1 hd1
  obtain ⟨h3, rfl⟩ := lift_ok h2
  obtain ⟨k1, _, rfl⟩ := readFile_ok h1
  obtain ⟨c1, c2, c3, c4⟩ := demoConfig_ok h3
  obtain ⟨t0, w3, s, _, k2, k3, rfl⟩ := usingUpdater_ok hd2
  obtain ⟨k4, tf, k5, k6⟩ := demoGet_delivers k2 c4 k3
  rw [show (Ctx.cfg ⟨env, h.toHost, cfg⟩) = cfg from rfl, c1] at k2
  refine ⟨d, _, t0, k1, k2, k4, ?_⟩
  cases k6 with
  | given hne => exact absurd rfl hne
  | generated _ _ hu =>
    simp only [c3, k5] at hu
    exact hu

/-! ## C124 -/

/-- The stages of a run. -/
theorem demo_stages (s : CliSt) : ∃ dir s1 s2 evs1 evs2, DemoFolder (h.cwd s.world.trace) dir ∧ s1.world.fs = s.world.fs ∧ s1.world.trace = s.world.trace ++ evs1 ∧
    (∀ e ∈ evs1, ∃ p b, e = .mkdir p b) ∧ (∃ r, trustOnFirstUse env h u dir s1 = (r, s2)) ∧ s2.world.trace = s1.world.trace ++ evs2 ∧ s2.world.fs = replay s1.world.fs evs2 ∧
    demoMain env h u target s = SM.try' (onFiles (demoDownload env h u dir target)) s2 := by
  obtain ⟨s1, o, k1, k2, k3, evs1, k4, k5⟩ := demo_init (h := h) s
  rcases ht : trustOnFirstUse env h u (demoDir o) s1 with ⟨r, s2⟩
  obtain ⟨m1, ⟨evs2, m2, m3⟩, _⟩ := demo_first ht
  refine ⟨demoDir o, s1, s2, evs1, evs2, k2, k3, k4, k5, ⟨_, ht⟩, m2, m3, ?_⟩
  unfold demoMain
  rw [SM.bind_ok k1]
  cases r with
  | ok a => rw [SM.bind_ok (SM.try_ok ht)]
  | err e => rw [SM.bind_ok (SM.try_err ht)]
  | panic => exact absurd rfl m1

/-- C124: when a run delivers a target, the file is the one for the target in the download folder and has exactly the bytes that authentic, complete and current metadata lists for it. Trust
begins with the root file that was there before the run; only if there was none, or asking for it failed, with what the server has as first root. -/
theorem C124_delivers {s s' : CliSt} {file : Str} (hm : demoMain env h u target s = (.ok (.ok file), s')) :
    ∃ dir d now t0, DemoFolder (h.cwd s.world.trace) dir ∧ Trusted.new env now d = .ok t0 ∧ Delivered env t0.root now target file s'.world.fs ∧
      env.urlJoin (joinPath dir b!"download") (queryEscape target) = some file ∧
      (s.world.fs (demoAnchor dir) = some d ∨ ((s.world.fs (demoAnchor dir) = none ∨ ∃ tr, h.statFails tr (demoAnchor dir) = true) ∧
        ∃ url tr data, env.urlJoin u.metadata b!"1.root.json" = some url ∧ h.httpGet tr url = .ok data ∧ d <+: data)) := by
  obtain ⟨dir, s1, s2, evs1, evs2, k1, k2, _, _, ⟨r, k3⟩, _, _, k4⟩ := demo_stages (env := env) (h := h) (u := u) (target := target) s
  rw [k4] at hm
  rcases SM.try_eq_ok.1 hm with ⟨v, hv, h1⟩ | ⟨e, he, _⟩
  · cases hv
    obtain ⟨w, h2, rfl⟩ := onFiles_ok h1
    obtain ⟨d, now, t0, m1, m2, m3, m4⟩ := demoDownload_ok h2
    refine ⟨dir, d, now, t0, k1, m2, m3, m4, ?_⟩
    rcases (demo_first k3).2.2 with n | ⟨n1, url, data, d', n2, n3, n4, n5⟩
    · left; rw [← k2, ← n, m1]
    · right
      rw [m1] at n5
      cases n5
      rw [k2] at n1
      exact ⟨n1.imp id (fun h => ⟨_, h⟩), url, _, data, n2, n3, n4⟩
  · cases he

theorem demoFolder_unique {o : Option Str} {a b : Str} (ha : DemoFolder o a) (hb : DemoFolder o b) : a = b := by
  cases ha <;> cases hb <;> rfl

theorem readFile_emits (h : Host) (p : Str) (w : World) : ∃ o, (readFile h p w).2 = w.emit (.read p o) := by
  unfold readFile
  dsimp only
  split <;> exact ⟨_, rfl⟩

/-- What a moment of the download leaves in the trust anchor. -/
theorem demoDownload_crash {w : World} {evs : List Event} (hf : ∀ path, env.urlJoin (joinPath dir b!"download") (queryEscape path) ≠ some (demoAnchor dir))
    (ht : (demoDownload env h u dir target w).2.trace = w.trace ++ evs) {fs' : FS} (hc : CrashState w.fs evs fs') :
    fs' (demoAnchor dir) = w.fs (demoAnchor dir) ∨ ∃ d now t0, w.fs (demoAnchor dir) = some d ∧ Trusted.new env now d = .ok t0 ∧
      ∃ data, fs' (demoAnchor dir) = some data ∧ (data = d ∨ ∃ t, JustAccepted env t0 t b!"root" data) := by
  unfold demoDownload at ht
  rw [SM.bind_apply] at ht
  rcases hr : readFile h.toHost (joinPath dir b!"root.json") w with ⟨r, w1⟩
  obtain ⟨o, hw1⟩ := readFile_emits h.toHost (joinPath dir b!"root.json") w
  rw [hr] at ht hw1
  obtain rfl : w1 = w.emit (.read (demoAnchor dir) o) := hw1
  have hone : ∀ {evs' : List Event}, w.trace ++ .read (demoAnchor dir) o :: evs' = w.trace ++ evs → CrashState w.fs evs' fs' := by
    intro evs' he
    have := List.append_cancel_left he
    subst this
    exact crash_read hc
  have hnone : w.trace ++ [.read (demoAnchor dir) o] = w.trace ++ evs → fs' (demoAnchor dir) = w.fs (demoAnchor dir) := by
    intro he
    rw [crash_nil (hone he)]
  cases r with
  | err e => exact .inl (hnone ht)
  | panic => exact .inl (hnone ht)
  | ok d =>
    obtain ⟨hd, _, he⟩ := readFile_ok hr
    simp only [SM.bind_apply, SM.lift_apply] at ht
    cases hcfg : demoConfig env u dir d with
    | err e => rw [hcfg] at ht; exact .inl (hnone ht)
    | panic => rw [hcfg] at ht; exact .inl (hnone ht)
    | ok cfg =>
      rw [hcfg] at ht
      obtain ⟨c1, c2, c3, c4⟩ := demoConfig_ok hcfg
      have hanchor : demoAnchor dir = persistPath cfg ROOT := by
        unfold persistPath
        rw [c2]
        rfl
      rcases exec_usingUpdater (x := ⟨env, h.toHost, cfg⟩) (use := demoGet ⟨env, h.toHost, cfg⟩ target) (fun s => exec_demoGet s) (w := w.emit (.read (demoAnchor dir) o)) with
        k | ⟨t0, w1, s', k1, k2, k3⟩
      · dsimp only at ht
        rw [k] at ht
        exact .inl (hnone ht)
      · obtain ⟨evs', k4, _⟩ := k3.events
        have he : CrashState w.fs evs' fs' := hone (by
          dsimp only at ht
          rw [← k2, k4] at ht
          simpa [World.emit] using ht)
        have hnot : ¬ TempName (demoAnchor dir) := by
          rw [hanchor]
          exact persistPath_not_temp cfg ROOT
        rcases crash_files k3 k4 he hnot (fun ⟨path, hq⟩ => hf path (by rw [← c3]; exact hq)) with h3 | ⟨role, data, t', h3, h4, h5⟩
        · exact .inl h3
        · obtain rfl : ROOT = role := persistPath_inj (cfg := cfg) (hanchor.symm.trans h3)
          have hroot : (Ctx.cfg ⟨env, h.toHost, cfg⟩).localTrustedRoot = d := c1
          rw [hroot] at h5 k1
          exact .inr ⟨d, _, t0, hd, k1, data, h4, h5.imp id (fun h5 => ⟨t', h5⟩)⟩

/-- What a moment of a run leaves in a trust anchor that was there before. -/
theorem demoMain_crash {s : CliSt} {evs : List Event} {d : Bytes} (hdir : DemoFolder (h.cwd s.world.trace) dir) (hst : ∀ tr, h.statFails tr (demoAnchor dir) = false)
    (hd : s.world.fs (demoAnchor dir) = some d) (hf : ∀ path, env.urlJoin (joinPath dir b!"download") (queryEscape path) ≠ some (demoAnchor dir))
    (ht : (demoMain env h u target s).2.world.trace = s.world.trace ++ evs) {fs' : FS} (hc : CrashState s.world.fs evs fs') :
    ∃ data, fs' (demoAnchor dir) = some data ∧ (data = d ∨ ∃ now t0 t, Trusted.new env now d = .ok t0 ∧ JustAccepted env t0 t b!"root" data) := by
  obtain ⟨dir', s1, s2, evs1, evs2, k1, k2, k3, k4, ⟨r, k5⟩, _, _, k6⟩ := demo_stages (env := env) (h := h) (u := u) (target := target) s
  obtain rfl := demoFolder_unique hdir k1
  have hd1 : s1.world.fs (demoAnchor dir) = some d := by rw [k2]; exact hd
  rw [demo_stat hd1 (hst _)] at k5
  cases k5
  rw [k6, SM.try_snd, onFiles_apply] at ht
  have hex : ∃ evs3, (demoDownload env h u dir target s1.world).2.trace = s1.world.trace ++ evs3 := by
    dsimp only at ht
    unfold demoDownload at ht ⊢
    rw [SM.bind_apply] at ht ⊢
    rcases hr : readFile h.toHost (joinPath dir b!"root.json") s1.world with ⟨r, w1⟩
    obtain ⟨o, hw1⟩ := readFile_emits h.toHost (joinPath dir b!"root.json") s1.world
    rw [hr] at hw1
    obtain rfl : w1 = s1.world.emit (.read (demoAnchor dir) o) := hw1
    cases r with
    | err e => exact ⟨_, rfl⟩
    | panic => exact ⟨_, rfl⟩
    | ok d =>
      simp only [SM.bind_apply, SM.lift_apply]
      cases hcfg : demoConfig env u dir d with
      | err e => exact ⟨_, rfl⟩
      | panic => exact ⟨_, rfl⟩
      | ok cfg =>
        rcases exec_usingUpdater (x := ⟨env, h.toHost, cfg⟩) (use := demoGet ⟨env, h.toHost, cfg⟩ target) (fun s => exec_demoGet s) (w := s1.world.emit (.read (demoAnchor dir) o)) with
          k | ⟨t0, w1, s', g1, g2, g3⟩
        · dsimp only
          rw [k]
          exact ⟨_, rfl⟩
        · obtain ⟨evs', g4, _⟩ := g3.events
          dsimp only
          rw [← g2, g4]
          exact ⟨.read (demoAnchor dir) o :: evs', by simp [World.emit]⟩
  obtain ⟨evs3, k7⟩ := hex
  have he : evs = evs1 ++ evs3 := by
    dsimp only at ht
    rw [k7, k3, List.append_assoc] at ht
    exact (List.append_cancel_left ht).symm
  subst he
  have hidle : ∀ e ∈ evs1, (∃ p r, e = .read p r) ∨ ∃ p b, e = .mkdir p b := fun e he => .inr (k4 e he)
  rcases crash_append hc with hc | hc
  · rw [crash_idle hidle hc]
    exact ⟨d, hd, .inl rfl⟩
  · rw [show replay s.world.fs evs1 = s1.world.fs by
      rw [k2]
      exact crash_idle hidle ⟨evs1, [], by simp, .inl rfl⟩] at hc
    rcases demoDownload_crash hf k7 hc with m | ⟨d', now, t0, m1, m2, data, m3, m4⟩
    · exact ⟨d, by rw [m]; exact hd1, .inl rfl⟩
    · rw [hd1] at m1
      cases m1
      exact ⟨data, m3, m4.imp id (fun ⟨t, m4⟩ => ⟨now, t0, t, m2, m4⟩)⟩

/-- C124: once there is a root file, any number of runs, on any servers and disks and interrupted at any moments, leave a root file from which whoever takes it as trusted root has a root that
consecutive, doubly signed rotations lead to from the first one. Missing: asking whether the file is there must not fail (`C124_false_stat`). -/
theorem C124_anchor_partial {fs fs' : FS} {first : Metadata RootType} (hl : DemoLater env dir fs fs')
    (hf : ∀ path, env.urlJoin (joinPath dir b!"download") (queryEscape path) ≠ some (demoAnchor dir)) {d0 : Bytes} (h0 : fs (demoAnchor dir) = some d0) (ha : Anchored env first d0) :
    ∃ d, fs' (demoAnchor dir) = some d ∧ Anchored env first d := by
  induction hl with
  | refl => exact ⟨d0, h0, ha⟩
  | other _ he ih => rw [he]; exact ih
  | run _ hs hdir hst ht hc ih =>
    subst hs
    obtain ⟨d1, i1, i2⟩ := ih
    obtain ⟨data, k1, k2⟩ := demoMain_crash (hdir _) hst i1 hf ht hc
    refine ⟨data, k1, ?_⟩
    rcases k2 with rfl | ⟨now, t0, t, k2, k3⟩
    · exact i2
    · intro now' t' hn
      exact (i2 now t0 k2).trans (accepted_anchored k2 k3 now' t' hn)

/-- C124, end to end: once there is a valid root file, whatever happened before, a target that a run delivers is authenticated by a chain of trust from that root. Missing: asking whether the
file is there must not fail (`C124_false_stat`). -/
theorem C124_later_partial {fs : FS} {d0 : Bytes} {now0 : Time} {t0 : Trusted} {s s' : CliSt} {file : Str} (h0 : fs (demoAnchor dir) = some d0) (hn : Trusted.new env now0 d0 = .ok t0)
    (hl : DemoLater env dir fs s.world.fs) (hf : ∀ path, env.urlJoin (joinPath dir b!"download") (queryEscape path) ≠ some (demoAnchor dir)) (hdir : DemoFolder (h.cwd s.world.trace) dir)
    (hst : ∀ tr, h.statFails tr (demoAnchor dir) = false) (hm : demoMain env h u target s = (.ok (.ok file), s')) :
    ∃ now, Delivered env t0.root now target file s'.world.fs := by
  have ha : Anchored env t0.root d0 := by
    intro now' t' hn'
    have h1 := (new_root hn').1
    have h2 := (new_root hn).1
    rw [ParsesTo] at h1 h2
    rw [h1] at h2
    rw [Res.ok.inj h2]
    exact .refl
  obtain ⟨d, k1, k2⟩ := C124_anchor_partial hl hf h0 ha
  obtain ⟨dir', d', now, t1, m1, m2, ⟨t, role, m, tf, data, m4, m5⟩, _, m6⟩ := C124_delivers hm
  obtain rfl := demoFolder_unique hdir m1
  rcases m6 with m6 | ⟨m6, _⟩
  · rw [k1] at m6
    cases m6
    exact ⟨now, t, role, m, tf, data, (k2 now t1 m2).trans m4, m5⟩
  · rcases m6 with m6 | ⟨tr, m6⟩
    · rw [k1] at m6; cases m6
    · rw [hst] at m6; cases m6

/-- C124: a run with a root file that is none delivers nothing, without requests and without changes of files; so do all later ones. -/
theorem C124_bad_anchor {s : CliSt} {d : Bytes} (hdir : DemoFolder (h.cwd s.world.trace) dir) (hst : ∀ tr, h.statFails tr (demoAnchor dir) = false)
    (hd : s.world.fs (demoAnchor dir) = some d) (hbad : ∀ now t, Trusted.new env now d ≠ .ok t) :
    (∀ file, (demoMain env h u target s).1 ≠ .ok (.ok file)) ∧ (demoMain env h u target s).2.world.fs = s.world.fs ∧
    ∃ evs, (demoMain env h u target s).2.world.trace = s.world.trace ++ evs ∧ ∀ e ∈ evs, (∃ p r, e = .read p r) ∨ ∃ p b, e = .mkdir p b := by
  obtain ⟨dir', s1, s2, evs1, evs2, k1, k2, k3, k4, ⟨r, k5⟩, _, _, k6⟩ := demo_stages (env := env) (h := h) (u := u) (target := target) s
  obtain rfl := demoFolder_unique hdir k1
  have hd1 : s1.world.fs (demoAnchor dir) = some d := by rw [k2]; exact hd
  rw [demo_stat hd1 (hst _)] at k5
  cases k5
  refine ⟨?_, ?_⟩
  · intro file hm
    rcases hres : demoMain env h u target s with ⟨r, s'⟩
    rw [hres] at hm
    dsimp only at hm
    subst hm
    obtain ⟨dir', d', now, t0, m1, m2, _, _, m3⟩ := C124_delivers hres
    obtain rfl := demoFolder_unique hdir m1
    rcases m3 with m3 | ⟨m3 | ⟨tr, m3⟩, _⟩
    · rw [hd] at m3; cases m3; exact hbad _ _ m2
    · rw [hd] at m3; cases m3
    · rw [hst] at m3; cases m3
  · have key : ∃ o, (demoDownload env h u dir target s1.world).2 = s1.world.emit (.read (demoAnchor dir) o) := by
      unfold demoDownload
      rw [SM.bind_apply]
      rcases hr : readFile h.toHost (joinPath dir b!"root.json") s1.world with ⟨r, w1⟩
      obtain ⟨o, hw1⟩ := readFile_emits h.toHost (joinPath dir b!"root.json") s1.world
      rw [hr] at hw1
      obtain rfl : w1 = s1.world.emit (.read (demoAnchor dir) o) := hw1
      refine ⟨o, ?_⟩
      cases r with
      | err e => rfl
      | panic => rfl
      | ok d' =>
        obtain ⟨g1, _, _⟩ := readFile_ok hr
        rw [show s1.world.fs (joinPath dir b!"root.json") = some d from hd1] at g1
        cases g1
        simp only [SM.bind_apply, SM.lift_apply]
        cases hcfg : demoConfig env u dir d with
        | err e => rfl
        | panic => rfl
        | ok cfg =>
          dsimp only
          rcases exec_usingUpdater (x := ⟨env, h.toHost, cfg⟩) (use := demoGet ⟨env, h.toHost, cfg⟩ target) (fun s => exec_demoGet s) (w := s1.world.emit (.read (demoAnchor dir) o)) with
            k | ⟨t0, w1, s', g1, g2, g3⟩
          · exact k
          · have hroot : (Ctx.cfg ⟨env, h.toHost, cfg⟩).localTrustedRoot = d := (demoConfig_ok hcfg).1
            rw [hroot] at g1
            exact absurd g1 (hbad _ _)
    obtain ⟨o, key⟩ := key
    rw [k6, SM.try_snd, onFiles_apply]
    dsimp only
    rw [key]
    refine ⟨k2, evs1 ++ [.read (demoAnchor dir) o], by simp [World.emit, k3], ?_⟩
    intro e he
    rcases List.mem_append.1 he with he | he
    · exact .inr (k4 e he)
    · rw [List.mem_singleton] at he
      exact .inl ⟨_, _, he⟩

end Tuf
