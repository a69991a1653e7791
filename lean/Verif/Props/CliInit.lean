import Verif.Proofs.Clean
import Verif.Props.Cli

/-!
# The command line client: `init` and `reset`
-/

namespace Tuf
open Spec Sample

variable {env : Env} {h : CliHost} {a : CliArgs} {target : Str}

/-! ## C96 -/

/-- The client in the working directory is initialized: the folders are there, and the file in the metadata folder is a root that verifies itself. -/
def Spec.Initialized (env : Env) (cwd : Str) (s : CliSt) (data : Bytes) : Prop :=
  s.folder (joinPath cwd b!"tuf_metadata") = true ∧ s.folder (joinPath cwd b!"tuf_download") = true ∧ s.world.fs (anchorFile cwd) = some data ∧
  ∃ root, ParsesTo env data root ∧ root.signed.type = b!"root" ∧ Verifies env (.root root) b!"root" (.root root)

theorem mkdir_ok {p : Str} {s s' : CliSt} (hm : mkdir h p s = (.ok (), s')) :
    s.folder p = false ∧ s' = { world := s.world.emit (.mkdir p true), folder := fun q => q = p || s.folder q } := by
  unfold mkdir at hm
  split at hm
  · cases hm
  · next hc =>
    cases hm
    simp at hc
    exact ⟨hc.1.1, rfl⟩

theorem prepareEnvironment_ok {s s' : CliSt} {d : Str} (hp : prepareEnvironment h s = (.ok d, s')) :
    ∃ cwd, h.cwd s.world.trace = some cwd ∧ d = metadataFolder cwd ∧ s.folder (metadataFolder cwd) = false ∧ s'.world.fs = s.world.fs ∧
      s'.folder (metadataFolder cwd) = true ∧ s'.folder (downloadFolder cwd) = true ∧ ∃ evs, s'.world.trace = s.world.trace ++ evs := by
  unfold prepareEnvironment at hp
  obtain ⟨cwd, s1, h1, hp1⟩ := SM.bind_eq_ok.1 hp
  obtain ⟨_, s2, h2, hp2⟩ := SM.bind_eq_ok.1 hp1
  obtain ⟨_, s3, h3, hp3⟩ := SM.bind_eq_ok.1 hp2
  cases hp3
  obtain ⟨k1, rfl⟩ := getwd_ok h1
  obtain ⟨k2, rfl⟩ := mkdir_ok h2
  obtain ⟨k3, rfl⟩ := mkdir_ok h3
  exact ⟨cwd, k1, rfl, k2, rfl, by simp, by simp, [.mkdir (metadataFolder cwd) true, .mkdir (downloadFolder cwd) true], by simp [World.emit]⟩

theorem checkTrustedRoot_ok {d : Bytes} {w w' : World} (hc : checkTrustedRoot env h d w = (.ok (), w')) : w' = w ∧ ∃ t, Trusted.new env (h.now w.trace) d = .ok t := by
  unfold checkTrustedRoot at hc
  split at hc
  · next t ht => cases hc; exact ⟨rfl, t, ht⟩
  · cases hc
  · cases hc

theorem anchor_sprintf (cwd : Str) : metadataFolder cwd ++ b!"/" ++ ROOT ++ b!".json" = anchorFile cwd := by
  unfold anchorFile metadataFolder
  rw [joinPath_join ⟨by decide, by decide, by decide, by decide⟩ ⟨by decide, by decide, by decide, by decide⟩]
  simp [List.append_assoc, ROOT]

/-- C96: when `init` ends well without a root file given, the client is initialized with what the server has as first root, and that verifies itself. -/
theorem C96_downloaded {s s' : CliSt} (hi : initCmd env h a s = (.ok (), s')) (hr : a.rootPath = []) :
    ∃ cwd url data tr, h.cwd s.world.trace = some cwd ∧ env.urlJoin a.repositoryURL b!"1.root.json" = some url ∧ h.httpGet tr url = .ok data ∧ Initialized env cwd s' data := by
  unfold initCmd at hi
  split at hi
  · cases hi
  · obtain ⟨d, s1, h1, hi⟩ := SM.bind_eq_ok.1 hi
    obtain ⟨cwd, k1, rfl, _, k2, k3, k4, _⟩ := prepareEnvironment_ok h1
    obtain ⟨_, s2, h2, hi⟩ := SM.bind_eq_ok.1 hi
    obtain ⟨data, s3, h3, hi⟩ := SM.bind_eq_ok.1 hi
    obtain ⟨w2, h2', rfl⟩ := onFiles_ok h2
    obtain ⟨w3, h3', rfl⟩ := onFiles_ok h3
    obtain ⟨w4, h4', rfl⟩ := onFiles_ok hi
    unfold fetchTrustedRoot at h2'
    obtain ⟨url, w5, h5, h2'⟩ := SM.bind_eq_ok.1 h2'
    obtain ⟨body, w6, h6, h7'⟩ := SM.bind_eq_ok.1 h2'
    obtain ⟨h8, rfl⟩ := lift_ok h5
    have k6 := writeFile_ok h7'
    obtain ⟨k7, _, rfl⟩ := readFile_ok h3'
    obtain ⟨rfl, t, k8⟩ := checkTrustedRoot_ok h4'
    rw [anchor_sprintf] at k7
    have hb : body = data := by
      have : w2.fs (anchorFile cwd) = some body := k6
      rw [show w2.fs (anchorFile cwd) = some data from k7] at this
      exact (Option.some.inj this).symm
    subst hb
    have hget : ∃ tr, h.httpGet tr url = .ok body := by
      unfold plainGet at h6
      dsimp only at h6
      split at h6
      · next hb => cases h6; exact ⟨_, hb⟩
      · cases h6
    obtain ⟨tr, hget⟩ := hget
    refine ⟨cwd, url, body, tr, k1, Res.ofOption_eq_ok.1 h8, hget, k3, k4, ?_, ?_⟩
    · exact k7
    · obtain ⟨c1, c2, c3, _⟩ := new_root k8
      exact ⟨_, c1, c2, c3⟩

/-- C96 for a given file, if that is called so that its copy is the root file of the metadata folder (for instance `-f root.json`). Missing: any other name, for which
`C96_false_copy` shows that the client is not initialized. -/
theorem C96_file_partial {s s' : CliSt} (hi : initCmd env h a s = (.ok (), s')) (hr : a.rootPath ≠ []) :
    ∃ cwd data, h.cwd s.world.trace = some cwd ∧ s.world.fs a.rootPath = some data ∧
      (joinPath (joinPath cwd b!"tuf_metadata") a.rootPath = anchorFile cwd → Initialized env cwd s' data) := by
  unfold initCmd at hi
  split at hi
  · cases hi
  · obtain ⟨d, s1, h1, hi⟩ := SM.bind_eq_ok.1 hi
    obtain ⟨cwd, k1, rfl, _, k2, k3, k4, _⟩ := prepareEnvironment_ok h1
    obtain ⟨data, s3, h3, hi⟩ := SM.bind_eq_ok.1 hi
    obtain ⟨_, s4, h4, hi⟩ := SM.bind_eq_ok.1 hi
    obtain ⟨w3, h3', rfl⟩ := onFiles_ok h3
    obtain ⟨w4, h4', rfl⟩ := onFiles_ok h4
    obtain ⟨w5, h5', rfl⟩ := onFiles_ok hi
    obtain ⟨k7, _, rfl⟩ := readFile_ok h3'
    obtain ⟨rfl, t, k8⟩ := checkTrustedRoot_ok h4'
    have k6 := writeFile_ok h5'
    refine ⟨cwd, data, k1, by rw [← k2]; exact k7, ?_⟩
    intro hpath
    refine ⟨k3, k4, ?_, ?_⟩
    · rw [← hpath]
      exact k6
    · obtain ⟨c1, c2, c3, _⟩ := new_root k8
      exact ⟨_, c1, c2, c3⟩

theorem mkdir_fs (p : Str) (s : CliSt) : (mkdir h p s).2.world.fs = s.world.fs := by
  unfold mkdir
  split <;> rfl

/-- C96: `init` does not touch the files of a client whose metadata folder is there; it fails. -/
theorem C96_no_second_init {cwd : Str} {s : CliSt} (hcwd : h.cwd s.world.trace = some cwd) (hf : s.folder (joinPath cwd b!"tuf_metadata") = true) :
    (∃ e, (initCmd env h a s).1 = .err e) ∧ (initCmd env h a s).2.world.fs = s.world.fs ∧ (initCmd env h a s).2.folder = s.folder := by
  unfold initCmd
  split
  · exact ⟨⟨_, rfl⟩, rfl, rfl⟩
  · have hg : getwd h s = (.ok cwd, s) := by unfold getwd; rw [hcwd]
    have hm : mkdir h (metadataFolder cwd) s = (.err ioErr, { s with world := s.world.emit (.mkdir (metadataFolder cwd) false) }) := by
      unfold mkdir metadataFolder
      rw [hf]
      rfl
    have hp : prepareEnvironment h s = (.err ioErr, { s with world := s.world.emit (.mkdir (metadataFolder cwd) false) }) := by
      unfold prepareEnvironment
      rw [SM.bind_ok hg, SM.bind_err hm]
    rw [SM.bind_err hp]
    exact ⟨⟨_, rfl⟩, rfl, rfl⟩

/-- C96: `get` with a root file that is none fails, without requests and without changes of files. -/
theorem C96_bad_anchor {cwd : Str} {s : CliSt} (hcwd : h.cwd s.world.trace = some cwd) (hbad : ∀ d now t, s.world.fs (anchorFile cwd) = some d → Trusted.new env now d ≠ .ok t) :
    (∀ r, (getCmd env h a target s).1 ≠ .ok r) ∧ (getCmd env h a target s).2.world.fs = s.world.fs ∧
    ∃ evs, (getCmd env h a target s).2.world.trace = s.world.trace ++ evs ∧ ∀ e ∈ evs, ∃ p r, e = .read p r := by
  have same : ∀ (r : Res GetResult), (∀ g, r ≠ .ok g) → (∀ g, ((r, s) : Res GetResult × CliSt).1 ≠ .ok g) ∧ ((r, s) : Res GetResult × CliSt).2.world.fs = s.world.fs ∧
      ∃ evs, ((r, s) : Res GetResult × CliSt).2.world.trace = s.world.trace ++ evs ∧ ∀ e ∈ evs, ∃ p r, e = .read p r :=
    fun r hr => ⟨hr, rfl, [], by simp, by simp⟩
  unfold getCmd
  split
  · exact same _ (by simp)
  · rw [SM.bind_apply]
    have hsnd := verifyEnv_snd (h := h) s
    rcases hv : verifyEnv h s with ⟨r, s1⟩
    rw [hv] at hsnd
    obtain rfl : s = s1 := hsnd.symm
    cases r with
    | err e => exact same _ (by simp)
    | panic => exact same _ (by simp)
    | ok cwd' =>
      obtain ⟨hcwd', _⟩ := verifyEnv_ok hv
      rw [hcwd] at hcwd'
      cases hcwd'
      simp only [SM.bind_apply, onFiles_apply]
      have one : ∀ (r : Res GetResult) o, (∀ g, r ≠ .ok g) → (∀ g, r ≠ .ok g) ∧ (s.world.emit (.read (anchorFile cwd) o)).fs = s.world.fs ∧
          ∃ evs, (s.world.emit (.read (anchorFile cwd) o)).trace = s.world.trace ++ evs ∧ ∀ e ∈ evs, ∃ p r, e = .read p r :=
        fun r o hr => ⟨hr, rfl, [_], rfl, by simp⟩
      rcases hr : readFile h.toHost (joinPath (metadataFolder cwd) b!"root.json") s.world with ⟨r, w1⟩
      have hw1 : ∃ o, w1 = s.world.emit (.read (anchorFile cwd) o) := by
        have := congrArg Prod.snd hr
        dsimp only at this
        rw [← this]
        unfold readFile
        dsimp only
        split <;> exact ⟨_, rfl⟩
      obtain ⟨o, rfl⟩ := hw1
      cases r with
      | err e => exact one _ o (by simp)
      | panic => exact one _ o (by simp)
      | ok d =>
        obtain ⟨hd, _, he⟩ := readFile_ok hr
        simp only [SM.lift_apply]
        cases hcfg : cliConfig env a cwd d with
        | err e => exact one _ o (by simp)
        | panic => exact one _ o (by simp)
        | ok cfg =>
          have hroot := (cliConfig_ok hcfg).root
          have hn : ∃ r : Res Trusted, (∀ t, r ≠ .ok t) ∧ newUpdater ⟨env, h.toHost, cfg⟩ (s.world.emit (.read (anchorFile cwd) o)) = (r, s.world.emit (.read (anchorFile cwd) o)) := by
            unfold newUpdater
            split
            · exact ⟨_, by simp, rfl⟩
            · split
              · next t ht =>
                rw [show (Ctx.cfg ⟨env, h.toHost, cfg⟩).localTrustedRoot = d from hroot] at ht
                exact absurd ht (hbad d _ t hd)
              · exact ⟨_, by simp, rfl⟩
              · exact ⟨_, by simp, rfl⟩
          obtain ⟨r, hr1, hr2⟩ := hn
          dsimp only
          unfold withUpdater
          rw [hr2]
          cases r with
          | ok t => exact absurd rfl (hr1 t)
          | err e => exact one _ o (by simp)
          | panic => exact one _ o (by simp)

/-- C96, together with C95: after an `init` that ended well without a root file given, whatever `get` delivers, however much later, is authenticated by a chain of trust from the first
root that the server had. -/
theorem C96_then_get {s0 s1 s s' : CliSt} {h0 : CliHost} {a0 : CliArgs} {cwd : Str} {r : GetResult} (hi : initCmd env h0 a0 s0 = (.ok (), s1)) (hr : a0.rootPath = [])
    (hc0 : h0.cwd s0.world.trace = some cwd) (hl : Later env cwd s1.world.fs s.world.fs)
    (hf : ∀ path, env.urlJoin (joinPath cwd b!"tuf_download") (queryEscape path) ≠ some (anchorFile cwd)) (hcwd : h.cwd s.world.trace = some cwd)
    (hg : getCmd env h a target s = (.ok r, s')) :
    ∃ url data tr first now, env.urlJoin a0.repositoryURL b!"1.root.json" = some url ∧ h0.httpGet tr url = .ok data ∧ ParsesTo env data first ∧
      Delivered env first now target r.file s'.world.fs := by
  obtain ⟨cwd', url, data, tr, k1, k2, k3, _, _, k4, root, k5, k6, k7⟩ := C96_downloaded hi hr
  rw [hc0] at k1
  cases k1
  have hn : Trusted.new env ⟨0, []⟩ data = .ok { root := root, refTime := ⟨0, []⟩ } := C78_new.2 ⟨root, k5, k6, k7, rfl⟩
  obtain ⟨now, hd⟩ := C95_get_delivers k4 hn hl hf hcwd hg
  exact ⟨url, data, tr, root, now, k2, k3, k5, hd⟩

/-! ## C98 -/

theorem resetFolder_ok {folder : Str} {s s' : CliSt} {b : Bool} (hr : resetFolder h a folder s = (.ok b, s')) :
    s' = (if b then (removeAll h folder s).2 else s) := by
  unfold resetFolder at hr
  split at hr
  · cases hr; rfl
  · split at hr
    · cases hr
    · cases hr; rfl
    · cases hr; rfl

theorem resetFolder_gone {folder : Str} {s s' : CliSt} {b : Bool} (hk : ∀ tr p q, h.keeps tr p q = false) (hr : resetFolder h a folder s = (.ok b, s')) :
    (b = true → s'.folder folder = false ∧ ∀ p, (folder ++ b!"/") <+: p → s'.world.fs p = none) ∧
    (∀ p, s.folder p = false → s'.folder p = false) ∧ (∀ p, s.world.fs p = none → s'.world.fs p = none) ∧
    ((b = false → s' = s) ∧ (∀ p, p ≠ folder → ¬ (folder ++ b!"/") <+: p → s'.folder p = s.folder p ∧ s'.world.fs p = s.world.fs p)) ∧
    s'.world.trace = s.world.trace := by
  have := resetFolder_ok hr
  subst this
  cases b with
  | false => simp
  | true =>
    simp only [if_true, removeAll, hk, Bool.and_false, Bool.not_false, Bool.and_true, Bool.or_false]
    refine ⟨fun _ => ⟨by simp [below], ?_⟩, ?_, ?_, ⟨by simp, ?_⟩, trivial⟩
    · intro p hp
      simp [below, hasPrefix, hp]
    · intro p hp
      simp [hp]
    · intro p hp
      simp [hp]
    · intro p h1 h2
      have : hasPrefix p (folder ++ [47]) = false := by
        unfold hasPrefix
        exact Bool.eq_false_iff.2 fun hc => h2 (List.isPrefixOf_iff_prefix.1 hc)
      simp [below, this, h1]

/-- C98: after a `reset` that says that a folder was deleted, nothing of it is left, provided that no deletion failed; a folder that is said to be there still is untouched, and so
is everything outside of the two folders. Missing: failures of deletions, of which `reset` does not tell (`C98_false`). -/
theorem C98_reset_partial {cwd : Str} {s s' : CliSt} {m d : Bool} (hcwd : h.cwd s.world.trace = some cwd) (hr : resetCmd h a s = (.ok (m, d), s'))
    (hk : ∀ tr p q, h.keeps tr p q = false) :
    (m = true → s'.folder (joinPath cwd b!"tuf_metadata") = false ∧ ∀ p, (joinPath cwd b!"tuf_metadata" ++ b!"/") <+: p → s'.world.fs p = none) ∧
    (d = true → s'.folder (joinPath cwd b!"tuf_download") = false ∧ ∀ p, (joinPath cwd b!"tuf_download" ++ b!"/") <+: p → s'.world.fs p = none) ∧
    (∀ p, (m = false ∨ p ≠ joinPath cwd b!"tuf_metadata" ∧ ¬ (joinPath cwd b!"tuf_metadata" ++ b!"/") <+: p) →
      (d = false ∨ p ≠ joinPath cwd b!"tuf_download" ∧ ¬ (joinPath cwd b!"tuf_download" ++ b!"/") <+: p) →
      s'.folder p = s.folder p ∧ s'.world.fs p = s.world.fs p) := by
  unfold resetCmd at hr
  obtain ⟨cwd', s1, h1, hr1⟩ := SM.bind_eq_ok.1 hr
  obtain ⟨m', s2, h2, hr2⟩ := SM.bind_eq_ok.1 hr1
  obtain ⟨d', s3, h3, hr3⟩ := SM.bind_eq_ok.1 hr2
  obtain ⟨k1, rfl⟩ := getwd_ok h1
  rw [hcwd] at k1
  cases k1
  cases hr3
  obtain ⟨p1, p2, p3, ⟨p4, p5⟩, p6⟩ := resetFolder_gone hk h2
  obtain ⟨q1, q2, q3, ⟨q4, q5⟩, q6⟩ := resetFolder_gone hk h3
  refine ⟨fun hm => ⟨q2 _ (p1 hm).1, fun p hp => q3 _ ((p1 hm).2 p hp)⟩, q1, ?_⟩
  intro p ha hb
  have e1 : s2.folder p = s1.folder p ∧ s2.world.fs p = s1.world.fs p := by
    rcases ha with ha | ⟨ha, ha'⟩
    · rw [p4 ha]; exact ⟨rfl, rfl⟩
    · exact p5 p ha ha'
  have e2 : s'.folder p = s2.folder p ∧ s'.world.fs p = s2.world.fs p := by
    rcases hb with hb | ⟨hb, hb'⟩
    · rw [q4 hb]; exact ⟨rfl, rfl⟩
    · exact q5 p hb hb'
  exact ⟨e2.1.trans e1.1, e2.2.trans e1.2⟩

/-- C98: a folder is said to be deleted only with the consent of the user, or with `--force`. -/
theorem C98_consent {cwd : Str} {s s' : CliSt} {m d : Bool} (hcwd : h.cwd s.world.trace = some cwd) (hr : resetCmd h a s = (.ok (m, d), s')) (hf : a.force = false) :
    (m = true → h.answer s.world.trace (joinPath cwd b!"tuf_metadata") = some true) ∧ (d = true → h.answer s.world.trace (joinPath cwd b!"tuf_download") = some true) := by
  have one : ∀ {folder : Str} {s s' : CliSt}, resetFolder h a folder s = (.ok true, s') → h.answer s.world.trace folder = some true := by
    intro folder s s' h1
    unfold resetFolder at h1
    rw [hf] at h1
    split at h1
    · next hc => cases hc
    · split at h1
      · cases h1
      · next h2 => exact h2
      · cases h1
  unfold resetCmd at hr
  obtain ⟨cwd', s1, h1, hr1⟩ := SM.bind_eq_ok.1 hr
  obtain ⟨m', s2, h2, hr2⟩ := SM.bind_eq_ok.1 hr1
  obtain ⟨d', s3, h3, hr3⟩ := SM.bind_eq_ok.1 hr2
  obtain ⟨k1, rfl⟩ := getwd_ok h1
  rw [hcwd] at k1
  cases k1
  cases hr3
  refine ⟨fun hm => ?_, fun hd => ?_⟩
  · subst hm; exact one h2
  · subst hd
    have := one h3
    have ht : s2.world.trace = s1.world.trace := by
      rw [resetFolder_ok h2]
      split <;> rfl
    rw [ht] at this
    exact this

end Tuf
