import Verif.Props.CliInit
import Verif.Props.SearchFollow

/-!
# The command line client and an honest repository
-/

namespace Tuf
open Spec Sample

variable {env : Env} {h : CliHost} {a : CliArgs} {target : Str}

/-- The client in the working directory `cwd` is ready for `get`: the folders and the root file are there and can be read. -/
structure Spec.CliReady (h : CliHost) (cwd : Str) (data : Bytes) (s : CliSt) : Prop where
  getwd : h.cwd s.world.trace = some cwd
  metadata : s.folder (joinPath cwd b!"tuf_metadata") = true
  download : s.folder (joinPath cwd b!"tuf_download") = true
  anchor : s.world.fs (anchorFile cwd) = some data
  stat : ∀ tr p, h.statFails tr p = false
  read : ∀ tr p, h.readFails tr p = false

theorem verifyEnv_ready {cwd : Str} {data : Bytes} {s : CliSt} (hr : CliReady h cwd data s) : verifyEnv h s = (.ok cwd, s) := by
  have h1 : getwd h s = (.ok cwd, s) := by unfold getwd; rw [hr.getwd]
  have h2 : statFolder h (metadataFolder cwd) s = (.ok (), s) := by
    unfold statFolder metadataFolder
    rw [hr.metadata, hr.stat]
    rfl
  have h3 : statFolder h (downloadFolder cwd) s = (.ok (), s) := by
    unfold statFolder downloadFolder
    rw [hr.download, hr.stat]
    rfl
  have h4 : statFile h (metadataFolder cwd ++ b!"/" ++ ROOT ++ b!".json") s = (.ok (), s) := by
    unfold statFile
    rw [anchor_sprintf, hr.anchor, hr.stat]
    rfl
  unfold verifyEnv
  rw [SM.bind_ok h1, SM.bind_ok h2, SM.bind_ok h3, SM.bind_ok h4]
  rfl

theorem cliConfig_max {a : CliArgs} {cwd data : Bytes} {cfg : Cfg} (hcfg : cliConfig env a cwd data = .ok cfg) : cfg.maxDelegations = 32 := by
  unfold cliConfig Cfg.new at hcfg
  obtain ⟨c0, k1, k2⟩ := Res.bind_eq_ok.1 hcfg
  split at k1
  · cases k1
  · cases k1; cases k2; rfl

/-- `get` succeeds, if the new client refreshes and then finds the target. -/
theorem get_finds {env : Env} {h : CliHost} {a : CliArgs} {cwd data : Bytes} {s : CliSt} (hready : CliReady h cwd data s) {cfg : Cfg}
    (hcfg : cliConfig env a cwd data = .ok cfg) {srv : Str → Int → Except Err Bytes} {now : Time} {r : RootType} {R : Files}
    (hgood : ClientRun.Good env (joinPath cwd b!"tuf_metadata") ⟨⟨env, h.toHost, cfg⟩, srv, now, r, R⟩) (hw : NoTemps s.world.fs) {f : TargetFiles}
    (hinfo : ∀ s0, JustMade ⟨⟨env, h.toHost, cfg⟩, srv, now, r, R⟩ s.world.fs s0 → ∃ s1 s2, refresh ⟨env, h.toHost, cfg⟩ s0 = (.ok (), s1) ∧
      getTargetInfo ⟨env, h.toHost, cfg⟩ target s1 = (.ok (some { f with path := target }), s2) ∧ s2.trusted.root.signed = readRoot r)
    {file base content : Bytes} (hp : TargetPath ⟨env, h.toHost, cfg⟩ { f with path := target } [] file) (hne : file ≠ [])
    (hb : TargetBase ⟨env, h.toHost, cfg⟩ [] base) (hserve : ServingTarget ⟨env, h.toHost, cfg⟩ srv r.consistentSnapshot base { f with path := target } content)
    (hmatch : TargetMatches env f content) (hdeep : a.nonPrefixed = false → r.consistentSnapshot = true → target.count 47 ≤ 1) :
    ∃ g s', getCmd env h a target s = (.ok g, s') ∧ g.file = file ∧ ∃ d, s'.world.fs file = some d ∧ TargetMatches env f d := by
  have hcc := cliConfig_ok hcfg
  obtain ⟨t0, t, hne0, h1, h2, h3, h4, h5⟩ := hgood.roots
  have hread : readFile h.toHost (joinPath (metadataFolder cwd) b!"root.json") s.world = (.ok data, s.world.emit (.read (anchorFile cwd) (some data))) := by
    unfold readFile
    have : s.world.fs (joinPath (metadataFolder cwd) b!"root.json") = some data := hready.anchor
    dsimp only
    rw [hready.read, this]
    rfl
  generalize hw0 : s.world.emit (.read (anchorFile cwd) (some data)) = w0 at hread
  have hfs0 : w0.fs = s.world.fs := by rw [← hw0]; rfl
  obtain ⟨w1, n1, n2, n3⟩ := new_progress hgood h1 hne0 (w := w0) (by rw [hfs0]; exact hw)
  rw [hfs0] at n3
  generalize hx : (⟨env, h.toHost, cfg⟩ : Ctx) = x at *
  have hxe : x.env = env := by rw [← hx]
  have hxc : x.cfg = cfg := by rw [← hx]
  have hxh : x.host = h.toHost := by rw [← hx]
  obtain ⟨q, hq⟩ : ∃ m, t0 = { root := m, refTime := now } := by
    obtain ⟨m, _, _, _, hm⟩ := C78_new.1 h1
    exact ⟨m, hm⟩
  obtain ⟨s1, s2, r1, k1, k2⟩ := hinfo ⟨t0, w1⟩ ⟨⟨t, h4, h5⟩, ⟨h2, h3⟩, by rw [hq], by rw [hq], by rw [hq], by rw [hq], n2, n3⟩
  have hpre : x.cfg.prefixTargetsWithHash = !a.nonPrefixed := by
    rw [hxc]
    unfold cliConfig at hcfg
    obtain ⟨c0, k1, k2⟩ := Res.bind_eq_ok.1 hcfg
    cases k2; rfl
  have hcs : s2.trusted.root.signed.consistentSnapshot = r.consistentSnapshot := by rw [k2]; rfl
  have hdis : x.cfg.disableLocalCache = false := hgood.caching
  have hget : ∃ g s3, getWith x target ⟨t0, w1⟩ = (.ok g, s3) ∧ g.file = file ∧ ∃ d, s3.world.fs file = some d ∧ TargetMatches env f d := by
    unfold getWith
    have hl : SM.lift (σ := St) (Res.deref (some ({ f with path := target } : TargetFiles))) s2 = (.ok { f with path := target }, s2) := rfl
    rw [SM.bind_ok r1, SM.bind_ok k1, SM.bind_ok hl]
    obtain ⟨f1, f2, _⟩ := C44_reads_only (x := x) { f with path := target } [] s2
    rcases hfind : findCachedTarget x { f with path := target } [] s2 with ⟨fr, s3⟩
    rw [hfind] at f1 f2
    dsimp only at f1 f2
    by_cases hc : ∃ d, s2.world.fs file = some d ∧ TargetMatches env { f with path := target } d
    · obtain ⟨d, hd1, hd2⟩ := hc
      have := C44_present (x := x) (s := s2) hp hdis hd1 (by rw [hxh]; exact hready.read _ _) (by rw [hxe]; exact hd2)
      rw [hfind] at this
      dsimp only at this
      subst this
      rw [SM.bind_ok hfind, if_pos hne]
      exact ⟨_, _, rfl, rfl, d, by rw [f1]; exact hd1, hd2⟩
    · have := C44_absent (x := x) (s := s2) hp (fun d hd hm => hc ⟨d, hd, by rw [← hxe]; exact hm⟩)
      rw [hfind] at this
      dsimp only at this
      subst this
      rw [SM.bind_ok hfind, if_neg (by simp)]
      obtain ⟨s4, d1, d2⟩ := C88_download_partial (x := x) (s := s3) (srv := srv) (tf := { f with path := target }) (given := []) (base := []) (file := file) (b := base) (data := content)
        hgood.network (.inr hgood.disk) hp hb (by rw [f2, hcs]; exact hserve)
        (by intro k3 k4; rw [f2, hcs] at k4; rw [hpre] at k3; exact hdeep (by simpa using k3) k4) (by rw [hxe]; exact hmatch)
      rw [SM.bind_ok d1]
      exact ⟨_, _, rfl, rfl, content, d2 hdis, hmatch⟩
  obtain ⟨g, s3, g1, g2, g3⟩ := hget
  have hurl : a.repositoryURL ≠ [] := by
    have := hgood.url
    rw [show (ClientRun.x ⟨x, srv, now, r, R⟩).cfg = cfg from hxc] at this
    intro he
    apply this
    unfold cliConfig Cfg.new at hcfg
    obtain ⟨c0, k1, k2⟩ := Res.bind_eq_ok.1 hcfg
    split at k1
    · cases k1
    · cases k1; cases k2; exact he
  refine ⟨g, { s with world := s3.world }, ?_, g2, g3⟩
  unfold getCmd
  rw [if_neg hurl, SM.bind_ok (verifyEnv_ready hready)]
  have h6 : onFiles (readFile h.toHost (joinPath (metadataFolder cwd) b!"root.json")) s = (.ok data, { s with world := w0 }) := by
    rw [onFiles_apply, hread]
  have h7 : SM.lift (σ := CliSt) (cliConfig env a cwd data) { s with world := w0 } = (.ok cfg, { s with world := w0 }) := by
    rw [SM.lift_apply, hcfg]
  rw [SM.bind_ok h6, SM.bind_ok h7, onFiles_apply, hx]
  unfold withUpdater
  dsimp only
  rw [n1]
  dsimp only
  rw [g1]

/-- C97: `get` succeeds with every target that the top-level targets of an honest repository list, in a client that is ready, whatever earlier releases its cache is from; the file that
it names then is what the repository published. Missing: target paths with more than one slash when the names of target files are prefixed with hashes (there the client asks for
other names, `C46_false`). -/
theorem C97_get_succeeds_partial {env : Env} (laws : EnvLaws env) {h : CliHost} {a : CliArgs} {cwd data : Bytes} {s : CliSt} (hready : CliReady h cwd data s) {cfg : Cfg}
    (hcfg : cliConfig env a cwd data = .ok cfg) {srv : Str → Int → Except Err Bytes} {now : Time} {r : RootType} {R : Files}
    (hgood : ClientRun.Good env (joinPath cwd b!"tuf_metadata") ⟨⟨env, h.toHost, cfg⟩, srv, now, r, R⟩) (hw : NoTemps s.world.fs)
    (hcache : CacheBefore env (joinPath cwd b!"tuf_metadata") s.world.fs R) {f : TargetFiles} (hf : R.tg.targets.get? target = some (some f))
    {file base content : Bytes} (hp : TargetPath ⟨env, h.toHost, cfg⟩ { f with path := target } [] file) (hne : file ≠ [])
    (hb : TargetBase ⟨env, h.toHost, cfg⟩ [] base) (hserve : ServingTarget ⟨env, h.toHost, cfg⟩ srv r.consistentSnapshot base { f with path := target } content)
    (hmatch : TargetMatches env f content) (hdeep : a.nonPrefixed = false → r.consistentSnapshot = true → target.count 47 ≤ 1) :
    ∃ g s', getCmd env h a target s = (.ok g, s') ∧ g.file = file ∧ ∃ d, s'.world.fs file = some d ∧ TargetMatches env f d := by
  refine get_finds hready hcfg hgood hw ?_ hp hne hb hserve hmatch hdeep
  intro s0 hm
  obtain ⟨t, h4, h5⟩ := hm.roots
  obtain ⟨mts, msn, mtg, s1, r1, r2, r3, r4, r5, r6, r7, r8, r9⟩ := C93_upgrade (x := ⟨env, h.toHost, cfg⟩) (s := s0) laws hgood.released
    hgood.served hgood.online hgood.network (.inr hgood.disk) hm.temps hm.rotations h4 h5 hm.timestamp hm.snapshot hm.targets hm.time
    (hm.cache (by rw [hgood.sameDir]; exact hcache))
  obtain ⟨k1, k2⟩ := C88_target_partial (x := ⟨env, h.toHost, cfg⟩) (tg := R.tg) (s := s1) hgood.network (.inr hgood.disk) (mtg := mtg) (by rw [r2]; rfl) r5
    (by show 0 ≤ cfg.maxDelegations; rw [cliConfig_max hcfg]; decide) hf
  exact ⟨s1, _, r1, k1, by rw [r2]; exact h5⟩

/-- C97: `get` also succeeds with every target that one delegated role (or the top-level role) of an honest repository lists, if the roles for the path are all published, are at most
32, and no terminating delegation covers the path or none of the roles delegates the path twice (see `C90_cached`); again whatever earlier releases the cached metadata are from,
also those of delegated roles. Missing: as above. -/
theorem C97_get_delegated_partial {env : Env} (laws : EnvLaws env) {h : CliHost} {a : CliArgs} {cwd data : Bytes} {s : CliSt} (hready : CliReady h cwd data s) {cfg : Cfg}
    (hcfg : cliConfig env a cwd data = .ok cfg) {srv : Str → Int → Except Err Bytes} {now : Time} {r : RootType} {R : Files}
    (hgood : ClientRun.Good env (joinPath cwd b!"tuf_metadata") ⟨⟨env, h.toHost, cfg⟩, srv, now, r, R⟩) (hw : NoTemps s.world.fs)
    (hcache : CacheBefore env (joinPath cwd b!"tuf_metadata") s.world.fs R)
    {docs : Str → Option PubRole} (hbr : Branches ⟨env, h.toHost, cfg⟩ srv now r R.sn R.tg target docs) (hroles : RolesBefore env (joinPath cwd b!"tuf_metadata") s.world.fs docs)
    {names : List Str} (hnames : ∀ role, (docs role).isSome → role ∈ names) (hlen : names.length ≤ 32)
    (hun : Unhindered env target (fun m => ∃ role p, docs role = some p ∧ m = { signed := p.value }))
    {role : Str} {p : PubRole} {f : TargetFiles} (hreach : PubReached env docs target role) (hdoc : docs role = some p) (hf : p.value.targets.get? target = some (some f))
    (huniq : ∀ role' p', PubReached env docs target role' → docs role' = some p' → (p'.value.targets.get? target).isSome → role' = role)
    {file base content : Bytes} (hp : TargetPath ⟨env, h.toHost, cfg⟩ { f with path := target } [] file) (hne : file ≠ [])
    (hb : TargetBase ⟨env, h.toHost, cfg⟩ [] base) (hserve : ServingTarget ⟨env, h.toHost, cfg⟩ srv r.consistentSnapshot base { f with path := target } content)
    (hmatch : TargetMatches env f content) (hdeep : a.nonPrefixed = false → r.consistentSnapshot = true → target.count 47 ≤ 1) :
    ∃ g s', getCmd env h a target s = (.ok g, s') ∧ g.file = file ∧ ∃ d, s'.world.fs file = some d ∧ TargetMatches env f d := by
  refine get_finds hready hcfg hgood hw ?_ hp hne hb hserve hmatch hdeep
  intro s0 hm
  obtain ⟨t, h4, h5⟩ := hm.roots
  obtain ⟨s1, g1, g2, g3⟩ := onRelease_cached (x := ⟨env, h.toHost, cfg⟩) (s := s0) laws hgood.released hgood.served hgood.online hgood.network (.inr hgood.disk) hm.temps hm.rotations
    h4 h5 hm.timestamp hm.snapshot hm.targets hm.time (hm.cache (by rw [hgood.sameDir]; exact hcache)) hbr
    (hm.roles (fun role p hr => ⟨(hbr.named role p hr).1, by rintro rfl; exact (hbr.named _ p hr).2 (by decide)⟩) (by rw [hgood.sameDir]; exact hroles))
  obtain ⟨q1, _, _, _, q2⟩ := getTargetInfo_onRelease laws hgood.network (.inr hgood.disk) hbr g2 g3
  have q3 := (q2 names hnames (by show _ ≤ cfg.maxDelegations; rw [cliConfig_max hcfg]; omega) hun role p (some f) hreach hdoc hf).2 huniq
  exact ⟨s1, _, g1, Prod.ext q3 rfl, q1.root⟩

end Tuf
