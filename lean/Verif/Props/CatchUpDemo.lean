import Verif.Spec.CatchUpDemo
import Verif.Props.CatchUp
import Verif.Props.ClientExample

/-!
# The example client many root rotations behind
-/

namespace Tuf
open Spec

section
variable {env : Env} {h : CliHost} {u : DemoURLs} {target : Str} {rs : List RootFile}

/-- The rest of the run after a refresh leaves root.json as it is. -/
theorem demoGet_line {x : Ctx} {srv : Str → Int → Except Err Bytes} (hs : Serves x.host srv) (hn : NoRootTargets x.env x.cfg.remoteMetadataURL srv)
    (hf : ∀ path, x.env.urlJoin x.cfg.localTargetsDir (queryEscape path) ≠ some (persistPath x.cfg ROOT)) (s : St) :
    (demoGet x target s).2.world.fs (persistPath x.cfg ROOT) = (refresh x s).2.world.fs (persistPath x.cfg ROOT) := by
  unfold demoGet
  rw [SM.bind_apply]
  rcases hr : refresh x s with ⟨r, s1⟩
  cases r with
  | err e => rfl
  | panic => rfl
  | ok u =>
    dsimp only
    rw [SM.bind_apply]
    have h1 : (getTargetInfo x target s1).2.world.fs (persistPath x.cfg ROOT) = s1.world.fs (persistPath x.cfg ROOT) := by
      unfold getTargetInfo
      rw [SM.bind_ok (show getTrusted s1 = (.ok s1.trusted, s1) from rfl), if_pos (refresh_targets hr)]
      exact keepsFile_walk hs hn _ _ _ _ s1
    rcases hg : getTargetInfo x target s1 with ⟨r, s2⟩
    rw [hg] at h1
    cases r with
    | err e => exact h1
    | panic => exact h1
    | ok o =>
      refine Eq.trans ?_ h1
      refine keepsFile_bind keepsFile_lift (fun tf => keepsFile_bind (fun s => by rw [(C44_reads_only (x := x) tf [] s).1]) (fun c => keepsFile_bind ?_ (fun _ _ => rfl))) s2
      intro s
      have hx := exec_downloadTarget (x := x) (J := fun _ _ _ => False) (s := s) (tf := tf) (filePath := []) (url := [])
      obtain ⟨evs, h1, h2, _⟩ := exec_all (Q := fun _ => True) hx (fun _ _ _ _ => trivial)
      rw [h2]
      rcases exec_files hx (before := evs) (after := []) (by simpa using h1) (persistPath_not_temp x.cfg ROOT) (by
        intro hp
        have hp : targetFilePath x tf [] = .ok (persistPath x.cfg ROOT) := hp
        unfold targetFilePath generateTargetFilePath at hp
        rw [if_pos rfl] at hp
        split at hp
        · cases hp
        · cases hj : x.env.urlJoin x.cfg.localTargetsDir (queryEscape tf.path) with
          | none => rw [hj] at hp; cases hp
          | some q =>
            rw [hj] at hp
            cases hp
            exact hf _ hj) with h3 | ⟨_, _, _, _, _, h4⟩
      · exact h3
      · exact h4.elim

/-- One run, whatever comes of it, takes the trusted root 32 roots up the line, or to its end. -/
theorem demoMain_line (hl : RootLine env rs) {cwd : Str} {s : CliSt} (hg : DemoGood env cwd rs h u s)
    (hf : ∀ path, env.urlJoin (joinPath (joinPath cwd b!"tmp") b!"download") (queryEscape path) ≠ some (demoAnchor (joinPath cwd b!"tmp")))
    {i : Nat} {f : RootFile} (hi : rs[i]? = some f) (hfs : s.world.fs (demoAnchor (joinPath cwd b!"tmp")) = some f.data) :
    ∃ g, rs[min (i + 32) (rs.length - 1)]? = some g ∧ (demoMain env h u target s).2.world.fs (demoAnchor (joinPath cwd b!"tmp")) = some g.data := by
  obtain ⟨s1, o, q1, q2, q3, _⟩ := demo_init (h := h) s
  rw [hg.getwd] at q2
  have q2 : demoDir o = joinPath cwd b!"tmp" := demoFolder_unique q2 .found
  have q4 : demoMain env h u target s = SM.try' (onFiles (demoDownload env h u (joinPath cwd b!"tmp") target)) s1 := by
    unfold demoMain
    rw [SM.bind_ok q1, q2, SM.bind_ok (SM.try_ok (demo_stat (d := f.data) (by rw [q3]; exact hfs) (hg.stat _ _)))]
  rw [q4, SM.try_snd]
  generalize hdir : joinPath cwd b!"tmp" = dir at *
  have hdir0 : dir ≠ [] := by rw [← hdir]; exact joinPath_file_ne (by decide)
  rw [← q3] at hfs
  have htemps : NoTemps s1.world.fs := by rw [q3]; exact hg.temps
  obtain ⟨srv, hs, hr, hn⟩ := hg.server
  obtain ⟨turl, hturl⟩ := Option.isSome_iff_exists.1 hg.url.2
  generalize hcfg0 : ({ localTrustedRoot := f.data, remoteMetadataURL := u.metadata, remoteTargetsURL := u.targets, localMetadataDir := dir, localTargetsDir := joinPath dir b!"download", prefixTargetsWithHash := true } : Cfg) = cfg
  have hcfg : demoConfig env u dir f.data = .ok cfg := by
    unfold demoConfig Cfg.new
    rw [hturl, ← hcfg0]
    rfl
  have hread : readFile h.toHost (joinPath dir b!"root.json") s1.world = (.ok f.data, s1.world.emit (.read (demoAnchor dir) (some f.data))) := by
    unfold readFile
    have : s1.world.fs (joinPath dir b!"root.json") = some f.data := hfs
    dsimp only
    rw [hg.read, this]
    rfl
  have hanchor : demoAnchor dir = persistPath cfg ROOT := by
    rw [← hcfg0]
    rfl
  obtain ⟨p1, p2, p3⟩ := line_parsed hl hi
  have hw0 : Free TempName (s1.world.emit (.read (demoAnchor dir) (some f.data))).fs := htemps
  obtain ⟨w1, n1, n2, n3⟩ := new_line (x := ⟨env, h.toHost, cfg⟩) (m := f.value) (N := TempName) (fun now => C78_new.2 ⟨f.value, by rw [← hcfg0]; exact p1, p2, p3, rfl⟩)
    (by rw [← hcfg0]; exact hl.nonempty i f hi) (by rw [← hcfg0]; exact hg.url.1)
    (by rw [← hcfg0]; exact ⟨hdir0, joinPath_file_ne (by decide)⟩) hg.mkdir hg.disk (by rw [← hcfg0]) hw0
  have hmax : cfg.maxRootRotations = 32 := by rw [← hcfg0]
  obtain ⟨g, k1, _, k3⟩ := refresh_line (x := ⟨env, h.toHost, cfg⟩) (N := TempName) hl hs (by rw [← hcfg0]; exact hr) hg.disk (by rw [← hcfg0]) (by rw [← hcfg0]) (by dsimp only; rw [hmax]; decide) hi
    ⟨{ root := f.value, refTime := h.toHost.now (s1.world.emit (.read (demoAnchor dir) (some f.data))).trace }, w1⟩ rfl rfl (by rw [n3, ← hcfg0]) n2
  refine ⟨g, by rw [← k1]; dsimp only; rw [hmax]; rfl, ?_⟩
  rw [onFiles_apply]
  show (demoDownload env h u dir target s1.world).2.fs (demoAnchor dir) = some g.data
  unfold demoDownload
  rw [SM.bind_ok hread, hcfg]
  change (usingUpdater ⟨env, h.toHost, cfg⟩ (demoGet ⟨env, h.toHost, cfg⟩ target) (s1.world.emit (.read (demoAnchor dir) (some f.data)))).2.fs (demoAnchor dir) = some g.data
  unfold usingUpdater
  rw [n1]
  dsimp only
  rw [hanchor]
  rw [demoGet_line (x := ⟨env, h.toHost, cfg⟩) hs (by rw [← hcfg0]; exact hn) (by
    intro path hp
    refine hf path ?_
    rw [hanchor, ← hp, ← hcfg0])]
  rw [← hanchor] at k3 ⊢
  exact k3

/-- **C136** for the example client: after `k` runs, whatever comes of them, its trusted root is `32 * k` rotations further up the line of roots, or at its end. -/
theorem C136_demo_runs (hl : RootLine env rs) {cwd : Str} {fs fs' : FS} {k : Nat} (hg : DemoRuns env cwd rs fs k fs')
    (hf : ∀ path, env.urlJoin (joinPath (joinPath cwd b!"tmp") b!"download") (queryEscape path) ≠ some (demoAnchor (joinPath cwd b!"tmp"))) {i : Nat} {f : RootFile} (hi : rs[i]? = some f)
    (hfs : fs (demoAnchor (joinPath cwd b!"tmp")) = some f.data) :
    ∃ g, rs[min (i + 32 * k) (rs.length - 1)]? = some g ∧ fs' (demoAnchor (joinPath cwd b!"tmp")) = some g.data := by
  induction hg with
  | start =>
    have hlen := (List.getElem?_eq_some_iff.1 hi).1
    exact ⟨f, by rw [show min (i + 32 * 0) (rs.length - 1) = i by omega]; exact hi, hfs⟩
  | @run k fs1 h u target s _ he hgood ih =>
    obtain ⟨g, h1, h2⟩ := ih
    obtain ⟨g', h3, h4⟩ := demoMain_line (target := target) hl hgood hf h1 (by rw [he]; exact h2)
    exact ⟨g', by rw [← h3]; congr 1; omega, h4⟩
  | other _ he ih => rw [he]; exact ih

/-- **C136** for the example client: after enough runs its trusted root is the newest one. -/
theorem C136_demo_caught_up (hl : RootLine env rs) {cwd : Str} {fs fs' : FS} {k : Nat} (hg : DemoRuns env cwd rs fs k fs')
    (hf : ∀ path, env.urlJoin (joinPath (joinPath cwd b!"tmp") b!"download") (queryEscape path) ≠ some (demoAnchor (joinPath cwd b!"tmp"))) {f newest : RootFile} (h0 : rs[0]? = some f)
    (hfs : fs (demoAnchor (joinPath cwd b!"tmp")) = some f.data) (hn : rs[rs.length - 1]? = some newest) (hk : rs.length ≤ 32 * k + 1) :
    fs' (demoAnchor (joinPath cwd b!"tmp")) = some newest.data := by
  obtain ⟨g, h1, h2⟩ := C136_demo_runs hl hg hf h0 hfs
  rw [show min (0 + 32 * k) (rs.length - 1) = rs.length - 1 by omega, hn] at h1
  cases h1
  exact h2

end

end Tuf
