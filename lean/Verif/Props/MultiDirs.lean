import Verif.Spec.MultiDirs
import Verif.Props.MultiRepo
import Verif.Proofs.Clean
import Verif.Proofs.Cache

/-!
# Folders of a multi-repository client (C119, C120)
-/

namespace Tuf
open Spec Sample

section
variable {env : Env} {h : Host}

theorem initClients_all {c : MultiCfg} (P : Str → Client → World → Prop)
    (hstep : ∀ repo url urls bytes cfg t w w1 w2, (repo, some (url :: urls)) ∈ c.repoMap.repositories.entries → c.trustedRoots.get? repo = some bytes →
      multiEnsurePaths h c w = (.ok (), w1) → clientCfg env c repo url bytes = .ok cfg → newUpdater ⟨env, h, cfg⟩ w1 = (.ok t, w2) →
      P repo ⟨cfg, t⟩ w2 ∧ ∀ repo' cl, repo' ≠ repo → P repo' cl w → P repo' cl w2)
    {repos : List (Str × Slice Str)} (hsub : ∀ e ∈ repos, e ∈ c.repoMap.repositories.entries)
    {s s' : MSt} (hs : ∀ repo cl, s.clients.get? repo = some cl → P repo cl s.world) (hi : initClients env h c repos s = (.ok (), s')) :
    ∀ repo cl, s'.clients.get? repo = some cl → P repo cl s'.world := by
  induction repos generalizing s with
  | nil => cases hi; exact hs
  | cons e repos ih =>
    obtain ⟨repo, urls⟩ := e
    rw [initClients] at hi
    cases hurl : urls.elems with
    | nil => rw [hurl] at hi; cases hi
    | cons url rest =>
      rw [hurl] at hi
      dsimp only at hi
      cases hroot : c.trustedRoots.get? repo with
      | none => rw [hroot] at hi; cases hi
      | some bytes =>
        rw [hroot] at hi
        dsimp only at hi
        obtain ⟨_, s1, h1, hi⟩ := SM.bind_eq_ok.1 hi
        obtain ⟨w1, e1, rfl⟩ := mWorld_ok h1
        obtain ⟨cfg, s2, h2, hi⟩ := SM.bind_eq_ok.1 hi
        obtain ⟨h2, h2s⟩ := lift_ok h2
        obtain ⟨o, s3, h3, hi⟩ := SM.bind_eq_ok.1 hi
        rcases SM.try_eq_ok.1 h3 with ⟨t, rfl, h4⟩ | ⟨e, rfl, h4⟩
        · dsimp only at hi
          obtain ⟨w3, h5, h6⟩ := mWorld_ok h4
          obtain ⟨_, s4, h7, hi⟩ := SM.bind_eq_ok.1 hi
          cases h7
          have hmem : (repo, urls) ∈ c.repoMap.repositories.entries := hsub _ (.head _)
          have hurls : urls = some (url :: rest) := by
            cases urls with
            | none => cases hurl
            | some l => exact congrArg some hurl
          rw [hurls] at hmem
          rw [h2s] at h5
          obtain ⟨p1, p2⟩ := hstep repo url rest bytes cfg t s.world w1 w3 hmem hroot e1 h2 h5
          have hcl : s3.clients = s.clients := by rw [h6, h2s]
          have hw : s3.world = w3 := by rw [h6]
          refine ih (fun e he => hsub e (.tail _ he)) (s := { s3 with clients := s3.clients.set repo ⟨cfg, t⟩ }) ?_ hi
          intro r cl hr
          dsimp only at hr
          rw [Entries.get?_set] at hr
          show P r cl s3.world
          rw [hw]
          split at hr
          · next he => cases hr; exact he ▸ p1
          · next he => rw [hcl] at hr; exact p2 r cl (fun hx => he hx.symm) (hs r cl hr)
        · cases hi

theorem newMultiRepo_all {c : MultiCfg} (P : Str → Client → World → Prop)
    (hstep : ∀ repo url urls bytes cfg t w w1 w2, (repo, some (url :: urls)) ∈ c.repoMap.repositories.entries → c.trustedRoots.get? repo = some bytes →
      multiEnsurePaths h c w = (.ok (), w1) → clientCfg env c repo url bytes = .ok cfg → newUpdater ⟨env, h, cfg⟩ w1 = (.ok t, w2) →
      P repo ⟨cfg, t⟩ w2 ∧ ∀ repo' cl, repo' ≠ repo → P repo' cl w → P repo' cl w2)
    {w : World} {s' : MSt} (hn : newMultiRepo env h c { world := w } = (.ok (), s')) : ∀ repo cl, s'.clients.get? repo = some cl → P repo cl s'.world := by
  unfold newMultiRepo at hn
  obtain ⟨repos, s1, h1, hn⟩ := SM.bind_eq_ok.1 hn
  obtain ⟨w1, h2, rfl⟩ := mWorld_ok h1
  obtain ⟨o, l, h3, h4, h5⟩ := iterateMap_apply h c.repoMap.repositories.entries w
  rw [h5] at h2
  cases h2
  have hperm := perm_iterate (es := c.repoMap.repositories.entries) h3
  rw [← h4] at hperm
  exact initClients_all P hstep (fun e he => hperm.mem_iff.1 he) (by intro r cl hr; cases hr) hn

theorem clientCfg_own {c : MultiCfg} (hu : UniqueKeys c.repoMap.repositories) {repo url : Str} {urls : List Str} {bytes : Bytes} {cfg : Cfg}
    (hm : (repo, some (url :: urls)) ∈ c.repoMap.repositories.entries) (hr : c.trustedRoots.get? repo = some bytes) (hc : clientCfg env c repo url bytes = .ok cfg) : OwnConfig c repo cfg := by
  unfold clientCfg at hc
  dsimp only at hc
  obtain ⟨cfg0, h8, h9⟩ := Res.bind_eq_ok.1 hc
  cases h9
  unfold Cfg.new at h8
  split at h8
  · cases h8
  · cases h8
    refine ⟨⟨urls, Entries.get?_of_mem hu hm⟩, hr, rfl, ?_, ?_, rfl, ⟨rfl, rfl, rfl, rfl, rfl, rfl⟩, rfl, rfl⟩
    · intro hne
      dsimp only
      rw [if_neg (fun h0 => hne (List.length_eq_zero_iff.1 h0))]
    · intro he
      dsimp only
      rw [if_pos (by rw [he]; rfl)]

/-- **C119.** After a successful `New` every client has the configuration of its repository. -/
theorem C119_clients {c : MultiCfg} (hu : UniqueKeys c.repoMap.repositories) {w : World} {s' : MSt} (hn : newMultiRepo env h c { world := w } = (.ok (), s')) :
    ∀ repo cl, s'.clients.get? repo = some cl → OwnConfig c repo cl.cfg := by
  refine newMultiRepo_all (P := fun repo cl _ => OwnConfig c repo cl.cfg) ?_ hn
  intro repo url urls bytes cfg t w w1 w2 hm hr _ hc _
  exact ⟨clientCfg_own hu hm hr hc, fun _ _ _ hp => hp⟩

/-! ## Files of different repositories -/

theorem metadataFile_path {c : MultiCfg} {repo : Str} (hr : PlainName repo) {cfg : Cfg} (hc : cfg.localMetadataDir = joinPath c.localMetadataDir repo) {role file : Str} :
    MetadataFile c repo role file ↔ file = persistPath cfg role := by
  unfold MetadataFile persistPath
  rw [hc, joinPath_join hr (plainName_json role)]
  simp only [List.append_assoc]

theorem metadataFile_separate {c : MultiCfg} {repo repo' role role' file : Str} (hr : PlainName repo) (hr' : PlainName repo') (hf : MetadataFile c repo role file)
    (hf' : MetadataFile c repo' role' file) : repo = repo' ∧ role = role' := by
  unfold MetadataFile at hf hf'
  obtain ⟨D, _, hj⟩ := joinPath_plain c.localMetadataDir
  rw [hf, hj _ hr, hj _ hr'] at hf'
  simp only [List.append_assoc] at hf'
  obtain ⟨h4, h5⟩ := cut_unique hr.noSlash hr'.noSlash (List.append_cancel_left hf')
  exact ⟨h4, queryEscape_inj (List.append_cancel_right h5)⟩

/-- **C119** for repositories whose names are path components: no call on the client of one repository, whatever its servers answer, changes the metadata files or the trusted metadata of
another repository, unless the caller asks to store a target in such a file. -/
theorem C119_isolated_partial {c : MultiCfg} {s : MSt} {repo repo' : Str} {cl : Client} (hcl : s.clients.get? repo = some cl) (hown : OwnConfig c repo cl.cfg) (hr : PlainName repo)
    (hr' : PlainName repo') (hne : repo' ≠ repo) (a : Api) {role file : Str} (hf : MetadataFile c repo' role file)
    (hdl : ∀ tf f u, a = .downloadTarget tf f u → targetFilePath ⟨env, h, cl.cfg⟩ tf f ≠ .ok file) :
    (onClient env h repo (fun x s => a.run x s) s).2.world.fs file = s.world.fs file ∧
    (onClient env h repo (fun x s => a.run x s) s).2.clients.get? repo' = s.clients.get? repo' := by
  have hx : (onClient env h repo (fun x s => a.run x s) s).2 = { clients := s.clients.set repo { cl with trusted := (a.run ⟨env, h, cl.cfg⟩ ⟨cl.trusted, s.world⟩).2.trusted }, world := (a.run ⟨env, h, cl.cfg⟩ ⟨cl.trusted, s.world⟩).2.world } := by
    unfold onClient
    rw [hcl]
  rw [hx]
  refine ⟨?_, by dsimp only; rw [Entries.get?_set, if_neg hne.symm]⟩
  have hnt : ¬ TempName file := by
    rw [(metadataFile_path (cfg := { localMetadataDir := joinPath c.localMetadataDir repo' }) hr' rfl).1 hf]
    exact persistPath_not_temp _ _
  have he := api_exec ⟨env, h, cl.cfg⟩ (T := cl.trusted) (s := ⟨cl.trusted, s.world⟩) .refl a
  obtain ⟨evs, h1, h2, _⟩ := exec_all (Q := fun _ => True) he (fun _ _ _ _ => trivial)
  have h3 := exec_files he (before := evs) (after := []) (by simpa using h1) hnt (by
    cases a with
    | downloadTarget tf f u => exact hdl tf f u rfl
    | refresh => exact id
    | getTargetInfo => exact id
    | findCachedTarget => exact id)
  dsimp only
  rw [h2]
  rcases h3 with h3 | ⟨r, d, t, h3, _, _⟩
  · exact h3
  · exact absurd (metadataFile_separate hr hr' ((metadataFile_path hr hown.metadata).2 h3) hf).1 hne.symm

theorem multiEnsurePaths_fs {c : MultiCfg} {w w' : World} (he : multiEnsurePaths h c w = (.ok (), w')) : w'.fs = w.fs := by
  have mk : ∀ {p : Str} {w w' : World}, mkdirAll h p w = (.ok (), w') → w'.fs = w.fs := by
    intro p w w' hm
    unfold mkdirAll at hm
    dsimp only at hm
    split at hm <;> cases hm
    rfl
  unfold multiEnsurePaths at he
  split at he
  · cases he; rfl
  · obtain ⟨_, w1, h1, h2⟩ := SM.bind_eq_ok.1 he
    rw [mk h2, mk h1]

/-- A successful `updater.New` stores the root, and changes no other file. -/
theorem newUpdater_files {x : Ctx} {w w' : World} {t : Trusted} (hn : newUpdater x w = (.ok t, w')) :
    (x.cfg.disableLocalCache = false → w'.fs (persistPath x.cfg ROOT) = some x.cfg.localTrustedRoot) ∧ ∀ p, ¬ TempName p → p ≠ persistPath x.cfg ROOT → w'.fs p = w.fs p := by
  constructor
  · intro hd
    unfold newUpdater at hn
    split at hn
    · cases hn
    · split at hn
      · obtain ⟨_, w1, _, h2⟩ := SM.bind_eq_ok.1 hn
        obtain ⟨_, w2, h3, h4⟩ := SM.bind_eq_ok.1 h2
        cases h4
        exact persist_ok hd h3
      · cases hn
      · cases hn
  · intro p hp hne
    have hw : w' = (newUpdater x w).2 := by rw [hn]
    rcases exec_newUpdater (x := x) (w := w) with h1 | ⟨t, _, h1, _⟩
    · rw [hw, h1]
    · rw [← hw] at h1
      obtain ⟨evs, h2, h3, _⟩ := exec_all (Q := fun _ => True) h1 (fun _ _ _ _ => trivial)
      have h4 := exec_files h1 (before := evs) (after := []) (by simpa using h2) hp (fun h => h)
      have h3 : w'.fs = _ := h3
      rw [h3]
      rcases h4 with h4 | ⟨r, d, t', h4, _, h5⟩
      · exact h4
      · exact absurd (h4.trans (by rw [h5.1]; rfl)) hne

/-- **C119** for repositories whose names are path components: after a successful `New` with caching the root file in the folder of each repository is the root that was configured for it. -/
theorem C119_roots_partial {c : MultiCfg} (hu : UniqueKeys c.repoMap.repositories) (hd : c.disableLocalCache = false) (hplain : ∀ repo, (c.repoMap.repositories.get? repo).isSome → PlainName repo)
    {w : World} {s' : MSt} (hn : newMultiRepo env h c { world := w } = (.ok (), s')) {repo : Str} (hr : (c.repoMap.repositories.get? repo).isSome) {file : Str}
    (hf : MetadataFile c repo b!"root" file) : s'.world.fs file = c.trustedRoots.get? repo ∧ (c.trustedRoots.get? repo).isSome := by
  have key := newMultiRepo_all (h := h) (env := env) (c := c) (P := fun repo cl w => PlainName repo ∧ ∀ file, MetadataFile c repo b!"root" file → w.fs file = c.trustedRoots.get? repo) (by
    intro repo url urls bytes cfg t w w1 w2 hm hr h1 hc h2
    have hp : PlainName repo := hplain repo (by rw [show c.repoMap.repositories.get? repo = _ from Entries.get?_of_mem hu hm]; rfl)
    have hown := clientCfg_own (c := c) hu hm hr hc
    have hw1 : w1.fs = w.fs := multiEnsurePaths_fs h1
    obtain ⟨g1, g2⟩ := newUpdater_files h2
    refine ⟨⟨hp, ?_⟩, ?_⟩
    · intro file hf
      rw [(metadataFile_path hp hown.metadata).1 hf, hown.root]
      exact g1 (by rw [show cfg.disableLocalCache = _ from hown.cache]; exact hd)
    · rintro repo' cl hne ⟨hp', hold⟩
      refine ⟨hp', ?_⟩
      intro file hf
      have hpath := (metadataFile_path (cfg := { localMetadataDir := joinPath c.localMetadataDir repo' }) hp' rfl).1 hf
      rw [g2 file (by rw [hpath]; exact persistPath_not_temp _ _) (by
        intro he
        exact hne (metadataFile_separate hp' hp hf ((metadataFile_path hp hown.metadata).2 he)).1), hw1]
      exact hold file hf) hn
  obtain ⟨k1, k2⟩ := C72_clients hu hn
  obtain ⟨cl, hcl⟩ := Option.isSome_iff_exists.1 ((k1 repo).2 hr)
  obtain ⟨bytes, hb, _⟩ := (k2 repo cl hcl).root
  exact ⟨(key repo cl hcl).2 file hf, by rw [hb]; rfl⟩

/-! ## The folder for targets -/

/-- **C120** whenever `New` succeeds: a folder for targets that is configured is the one that every client uses; without one every client has its own. Missing: with caching and without a
configured folder `New` does not succeed (`C120_false`). -/
theorem C120_targets_partial {c : MultiCfg} (hu : UniqueKeys c.repoMap.repositories) {w : World} {s' : MSt}
    (hn : newMultiRepo env h c { world := w } = (.ok (), s')) : ∀ repo cl, s'.clients.get? repo = some cl →
      (c.localTargetsDir ≠ [] ∧ cl.cfg.localTargetsDir = c.localTargetsDir) ∨
      (c.localTargetsDir = [] ∧ cl.cfg.localTargetsDir = joinPath (joinPath c.localMetadataDir repo) b!"targets") := by
  intro repo cl hcl
  have := C119_clients hu hn repo cl hcl
  by_cases ht : c.localTargetsDir = []
  · exact .inr ⟨ht, this.targetsUnset ht⟩
  · exact .inl ⟨ht, this.targets ht⟩

/-- **C120** is false with caching: without a folder for targets `New` fails, whatever the map file, roots and disk. -/
theorem C120_false {c : MultiCfg} (hd : c.disableLocalCache = false) (ht : c.localTargetsDir = []) (hne : c.repoMap.repositories.entries ≠ []) (w : World) :
    ∀ s', newMultiRepo env h c { world := w } ≠ (.ok (), s') := by
  intro s' hn
  have hno : ∀ w w1, multiEnsurePaths h c w ≠ (.ok (), w1) := by
    intro w w1 he
    unfold multiEnsurePaths at he
    rw [if_neg (by simp [hd])] at he
    obtain ⟨_, w2, _, h2⟩ := SM.bind_eq_ok.1 he
    rw [ht] at h2
    unfold mkdirAll at h2
    simp at h2
  unfold newMultiRepo at hn
  obtain ⟨repos, s1, h1, hn⟩ := SM.bind_eq_ok.1 hn
  obtain ⟨w1, h2, rfl⟩ := mWorld_ok h1
  obtain ⟨o, l, h3, h4, h5⟩ := iterateMap_apply h c.repoMap.repositories.entries w
  rw [h5] at h2
  cases h2
  have hperm := perm_iterate (es := c.repoMap.repositories.entries) h3
  rw [← h4] at hperm
  cases hl : repos with
  | nil =>
    rw [hl] at hperm
    exact hne (List.nil_perm.1 hperm)
  | cons e rest =>
    rw [hl] at hn
    obtain ⟨repo, urls⟩ := e
    rw [initClients] at hn
    cases hurl : urls.elems with
    | nil => rw [hurl] at hn; cases hn
    | cons url tl =>
      rw [hurl] at hn
      dsimp only at hn
      cases hroot : c.trustedRoots.get? repo with
      | none => rw [hroot] at hn; cases hn
      | some bytes =>
        rw [hroot] at hn
        dsimp only at hn
        obtain ⟨_, s1, h1, hi⟩ := SM.bind_eq_ok.1 hn
        obtain ⟨w1, e1, rfl⟩ := mWorld_ok h1
        exact hno _ _ e1

end

/-! ## Examples -/

namespace Sample

/-- The configuration from a map file with these repositories and roots, changed by `set`, and what `New` does with it on an empty disk. -/
def dirsNew (repos : List (Str × Bytes)) (set : MultiCfg → MultiCfg) : Res Unit × MSt :=
  let env : Env := { repoEnv with parse := fun b => if b = [10] then some (.obj [(b!"repositories", .obj (repos.map (fun e => (e.1, .arr [.str b!"1"]))))]) else repoEnv.parse b }
  match newMultiConfig env [10] repos with
  | .ok c => newMultiRepo env (hostOf (multiServer [])) (set c) { world := { fs := disk [] } }
  | _ => (.panic, { world := { fs := disk [] } })

/-- The folders of a client. -/
def dirsOf (s : MSt) (repo : Str) : Option (Str × Str) := (s.clients.get? repo).map (fun cl => (cl.cfg.localMetadataDir, cl.cfg.localTargetsDir))

end Sample

/-- Two repositories with their folders and roots; and with caching disabled and no folder for targets. -/
example : (dirsNew [(b!"1", [1, 1]), (b!"2", [1, 2])] (fun c => { c with localMetadataDir := b!"m", localTargetsDir := b!"t" })).1 = .ok () ∧
    (let s := (dirsNew [(b!"1", [1, 1]), (b!"2", [1, 2])] (fun c => { c with localMetadataDir := b!"m", localTargetsDir := b!"t" })).2
     dirsOf s b!"1" = some (b!"m/1", b!"t") ∧ dirsOf s b!"2" = some (b!"m/2", b!"t") ∧ s.world.fs b!"m/1/root.json" = some [1, 1] ∧ s.world.fs b!"m/2/root.json" = some [1, 2]) ∧
    (dirsNew [(b!"1", [1, 1]), (b!"2", [1, 2])] (fun c => { c with localMetadataDir := b!"m", disableLocalCache := true })).1 = .ok () ∧
    (let s := (dirsNew [(b!"1", [1, 1]), (b!"2", [1, 2])] (fun c => { c with localMetadataDir := b!"m", disableLocalCache := true })).2
     dirsOf s b!"1" = some (b!"m/1", b!"m/1/targets") ∧ dirsOf s b!"2" = some (b!"m/2", b!"m/2/targets")) := by decide +kernel

/-- **C119** is false for other names: the map file may name a repository `2/../1`, which shares the folder of repository `1` and overwrites its root, and a repository `..`, whose files lie
outside the folder for metadata. -/
theorem C119_false :
    (dirsNew [(b!"1", [1, 1]), (b!"2/../1", [1, 2]), (b!"..", [1, 3])] (fun c => { c with localMetadataDir := b!"a/m", localTargetsDir := b!"t" })).1 = .ok () ∧
    (let s := (dirsNew [(b!"1", [1, 1]), (b!"2/../1", [1, 2]), (b!"..", [1, 3])] (fun c => { c with localMetadataDir := b!"a/m", localTargetsDir := b!"t" })).2
     dirsOf s b!"1" = some (b!"a/m/1", b!"t") ∧ dirsOf s b!"2/../1" = some (b!"a/m/1", b!"t") ∧ s.world.fs b!"a/m/1/root.json" = some [1, 2] ∧
     s.world.fs b!"a/root.json" = some [1, 3]) := by decide +kernel

/-- With caching and no folder for targets `New` fails (C120). -/
example : isErr (dirsNew [(b!"1", [1, 1])] (fun c => { c with localMetadataDir := b!"m" })).1 = true := by decide +kernel

end Tuf
