import Verif.Spec.MultiHonest
import Verif.Props.MultiDirs
import Verif.Props.Temps
import Verif.Props.HonestTree
import Verif.Props.Follow
import Verif.Props.Small

/-!
# Repositories that agree (C122)
-/

namespace Tuf
open Spec Sample

section
variable {env : Env} {h : Host} {path : Str}

/-! ## Agreement gives a result -/

theorem asked_det {repos : List Str} {s s1 s2 : MSt} {as bs : Answers} (ha : Asked env h path repos s as s1) (hb : Asked env h path repos s bs s2) : as = bs ∧ s1 = s2 := by
  induction ha generalizing bs with
  | nil => cases hb; exact ⟨rfl, rfl⟩
  | info h1 _ ih =>
    cases hb with
    | info h2 hb =>
      rw [h1] at h2
      cases h2
      obtain ⟨rfl, rfl⟩ := ih hb
      exact ⟨rfl, rfl⟩
    | error h2 _ => rw [h1] at h2; cases h2
  | error h1 _ ih =>
    cases hb with
    | info h2 _ => rw [h1] at h2; cases h2
    | error h2 hb =>
      rw [h1] at h2
      cases h2
      obtain ⟨rfl, rfl⟩ := ih hb
      exact ⟨rfl, rfl⟩

theorem asked_no_crash {repos : List Str} {s s1 s2 : MSt} {as : Answers} (ha : Asked env h path repos s as s1) : ¬ AskCrash env h path repos s s2 := by
  rintro ⟨before, repo, after, bs, s3, r, rfl, hb, hr, hc⟩
  induction hb generalizing as with
  | nil =>
    cases ha with
    | info h1 _ => rw [h1] at hr; cases hr; rcases hc with hc | hc <;> cases hc
    | error h1 _ => rw [h1] at hr; cases hr; rcases hc with hc | hc <;> cases hc
  | info h1 _ ih =>
    cases ha with
    | info h2 ha => rw [h1] at h2; cases h2; exact ih ha hr
    | error h2 _ => rw [h1] at h2; cases h2
  | error h1 _ ih =>
    cases ha with
    | info h2 _ => rw [h1] at h2; cases h2
    | error h2 ha => rw [h1] at h2; cases h2; exact ih ha hr

theorem agreed_group {as : Answers} {gs : List TargetMatch} (hg : GroupsOf as gs) (ha : Agreed as) :
    ∃ g, gs = [g] ∧ (∀ r, r ∈ g.repositories ↔ ∃ info, (r, some info) ∈ as) ∧ ∃ repo, (repo, some g.targetInfo) ∈ as := by
  have hin : ∀ g ∈ gs, ∃ repo, (repo, some g.targetInfo) ∈ as := by
    intro g hm
    obtain ⟨_, before, repo, after, h1, _⟩ := hg.sound g hm
    exact ⟨repo, by rw [h1]; simp⟩
  obtain ⟨repo, info, hi⟩ := ha.some'
  obtain ⟨g, hm, _⟩ := hg.complete repo info hi
  have hone : gs = [g] := by
    cases hgs : gs with
    | nil => rw [hgs] at hm; cases hm
    | cons a tl =>
      cases tl with
      | nil =>
        rw [hgs] at hm
        rw [List.mem_singleton.1 hm]
      | cons b tl =>
        exfalso
        have hd := hg.distinct
        rw [hgs] at hd
        have hab := (List.pairwise_cons.1 hd).1 b (by simp)
        obtain ⟨ra, h1⟩ := hin a (by rw [hgs]; simp)
        obtain ⟨rb, h2⟩ := hin b (by rw [hgs]; simp)
        rw [ha.equal _ _ _ _ h1 h2] at hab
        cases hab
  refine ⟨g, hone, ?_, hin g hm⟩
  intro r
  constructor
  · intro hr
    obtain ⟨_, before, repo, after, h1, h2⟩ := hg.sound g hm
    rcases (h2 r).1 hr with rfl | ⟨info, h3, _⟩
    · exact ⟨g.targetInfo, by rw [h1]; simp⟩
    · exact ⟨info, by rw [h1]; exact List.mem_append_right _ (.tail _ h3)⟩
  · rintro ⟨info, hi⟩
    obtain ⟨g', hm', hr, _⟩ := hg.complete r info hi
    rw [hone, List.mem_singleton] at hm'
    exact hm' ▸ hr

/-- **C122.** The first pattern that matches belongs to a mapping whose repositories answer with equal infos or not at all; those that answer are enough for the threshold. Then `GetTargetInfo`
returns one of the infos, and all the repositories that answered. -/
theorem C122_agreement {c : MultiCfg} {s s' : MSt} {skipped rest : List (Option (Str × Mapping))} {p : Str} {m : Mapping} {as : Answers}
    (hag : agenda c.repoMap.mapping.elems = skipped ++ some (p, m) :: rest) (hskip : ∀ o ∈ skipped, ∃ q m', o = some (q, m') ∧ env.glob q path = some false) (hp : env.glob p path = some true)
    (ha : Asked env h path m.repositories.elems s as s') (hagree : Agreed as) {names : List Str} (hn : names.Nodup) (hnames : ∀ r ∈ names, ∃ info, (r, some info) ∈ as)
    (hth : m.threshold ≤ (names.length : Int)) :
    ∃ g, multiGetTargetInfo env h c path s = (.ok g, s') ∧ g.repositories.Nodup ∧ (∀ r, r ∈ g.repositories ↔ ∃ info, (r, some info) ∈ as) ∧ ∃ repo, (repo, some g.targetInfo) ∈ as := by
  obtain ⟨cs, hr⟩ := C68_search (env := env) (h := h) (path := path) c s
  have key : ∀ {ag : List (Option (Str × Mapping))} {s0 s1 : MSt} {cs : List Consult} {out : Res TargetMatch}, MultiRun env h path ag s0 cs out s1 → ag = skipped ++ some (p, m) :: rest → s0 = s →
      ∃ g, out = .ok g ∧ s1 = s' ∧ g.repositories.Nodup ∧ (∀ r, r ∈ g.repositories ↔ ∃ info, (r, some info) ∈ as) ∧ ∃ repo, (repo, some g.targetInfo) ∈ as := by
    clear hr cs hag
    induction skipped with
    | nil =>
      intro ag s0 s1 cs out hr hag hs
      subst hs
      have hreach : ∀ {gs : List TargetMatch} {as' : Answers} {s2 : MSt}, Asked env h path m.repositories.elems s0 as' s2 → GroupsOf as' gs → as' = as ∧ s2 = s' ∧
          ∃ g, gs = [g] ∧ Reaches m.threshold g ∧ g.repositories.Nodup ∧ (∀ r, r ∈ g.repositories ↔ ∃ info, (r, some info) ∈ as) ∧ ∃ repo, (repo, some g.targetInfo) ∈ as := by
        intro gs as' s2 ha' hg
        obtain ⟨rfl, rfl⟩ := asked_det ha' ha
        obtain ⟨g, h1, h2, h3⟩ := agreed_group hg hagree
        have hnd := (hg.sound g (by rw [h1]; simp)).1
        refine ⟨rfl, rfl, g, h1, ?_, hnd, h2, h3⟩
        unfold Reaches
        have hsub : names.length ≤ g.repositories.length := hn.length_le_of_subset (fun r hr => (h2 r).2 (hnames r hr))
        omega
      cases hr with
      | exhausted => cases hag
      | nullMapping => cases hag
      | badPattern h1 => cases hag; rw [hp] at h1; cases h1
      | noMatch h1 => cases hag; rw [hp] at h1; cases h1
      | crash _ h1 => cases hag; exact absurd h1 (asked_no_crash ha)
      | ambiguous _ h1 h2 h3 =>
        cases hag
        obtain ⟨rfl, rfl, g, rfl, _⟩ := hreach h1 h2
        cases h3 with
        | many he _ _ =>
          have := congrArg List.length he
          simp at this
          omega
      | chosen _ h1 h2 h3 h4 =>
        cases hag
        obtain ⟨rfl, rfl, g, rfl, _, h5⟩ := hreach h1 h2
        cases h4
        exact ⟨g, rfl, rfl, h5⟩
      | terminated _ h1 h2 h3 _ =>
        cases hag
        obtain ⟨rfl, rfl, g, rfl, h4, _⟩ := hreach h1 h2
        cases h3 with
        | none h3 => exact absurd h4 (h3 g (by simp))
      | next _ h1 h2 h3 _ _ =>
        cases hag
        obtain ⟨rfl, rfl, g, rfl, h4, _⟩ := hreach h1 h2
        cases h3 with
        | none h3 => exact absurd h4 (h3 g (by simp))
    | cons o skipped ih =>
      intro ag s0 s1 cs out hr hag hs
      obtain ⟨q, m', rfl, hq⟩ := hskip o (by simp)
      rw [List.cons_append] at hag
      cases hr with
      | exhausted => cases hag
      | nullMapping => cases hag
      | badPattern h1 => cases hag; rw [hq] at h1; cases h1
      | noMatch _ h2 => 
        cases hag
        exact ih (fun o ho => hskip o (.tail _ ho)) h2 rfl hs
      | crash h1 => cases hag; rw [hq] at h1; cases h1
      | ambiguous h1 => cases hag; rw [hq] at h1; cases h1
      | chosen h1 => cases hag; rw [hq] at h1; cases h1
      | terminated h1 => cases hag; rw [hq] at h1; cases h1
      | next h1 => cases hag; rw [hq] at h1; cases h1
  obtain ⟨g, h1, h2, h3⟩ := key hr hag rfl
  exact ⟨g, Prod.ext h1 h2, h3⟩

/-! ## Starting -/

variable {srv : Str → Int → Except Err Bytes} {now : Time} {c : MultiCfg}

theorem mkdir_progress (hh : GoodHost h srv now) {p : Str} (hp : p ≠ []) (w : World) : mkdirAll h p w = (.ok (), w.emit (.mkdir p true)) := by
  unfold mkdirAll
  simp [hp, hh.mkdir]

theorem newUpdater_starts (hh : GoodHost h srv now) {cfg : Cfg} {t : Trusted} (hroot : cfg.localTrustedRoot ≠ []) (hurl : cfg.remoteMetadataURL ≠ []) (hcache : cfg.disableLocalCache = false)
    (hdirs : cfg.localMetadataDir ≠ [] ∧ cfg.localTargetsDir ≠ []) (ht : Trusted.new env now cfg.localTrustedRoot = .ok t) {w : World} (hw : NoTemps w.fs) :
    ∃ w1, newUpdater ⟨env, h, cfg⟩ w = (.ok t, w1) ∧ NoTemps w1.fs := by
  have hen : ensurePathsExist ⟨env, h, cfg⟩ w = (.ok (), (w.emit (.mkdir cfg.localMetadataDir true)).emit (.mkdir cfg.localTargetsDir true)) := by
    unfold ensurePathsExist
    rw [if_neg (by rw [hcache]; simp), SM.bind_ok (mkdir_progress hh hdirs.1 _), mkdir_progress hh hdirs.2]
  obtain ⟨w1, p1, p2, _⟩ := persist_progress (x := ⟨env, h, cfg⟩) (.inr hh.disk) ROOT cfg.localTrustedRoot
    (w := (w.emit (.mkdir cfg.localMetadataDir true)).emit (.mkdir cfg.localTargetsDir true)) hw
  refine ⟨w1, ?_, p2⟩
  unfold newUpdater
  rw [if_neg (by simp [hroot, hurl]), hh.clock, ht]
  dsimp only
  rw [SM.bind_ok hen, SM.bind_ok p1]
  rfl

/-- The client of a repository as it is after `New`. -/
structure Started (env : Env) (now : Time) (c : MultiCfg) (repo : Str) (cl : Client) : Prop where
  own : OwnConfig c repo cl.cfg
  fresh : Trusted.new env now cl.cfg.localTrustedRoot = .ok cl.trusted
  remote : env.urlJoin cl.cfg.remoteMetadataURL b!"targets" = some cl.cfg.remoteTargetsURL

theorem joinPath_ne_nil {a b : Str} (hb : PlainName b) : joinPath a b ≠ [] := by
  obtain ⟨D, _, hj⟩ := joinPath_plain a
  rw [hj b hb]
  intro h0
  exact hb.nonempty (List.append_eq_nil_iff.1 h0).2

theorem initClients_starts (hh : GoodHost h srv now) (hc : CanStart env now c) {repos : List (Str × Slice Str)} (hsub : ∀ e ∈ repos, e ∈ c.repoMap.repositories.entries) {s : MSt} (hw : NoTemps s.world.fs)
    (hs : ∀ repo cl, s.clients.get? repo = some cl → Started env now c repo cl) :
    ∃ s', initClients env h c repos s = (.ok (), s') ∧ NoTemps s'.world.fs ∧ (∀ repo cl, s'.clients.get? repo = some cl → Started env now c repo cl) ∧
      ∀ repo role file, PlainName repo → role ≠ ROOT → MetadataFile c repo role file → s'.world.fs file = s.world.fs file := by
  induction repos generalizing s with
  | nil => exact ⟨s, rfl, hw, hs, fun _ _ _ _ _ _ => rfl⟩
  | cons e repos ih =>
    obtain ⟨repo, urls⟩ := e
    have hmem : (repo, urls) ∈ c.repoMap.repositories.entries := hsub _ (.head _)
    obtain ⟨hp, ⟨url, rest, rfl, hurl, htu⟩, bytes, t, hb, hbne, ht⟩ := hc.repos repo urls (Entries.get?_of_mem hc.unique hmem)
    obtain ⟨tu, htu⟩ := Option.isSome_iff_exists.1 htu
    obtain ⟨cfg, hcfg, hrem⟩ : ∃ cfg, clientCfg env c repo url bytes = .ok cfg ∧ env.urlJoin cfg.remoteMetadataURL b!"targets" = some cfg.remoteTargetsURL := by
      unfold clientCfg Cfg.new
      rw [htu]
      exact ⟨_, rfl, htu⟩
    have hown := clientCfg_own hc.unique hmem hb hcfg
    have hrt : cfg.localTrustedRoot = bytes := by
      have := hown.root
      rw [hb] at this
      exact (Option.some.inj this).symm
    have hun : cfg.remoteMetadataURL ≠ [] := by
      obtain ⟨us, hu⟩ := hown.url
      have h2 := Entries.get?_of_mem hc.unique hmem
      rw [show c.repoMap.repositories.get? repo = _ from h2] at hu
      cases hu
      exact hurl
    have hens : multiEnsurePaths h c s.world = (.ok (), (s.world.emit (.mkdir c.localMetadataDir true)).emit (.mkdir c.localTargetsDir true)) := by
      unfold multiEnsurePaths
      rw [if_neg (by rw [hc.caching]; simp), SM.bind_ok (mkdir_progress hh hc.dirs.1 _), mkdir_progress hh hc.dirs.2]
    obtain ⟨w2, n1, n2⟩ := newUpdater_starts (env := env) (t := t) hh (cfg := cfg) (by rw [hrt]; exact hbne) hun (hown.cache.trans hc.caching)
      ⟨by rw [hown.metadata]; exact joinPath_ne_nil hp, by rw [hown.targets hc.dirs.2]; exact hc.dirs.2⟩ (by rw [hrt]; exact ht)
      (w := (s.world.emit (.mkdir c.localMetadataDir true)).emit (.mkdir c.localTargetsDir true)) hw
    obtain ⟨s', i1, i2, i3, i4⟩ := ih (fun e he => hsub e (.tail _ he)) (s := { clients := s.clients.set repo ⟨cfg, t⟩, world := w2 }) n2 (by
      intro r cl hr
      dsimp only at hr
      rw [Entries.get?_set] at hr
      split at hr
      · next he => cases hr; subst he; exact ⟨hown, by rw [hrt]; exact ht, hrem⟩
      · exact hs r cl hr)
    refine ⟨s', ?_, i2, i3, ?_⟩
    · rw [initClients]
      have hel : Slice.elems (some (url :: rest) : Slice Str) = url :: rest := rfl
      rw [hel]
      dsimp only
      rw [hb]
      dsimp only
      have e1 : mWorld (multiEnsurePaths h c) s = (.ok (), { s with world := (s.world.emit (.mkdir c.localMetadataDir true)).emit (.mkdir c.localTargetsDir true) }) := by
        unfold mWorld
        rw [hens]
      rw [SM.bind_ok e1, hcfg]
      have e2 : (mWorld (newUpdater ⟨env, h, cfg⟩)) { s with world := (s.world.emit (.mkdir c.localMetadataDir true)).emit (.mkdir c.localTargetsDir true) } = (.ok t, { s with world := w2 }) := by
        unfold mWorld
        dsimp only
        rw [n1]
      have e3 : (SM.lift (.ok cfg) : MM Cfg) { s with world := (s.world.emit (.mkdir c.localMetadataDir true)).emit (.mkdir c.localTargetsDir true) } = (.ok cfg, { s with world := (s.world.emit (.mkdir c.localMetadataDir true)).emit (.mkdir c.localTargetsDir true) }) := rfl
      rw [SM.bind_ok e3, SM.bind_ok (SM.try_ok e2)]
      exact i1
    · intro repo' role file hp' hne hf
      rw [i4 repo' role file hp' hne hf]
      have hpath := (metadataFile_path (cfg := { localMetadataDir := joinPath c.localMetadataDir repo' }) hp' rfl).1 hf
      exact (newUpdater_files n1).2 file (by rw [hpath]; exact persistPath_not_temp _ _) (by
        intro he
        exact hne (metadataFile_separate hp' hp hf ((metadataFile_path hp hown.metadata).2 he)).2)

/-- `New` succeeds. -/
theorem new_starts (hh : GoodHost h srv now) (hc : CanStart env now c) {w : World} (hw : NoTemps w.fs) :
    ∃ s', newMultiRepo env h c { world := w } = (.ok (), s') ∧ NoTemps s'.world.fs ∧ (∀ repo cl, s'.clients.get? repo = some cl → Started env now c repo cl) ∧
      ∀ repo role file, PlainName repo → role ≠ ROOT → MetadataFile c repo role file → s'.world.fs file = w.fs file := by
  obtain ⟨o, l, h3, h4, h5⟩ := iterateMap_apply h c.repoMap.repositories.entries w
  have hperm := perm_iterate (es := c.repoMap.repositories.entries) h3
  rw [← h4] at hperm
  obtain ⟨s', i1, i2⟩ := initClients_starts (s := { world := w.emit (.iterate o) }) hh hc (fun e he => hperm.mem_iff.1 he) hw (by intro r cl hr; cases hr)
  refine ⟨s', ?_, i2⟩
  unfold newMultiRepo
  have e1 : mWorld (iterateMap h c.repoMap.repositories.entries) { world := w } = (.ok l, ({ world := w.emit (.iterate o) } : MSt)) := by
    unfold mWorld
    dsimp only
    rw [h5]
  rw [SM.bind_ok e1]
  exact i1

/-! ## Asking -/

/-- The repository has a client as after `New`, it lists the path, and nothing of it is cached. `Q` is anything else about its published root. -/
structure Ready (env : Env) (h : Host) (srv : Str → Int → Except Err Bytes) (now : Time) (c : MultiCfg) (path : Str) (len : Int) (hashes : Hashes) (Q : Str → Cfg → RootType → Prop) (s : MSt)
    (repo : Str) : Prop where
  plain : PlainName repo
  client : ∃ cl r R docs, s.clients.get? repo = some cl ∧ Started env now c repo cl ∧ ListedAt ⟨env, h, cl.cfg⟩ srv now path len hashes r R docs ∧
    NothingCached cl.cfg.localMetadataDir docs s.world.fs ∧ Q repo cl.cfg r

/-- The client of the repository trusts the published root. -/
def Rooted (c : MultiCfg) (Q : Str → Cfg → RootType → Prop) (s : MSt) (repo : Str) : Prop :=
  ∃ cl r, s.clients.get? repo = some cl ∧ OwnConfig c repo cl.cfg ∧ Q repo cl.cfg r ∧ cl.trusted.root.signed = readRoot r

theorem nothing_kept {fs fs' : FS} {docs : Str → Option PubRole} {repo : Str} (hp : PlainName repo) (hsafe : ∀ role, (docs role).isSome → SafeName role)
    (hk : ∀ role file, role ≠ ROOT → MetadataFile c repo role file → fs' file = fs file) (hroot : docs ROOT = none) (hn : NothingCached (joinPath c.localMetadataDir repo) docs fs) :
    NothingCached (joinPath c.localMetadataDir repo) docs fs' := by
  have hfile : ∀ role, SafeName role → role ≠ ROOT → fs' (joinPath (joinPath c.localMetadataDir repo) (role ++ b!".json")) = fs (joinPath (joinPath c.localMetadataDir repo) (role ++ b!".json")) := by
    intro role hs hne
    refine hk role _ hne ((metadataFile_path (cfg := { localMetadataDir := joinPath c.localMetadataDir repo }) hp rfl).2 ?_)
    rw [← (safeName_local hs).1, (safeName_local hs).2]
  constructor
  · intro name hname
    rw [← hn.1 name hname]
    have hsafe : ∀ role ∈ [b!"timestamp", b!"snapshot", b!"targets"], SafeName role ∧ role ≠ ROOT := by
      intro role hm
      simp only [List.mem_cons, List.not_mem_nil, or_false] at hm
      rcases hm with rfl | rfl | rfl
      · exact ⟨⟨by decide, by decide, by decide, by decide⟩, by decide⟩
      · exact ⟨⟨by decide, by decide, by decide, by decide⟩, by decide⟩
      · exact ⟨⟨by decide, by decide, by decide, by decide⟩, by decide⟩
    simp only [List.mem_cons, List.not_mem_nil, or_false] at hname
    rcases hname with rfl | rfl | rfl
    · exact hfile b!"timestamp" (hsafe _ (by simp)).1 (hsafe _ (by simp)).2
    · exact hfile b!"snapshot" (hsafe _ (by simp)).1 (hsafe _ (by simp)).2
    · exact hfile b!"targets" (hsafe _ (by simp)).1 (hsafe _ (by simp)).2
  · intro role hr
    rw [hfile role (hsafe role hr) (by rintro rfl; rw [hroot] at hr; cases hr)]
    exact hn.2 role hr

theorem listed_names {x : Ctx} {len : Int} {hashes : Hashes} {r : RootType} {R : Files} {docs : Str → Option PubRole} (hl : ListedAt x srv now path len hashes r R docs) :
    (∀ role, (docs role).isSome → SafeName role) ∧ docs ROOT = none := by
  constructor
  · intro role hr
    obtain ⟨p, hp⟩ := Option.isSome_iff_exists.1 hr
    exact (hl.branches.named role p hp).1
  · cases hd : docs ROOT with
    | none => rfl
    | some p => exact absurd (by simp [ROOT]) (hl.branches.named _ p hd).2

theorem started_fresh {repo : Str} {cl : Client} (hs : Started env now c repo cl) : cl.trusted.timestamp = none ∧ cl.trusted.snapshot = none ∧ cl.trusted.targets = [] ∧ cl.trusted.refTime = now := by
  obtain ⟨_, _, _, h4, h5, h6, h7⟩ := new_root hs.fresh
  exact ⟨h4, h5, h6, h7⟩

/-- After a lookup the client trusts the published root. -/
theorem info_root {x : Ctx} {r : RootType} {R : Files} {docs : Str → Option PubRole} {t : Trusted} (laws : EnvLaws x.env) (h : Released x.env now r R) (hv : ServingFiles x srv r R)
    (hu : x.cfg.unsafeLocalMode = false) (hs : Serves x.host srv) (hd : x.cfg.disableLocalCache = true ∨ GoodDisk x.host) {s : St} (hw : NoTemps s.world.fs)
    (hm : 0 ≤ x.cfg.maxRootRotations ∧ wrap64 (s.trusted.root.signed.version + 1) + x.cfg.maxRootRotations < 2 ^ 63)
    (hroots : RootsLeadTo x srv x.cfg.maxRootRotations.toNat s.trusted t) (hroot : t.root.signed = readRoot r)
    (hts : s.trusted.timestamp = none) (hsn : s.trusted.snapshot = none) (htg : s.trusted.targets = []) (hnow : s.trusted.refTime = now)
    (hempty : ∀ name ∈ [b!"timestamp.json", b!"snapshot.json", b!"targets.json"], s.world.fs (joinPath x.cfg.localMetadataDir name) = none)
    (hb : Branches x srv now r R.sn R.tg path docs)
    (hnone : ∀ role, (docs role).isSome → s.world.fs (joinPath x.cfg.localMetadataDir (role ++ b!".json")) = none) :
    (getTargetInfo x path s).2.trusted.root.signed = readRoot r := by
  obtain ⟨s1, g1, g2, g3⟩ := onRelease_cached (path := path) laws h hv hu hs hd hw hm hroots hroot hts hsn htg hnow
    ⟨fun d hd => (by rw [hempty _ (by simp)] at hd; cases hd), fun d hd => (by rw [hempty _ (by simp)] at hd; cases hd), fun d hd => (by rw [hempty _ (by simp)] at hd; cases hd)⟩ hb
    (fun role p d hr _ hd => by rw [hnone role (by rw [hr]; rfl)] at hd; cases hd)
  obtain ⟨vs, hr⟩ := getTargetInfo_run (x := x) (path := path) s
  generalize (getTargetInfo x path s).1 = out at hr
  generalize (getTargetInfo x path s).2 = s' at hr
  cases hr with
  | direct h0 _ => rw [htg] at h0; cases h0
  | refreshed _ h1 h2 =>
    rw [g1] at h1
    cases h1
    rw [search_root h2]
    exact g2.root
  | notRefreshed _ h1 h2 => rw [g1] at h1; cases h1; exact absurd rfl h2

/-- One repository is asked. -/
theorem ask_one (laws : EnvLaws env) (hh : GoodHost h srv now) {len : Int} {hashes : Hashes} {Q : Str → Cfg → RootType → Prop} {s : MSt} {repo : Str} (hw : NoTemps s.world.fs)
    (hr : Ready env h srv now c path len hashes Q s repo) :
    ∃ f s', onClient env h repo (fun x => getTargetInfo x path) s = (.ok (some f), s') ∧ f.length = len ∧ f.hashes = hashes ∧ f.path = path ∧ NoTemps s'.world.fs ∧ Rooted c Q s' repo ∧
      ∀ repo', repo' ≠ repo → (Ready env h srv now c path len hashes Q s repo' → Ready env h srv now c path len hashes Q s' repo') ∧ (Rooted c Q s repo' → Rooted c Q s' repo') := by
  obtain ⟨cl, r, R, docs, hcl, hst, hl, hn, hQ⟩ := hr.client
  obtain ⟨f1, f2, f3, f4⟩ := started_fresh hst
  obtain ⟨t0, t, g1, g0, g2, g3, g4⟩ := hl.roots
  have ht0 : t0 = cl.trusted := by
    rw [show Trusted.new env now cl.cfg.localTrustedRoot = _ from hst.fresh] at g1
    exact (Res.ok.inj g1).symm
  subst ht0
  have hlim := hst.own.limits
  obtain ⟨role, p, f, l1, l2, l3, l4, l5, l6⟩ := hl.listed
  obtain ⟨names, k1, k2⟩ := hl.few
  have hm : 0 ≤ cl.cfg.maxRootRotations ∧ wrap64 (cl.trusted.root.signed.version + 1) + cl.cfg.maxRootRotations < 2 ^ 63 := by
    rw [hlim.1, wrap64_of_bounds (by omega) (by omega)]
    omega
  obtain ⟨_, _, q⟩ := C90_delegated (x := ⟨env, h, cl.cfg⟩) (s := ⟨cl.trusted, s.world⟩) laws hl.released hl.served hst.own.modes.2 hh.network (.inr hh.disk) hw hm g3 g4 f1 f2 f3 f4
    hn.1 hl.branches hn.2
  obtain ⟨_, q⟩ := q names k1 k2 hl.unhindered role p (some f) l1 l2 l3
  have q := q l6
  have hrooted := info_root (x := ⟨env, h, cl.cfg⟩) (s := ⟨cl.trusted, s.world⟩) (path := path) laws hl.released hl.served hst.own.modes.2 hh.network (.inr hh.disk) hw hm g3 g4 f1 f2 f3 f4
    hn.1 hl.branches hn.2
  have hrun : onClient env h repo (fun x => getTargetInfo x path) s = (.ok (some { f with path := path }),
      { clients := s.clients.set repo { cl with trusted := (getTargetInfo ⟨env, h, cl.cfg⟩ path ⟨cl.trusted, s.world⟩).2.trusted },
        world := (getTargetInfo ⟨env, h, cl.cfg⟩ path ⟨cl.trusted, s.world⟩).2.world }) := by
    unfold onClient
    rw [hcl]
    dsimp only
    rw [q]
    rfl
  have hstate : (onClient env h repo (fun x s => Api.run x s (.getTargetInfo path)) s).2 =
      { clients := s.clients.set repo { cl with trusted := (getTargetInfo ⟨env, h, cl.cfg⟩ path ⟨cl.trusted, s.world⟩).2.trusted },
        world := (getTargetInfo ⟨env, h, cl.cfg⟩ path ⟨cl.trusted, s.world⟩).2.world } := by
    unfold onClient
    rw [hcl]
    rfl
  refine ⟨_, _, hrun, l4, l5, rfl, ?_, ⟨{ cl with trusted := (getTargetInfo ⟨env, h, cl.cfg⟩ path ⟨cl.trusted, s.world⟩).2.trusted }, r, ?_, hst.own, hQ, hrooted⟩, ?_⟩
  · exact sameTemps_noTemps (tidy_getTargetInfo (x := ⟨env, h, cl.cfg⟩) ⟨hh.remove, hh.disk.rename⟩ path ⟨cl.trusted, s.world⟩) hw
  · dsimp only
    rw [Entries.get?_set, if_pos rfl]
  intro repo' hne
  refine ⟨?_, ?_⟩
  rotate_left
  · rintro ⟨cl', r', c1, c2⟩
    refine ⟨cl', r', ?_, c2⟩
    dsimp only
    rw [Entries.get?_set, if_neg (fun he => hne he.symm)]
    exact c1
  · intro hr'
    obtain ⟨cl', r', R', docs', hcl', hst', hl', hn', hQ'⟩ := hr'.client
    have hiso := fun (role file : Str) (hf : MetadataFile c repo' role file) => C119_isolated_partial (env := env) (h := h) hcl hst.own hr.plain hr'.plain hne (.getTargetInfo path) hf
      (fun _ _ _ h0 => by cases h0)
    rw [hstate] at hiso
    refine ⟨hr'.plain, cl', r', R', docs', ?_, hst', hl', ?_, hQ'⟩
    · rw [(hiso b!"root" _ rfl).2]; exact hcl'
    · have hd := hst'.own.metadata
      rw [hd] at hn' ⊢
      obtain ⟨n1, n2⟩ := listed_names hl'
      exact nothing_kept hr'.plain n1 (fun role file _ hf => (hiso role file hf).1) n2 hn'

/-- All are asked. -/
theorem ask_all (laws : EnvLaws env) (hh : GoodHost h srv now) {len : Int} {hashes : Hashes} {Q : Str → Cfg → RootType → Prop} {repos : List Str} (hnd : repos.Nodup) {s : MSt}
    (hw : NoTemps s.world.fs) (hr : ∀ repo ∈ repos, Ready env h srv now c path len hashes Q s repo) :
    ∃ as s', Asked env h path repos s as s' ∧ NoTemps s'.world.fs ∧ (∀ a i, (a, i) ∈ as → ∃ f, i = some f ∧ f.length = len ∧ f.hashes = hashes ∧ f.path = path) ∧
      (∀ repo ∈ repos, Rooted c Q s' repo) ∧ ∀ repo, repo ∉ repos → Rooted c Q s repo → Rooted c Q s' repo := by
  induction repos generalizing s with
  | nil => exact ⟨[], s, .nil, hw, by simp, by simp, fun _ _ h => h⟩
  | cons repo repos ih =>
    obtain ⟨f, s1, h1, h2, h3, h4, h5, h5', h6⟩ := ask_one laws hh hw (hr repo (by simp))
    obtain ⟨hn1, hn2⟩ := List.nodup_cons.1 hnd
    obtain ⟨as, s', i1, i2, i3, i4, i5⟩ := ih hn2 h5 (fun r hm => (h6 r (fun he => hn1 (he ▸ hm))).1 (hr r (.tail _ hm)))
    refine ⟨(repo, some f) :: as, s', .info h1 i1, i2, ?_, ?_, ?_⟩
    rotate_left
    · intro r hm
      rcases List.mem_cons.1 hm with rfl | hm
      · exact i5 _ hn1 h5'
      · exact i4 r hm
    · intro r hm hk
      exact i5 r (fun he => hm (.tail _ he)) ((h6 r (fun he => hm (he ▸ .head _))).2 hk)
    intro a i hm
    rcases List.mem_cons.1 hm with hm | hm
    · cases hm
      exact ⟨f, rfl, h2, h3, h4⟩
    · exact i3 a i hm

/-- C122 with what the clients trust afterwards. -/
theorem honest_lookup {Q : Str → Cfg → RootType → Prop} (laws : EnvLaws env) (hh : GoodHost h srv now) (hc : CanStart env now c) {w : World} (hw : NoTemps w.fs) {skipped rest : List (Option (Str × Mapping))} {p : Str} {m : Mapping}
    (hag : agenda c.repoMap.mapping.elems = skipped ++ some (p, m) :: rest) (hskip : ∀ o ∈ skipped, ∃ q m', o = some (q, m') ∧ env.glob q path = some false) (hp : env.glob p path = some true)
    (hnd : m.repositories.elems.Nodup) (hne : m.repositories.elems ≠ []) (hth : m.threshold ≤ (m.repositories.elems.length : Int)) {len : Int} {hashes : Hashes} (hu : UniqueKeys hashes)
    (hh1 : hashes.entries ≠ []) (hlist : ∀ repo ∈ m.repositories.elems, (c.repoMap.repositories.get? repo).isSome ∧ ∀ cfg, OwnConfig c repo cfg →
      env.urlJoin cfg.remoteMetadataURL b!"targets" = some cfg.remoteTargetsURL →
      ∃ r R docs, ListedAt ⟨env, h, cfg⟩ srv now path len hashes r R docs ∧ NothingCached (joinPath c.localMetadataDir repo) docs w.fs ∧ Q repo cfg r) :
    ∃ s1 g s2, newMultiRepo env h c { world := w } = (.ok (), s1) ∧ multiGetTargetInfo env h c path s1 = (.ok g, s2) ∧ g.targetInfo.length = len ∧ g.targetInfo.hashes = hashes ∧
      g.targetInfo.path = path ∧ g.repositories.Nodup ∧ (∀ repo, repo ∈ g.repositories ↔ repo ∈ m.repositories.elems) ∧
      NoTemps s2.world.fs ∧ ∀ repo ∈ m.repositories.elems, Rooted c Q s2 repo := by
  obtain ⟨s1, n1, n2, n3, n4⟩ := new_starts hh hc hw
  obtain ⟨k1, _⟩ := C72_clients hc.unique n1
  have hready : ∀ repo ∈ m.repositories.elems, Ready env h srv now c path len hashes Q s1 repo := by
    intro repo hm
    obtain ⟨hin, hl⟩ := hlist repo hm
    obtain ⟨cl, hcl⟩ := Option.isSome_iff_exists.1 ((k1 repo).2 hin)
    have hst := n3 repo cl hcl
    obtain ⟨r, R, docs, hl1, hl2, hl3⟩ := hl cl.cfg hst.own hst.remote
    obtain ⟨urls, hurls⟩ := Option.isSome_iff_exists.1 hin
    have hplain := (hc.repos repo urls hurls).1
    obtain ⟨q1, q2⟩ := listed_names hl1
    refine ⟨hplain, cl, r, R, docs, hcl, hst, hl1, ?_, hl3⟩
    rw [hst.own.metadata]
    exact nothing_kept hplain q1 (fun role file hne hf => n4 repo role file hplain hne hf) q2 hl2
  obtain ⟨as, s2, a1, a2, a3, a4, _⟩ := ask_all laws hh hnd n2 hready
  have hrepos := asked_repos a1
  have hsame : ∀ r, (∃ info, (r, some info) ∈ as) ↔ r ∈ m.repositories.elems := by
    intro r
    rw [← hrepos]
    constructor
    · rintro ⟨i, hi⟩
      exact List.mem_map.2 ⟨_, hi, rfl⟩
    · intro hr
      obtain ⟨⟨a, i⟩, hi, rfl⟩ := List.mem_map.1 hr
      obtain ⟨f, rfl, _⟩ := a3 a i hi
      exact ⟨f, hi⟩
  have hagree : Agreed as := by
    constructor
    · obtain ⟨r, hr⟩ := List.exists_mem_of_ne_nil _ hne
      obtain ⟨i, hi⟩ := (hsame r).2 hr
      exact ⟨r, i, hi⟩
    · intro a i b j hi hj
      obtain ⟨f, hf, f1, f2, _⟩ := a3 _ _ hi
      obtain ⟨g, hg, g1, g2, _⟩ := a3 _ _ hj
      cases hf
      cases hg
      unfold TargetFiles.equal
      rw [f1, g1, f2, g2, Bool.and_eq_true]
      refine ⟨by simp, (hashesEqual_iff hu).2 ?_⟩
      refine ⟨?_, fun alg x y hx hy => Option.some.inj (hx.symm.trans hy)⟩
      obtain ⟨⟨alg, v⟩, hm⟩ := List.exists_mem_of_ne_nil _ hh1
      have := Entries.get?_of_mem hu hm
      exact ⟨alg, by rw [show hashes.get? alg = _ from this]; exact ⟨rfl, rfl⟩⟩
  obtain ⟨g, r1, r2, r3, repo, r4⟩ := C122_agreement hag hskip hp a1 hagree hnd (fun r hr => (hsame r).2 hr) hth
  obtain ⟨f, hf, f1, f2, f3⟩ := a3 _ _ r4
  cases hf
  exact ⟨s1, g, s2, n1, r1, f1, f2, f3, r2, fun r => (r3 r).trans (hsame r), a2, a4⟩

/-- **C122.** A client with good disk, network and clock starts without cached metadata. The first pattern that matches the path belongs to a mapping with at least as many repositories as
its threshold demands, all of which have published the target with the same length and hashes. Then `New` succeeds, and `GetTargetInfo` returns the info with all the repositories. -/
theorem C122_honest (laws : EnvLaws env) (hh : GoodHost h srv now) (hc : CanStart env now c) {w : World} (hw : NoTemps w.fs) {skipped rest : List (Option (Str × Mapping))} {p : Str} {m : Mapping}
    (hag : agenda c.repoMap.mapping.elems = skipped ++ some (p, m) :: rest) (hskip : ∀ o ∈ skipped, ∃ q m', o = some (q, m') ∧ env.glob q path = some false) (hp : env.glob p path = some true)
    (hnd : m.repositories.elems.Nodup) (hne : m.repositories.elems ≠ []) (hth : m.threshold ≤ (m.repositories.elems.length : Int)) {len : Int} {hashes : Hashes} (hu : UniqueKeys hashes)
    (hh1 : hashes.entries ≠ []) (hlist : ∀ repo ∈ m.repositories.elems, (c.repoMap.repositories.get? repo).isSome ∧ ∀ cfg, OwnConfig c repo cfg →
      ∃ r R docs, ListedAt ⟨env, h, cfg⟩ srv now path len hashes r R docs ∧ NothingCached (joinPath c.localMetadataDir repo) docs w.fs) :
    ∃ s1 g s2, newMultiRepo env h c { world := w } = (.ok (), s1) ∧ multiGetTargetInfo env h c path s1 = (.ok g, s2) ∧ g.targetInfo.length = len ∧ g.targetInfo.hashes = hashes ∧
      g.targetInfo.path = path ∧ g.repositories.Nodup ∧ ∀ repo, repo ∈ g.repositories ↔ repo ∈ m.repositories.elems := by
  obtain ⟨s1, g, s2, h1, h2, h3, h4, h5, h6, h7, _⟩ := honest_lookup (Q := fun _ _ _ => True) laws hh hc hw hag hskip hp hnd hne hth hu hh1 (fun repo hm => ⟨(hlist repo hm).1, fun cfg ho _ => by
    obtain ⟨r, R, docs, l1, l2⟩ := (hlist repo hm).2 cfg ho
    exact ⟨r, R, docs, l1, l2, trivial⟩⟩)
  exact ⟨s1, g, s2, h1, h2, h3, h4, h5, h6, h7⟩

end

end Tuf
