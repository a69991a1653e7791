import Verif.Spec.MultiSession
import Verif.Props.MultiRepo
import Verif.Props.Sound

/-!
# Sessions of a multi-repository client (C126)

All map files, roots, hosts and sequences of calls.
-/

namespace Tuf
open Spec Sample

variable {env : Env} {h : Host} {c : MultiCfg}

/-! ## Programs that keep an invariant -/

/-- A program keeps the invariant, whatever its outcome. -/
def Upholds (I : MSt → Prop) {α : Type} (m : MM α) : Prop := ∀ s, I s → I (m s).2

section
variable {I : MSt → Prop} {α β : Type}

theorem upholds_pure (a : α) : Upholds I (pure a : MM α) := fun _ hs => hs
theorem upholds_throw (e : Err) : Upholds I (SM.throw e : MM α) := fun _ hs => hs
theorem upholds_panic : Upholds I (SM.panic : MM α) := fun _ hs => hs

theorem upholds_lift (r : Res α) : Upholds I (SM.lift r : MM α) := by
  intro s hs
  cases r <;> exact hs

theorem upholds_bind {m : MM α} {f : α → MM β} (hm : Upholds I m) (hf : ∀ a, Upholds I (f a)) : Upholds I (m >>= f) := by
  intro s hs
  have h1 := hm s hs
  rw [SM.bind_apply]
  rcases hr : m s with ⟨r, s1⟩
  rw [hr] at h1
  cases r with
  | ok a => exact hf a s1 h1
  | err e => exact h1
  | panic => exact h1

theorem upholds_try {m : MM α} (hm : Upholds I m) : Upholds I (SM.try' m) := by
  intro s hs
  rw [SM.try_snd]
  exact hm s hs

theorem upholds_world (hI : ∀ s w, I s → I { s with world := w }) (m : W α) : Upholds I (mWorld m) := fun s hs => hI s _ hs

end

/-! ## The trusted sets of the clients -/

/-- A trusted set that came about from the bytes of a root. -/
def Grown (env : Env) (bytes : Bytes) (t : Trusted) : Prop := ∃ now t0, Trusted.new env now bytes = .ok t0 ∧ ClientHistory env t0 t ∧ SoundSet env t

/-- Every client is one for a repository of the map file, with a trusted set that came about from its root. -/
def Standing (env : Env) (c : MultiCfg) (s : MSt) : Prop :=
  ∀ repo cl, s.clients.get? repo = some cl → (c.repoMap.repositories.get? repo).isSome ∧ ∃ bytes, c.trustedRoots.get? repo = some bytes ∧ Grown env bytes cl.trusted

theorem grown_new {bytes : Bytes} {now : Time} {t : Trusted} (hn : Trusted.new env now bytes = .ok t) : Grown env bytes t := by
  refine ⟨now, t, hn, .refl, ?_⟩
  obtain ⟨_, _, h1, h2, h3, h4, _⟩ := new_root hn
  exact ⟨h1, by simp [h2], by simp [h3], by simp [h4]⟩

theorem grown_exec {x : Ctx} {P : St → Event → Prop} {s s' : St} {bytes : Bytes} (hg : Grown x.env bytes s.trusted) (he : Exec x P s s') : Grown x.env bytes s'.trusted := by
  obtain ⟨now, t0, h1, h2, h3⟩ := hg
  exact ⟨now, t0, h1, h2.trans he.history, sound_exec h3 he⟩

theorem upholds_onClient {α : Type} {m : Ctx → M α} (hm : ∀ x s, ∃ P, Exec x P s (m x s).2) (repo : Str) : Upholds (Standing env c) (onClient env h repo m) := by
  intro s hs
  unfold onClient
  split
  · exact hs
  · next cl hcl =>
    obtain ⟨P, hP⟩ := hm ⟨env, h, cl.cfg⟩ ⟨cl.trusted, s.world⟩
    split
    rename_i r st hr
    rw [hr] at hP
    intro repo' cl' hcl'
    dsimp only at hcl'
    rw [Entries.get?_set] at hcl'
    split at hcl'
    · next he =>
      subst he
      cases hcl'
      obtain ⟨h1, bytes, h2, h3⟩ := hs _ _ hcl
      exact ⟨h1, bytes, h2, grown_exec (x := ⟨env, h, cl.cfg⟩) h3 hP⟩
    · exact hs _ _ hcl'

theorem standing_world (s : MSt) (w : World) (hs : Standing env c s) : Standing env c { s with world := w } := hs

theorem upholds_refresh : ∀ names, Upholds (Standing env c) (refreshClients env h names)
  | [] => upholds_pure _
  | name :: r => upholds_bind (upholds_onClient (m := fun x => refresh x) (fun x s => ⟨_, api_exec x .refl .refresh⟩) name) (fun _ => upholds_refresh r)

theorem upholds_multiRefresh : Upholds (Standing env c) (multiRefresh env h) := by
  intro s hs
  exact upholds_bind (upholds_world standing_world _) (fun names => upholds_refresh names) s hs

theorem upholds_getInfo {path : Str} (repo : Str) : Upholds (Standing env c) (onClient env h repo (fun x => getTargetInfo x path)) :=
  upholds_onClient (m := fun x => getTargetInfo x path) (fun x s => ⟨_, api_exec x .refl (.getTargetInfo path)⟩) repo

theorem upholds_collect {path : Str} : ∀ repos groups, Upholds (Standing env c) (collectGroups env h path repos groups)
  | [], _ => upholds_pure _
  | repo :: repos, groups => by
    rw [collectGroups]
    refine upholds_bind (upholds_try (upholds_getInfo repo)) ?_
    intro o
    cases o with
    | error e => exact upholds_collect repos _
    | ok p => exact upholds_bind (upholds_lift _) (fun info => upholds_collect repos _)

theorem upholds_patterns {path : Str} {m : Mapping} : ∀ ps, Upholds (Standing env c) (tryPatterns env h path m ps)
  | [] => upholds_pure _
  | p :: ps => by
    rw [tryPatterns]
    split
    · exact upholds_throw _
    · exact upholds_patterns ps
    · refine upholds_bind (upholds_collect _ _) (fun groups => upholds_bind (upholds_lift _) (fun o => ?_))
      cases o with
      | some g => exact upholds_pure _
      | none =>
        dsimp only
        split
        · exact upholds_pure _
        · exact upholds_patterns ps

theorem upholds_mappings {path : Str} : ∀ ms, Upholds (Standing env c) (tryMappings env h path ms)
  | [] => upholds_throw _
  | none :: _ => upholds_panic
  | some m :: ms => by
    rw [tryMappings]
    refine upholds_bind (upholds_patterns _) (fun r => ?_)
    split
    · exact upholds_pure _
    · exact upholds_throw _
    · exact upholds_mappings ms

theorem upholds_multiGetTargetInfo {path : Str} : Upholds (Standing env c) (multiGetTargetInfo env h c path) := upholds_mappings _

theorem upholds_multiDownload {tf : TargetFiles} {given base : Str} : ∀ repos, Upholds (Standing env c) (multiDownloadTarget env h tf given base repos)
  | [] => upholds_throw _
  | repo :: repos => by
    rw [multiDownloadTarget]
    refine upholds_bind (upholds_onClient (m := fun x => findCachedTarget x tf given) (fun x s => ⟨_, api_exec x .refl (.findCachedTarget tf given)⟩) repo) ?_
    rintro ⟨path, data⟩
    dsimp only
    split
    · exact upholds_pure _
    · refine upholds_bind (upholds_try (upholds_onClient (m := fun x => downloadTarget x tf given base) (fun x s => ⟨_, api_exec x .refl (.downloadTarget tf given base)⟩) repo)) ?_
      intro o
      cases o with
      | error e => exact upholds_multiDownload repos
      | ok r => exact upholds_pure _

theorem upholds_topLevelLoop : ∀ names res, Upholds (Standing env c) (topLevelLoop env h c names res)
  | [], _ => upholds_pure _
  | name :: names, res => by
    rw [topLevelLoop]
    refine upholds_bind upholds_multiGetTargetInfo ?_
    intro g
    split
    · split
      · exact upholds_topLevelLoop names _
      · exact upholds_throw _
    · exact upholds_topLevelLoop names _

theorem upholds_topLevelClients : ∀ repos res, Upholds (Standing env c) (topLevelClients env h c repos res)
  | [], _ => upholds_pure _
  | repo :: repos, res => by
    rw [topLevelClients]
    refine upholds_bind (upholds_onClient (fun x s => ⟨fun _ _ => True, .refl⟩) repo) (fun ts => ?_)
    exact upholds_bind (upholds_world standing_world _) (fun names => upholds_bind (upholds_topLevelLoop _ _) (fun res => upholds_topLevelClients repos res))

theorem upholds_multiTopLevel : Upholds (Standing env c) (multiGetTopLevelTargets env h c) := by
  intro s hs
  exact upholds_bind (upholds_world standing_world _) (fun names => upholds_topLevelClients names _) s hs

/-- In every session the clients stand on their own roots. -/
theorem standing_session {s s' : MSt} (hs : Standing env c s) (hm : MultiSession env h c s s') : Standing env c s' := by
  induction hm with
  | refl => exact hs
  | step a _ ih =>
    cases a with
    | refresh => exact upholds_multiRefresh _ ih
    | getTargetInfo p => exact upholds_multiGetTargetInfo _ ih
    | getTopLevelTargets => exact upholds_multiTopLevel _ ih
    | downloadTarget tf f u repos => exact upholds_multiDownload repos _ ih

theorem standing_new (hu : UniqueKeys c.repoMap.repositories) {w : World} {s : MSt} (hn : newMultiRepo env h c { world := w } = (.ok (), s)) : Standing env c s := by
  obtain ⟨h1, h2⟩ := C72_clients hu hn
  intro repo cl hcl
  obtain ⟨bytes, h3, _, now, h4⟩ := (h2 repo cl hcl).root
  exact ⟨(h1 repo).1 (by rw [hcl]; rfl), bytes, h3, grown_new h4⟩

/-! ## Answers -/

/-- What a client answers is listed by its repository. -/
theorem answer_lists {path repo : Str} {s s' : MSt} {o : Option TargetFiles} (hs : Standing env c s) (ha : onClient env h repo (fun x => getTargetInfo x path) s = (.ok o, s')) :
    ∃ info, o = some info ∧ RepoLists env c repo path info := by
  unfold onClient at ha
  split at ha
  · cases ha
  · next cl hcl =>
    obtain ⟨h1, bytes, h2, now, t0, h3, h4, h5⟩ := hs _ _ hcl
    split at ha
    rename_i r st hr
    cases ha
    have he := api_exec ⟨env, h, cl.cfg⟩ (s := ⟨cl.trusted, s.world⟩) .refl (.getTargetInfo path)
    simp only [Api.run, hr] at he
    have hh : ClientHistory env t0 st.trusted := h4.trans he.history
    obtain ⟨role, m, a1, a2, a3⟩ := C38_delegation_chain hr
    obtain ⟨b1, b2, b3, _⟩ := (sound_exec h5 he).targets role m a2
    have href := C20_reference_time h3 hh.history
    obtain ⟨sn, f, data, _, _, _, hp, _⟩ := (C16_targets_match_snapshot (new_root h3).2.2.2.2.2.1 hh a2).listed
    obtain ⟨info, rfl, hpath⟩ := fromBytes_pathsSet hp path o a3
    rw [href] at b3
    exact ⟨info, rfl, h1, bytes, now, t0, h2, h3, st.trusted, role, m, C11_root_rotations_partial h3 hh.history, b1, href, b2, a1, b3, a3, hpath⟩

theorem asked_lists {path : Str} {repos : List Str} {s s' : MSt} {as : Answers} (hs : Standing env c s) (ha : Asked env h path repos s as s') :
    Standing env c s' ∧ ∀ repo info, (repo, some info) ∈ as → RepoLists env c repo path info := by
  induction ha with
  | nil => exact ⟨hs, by simp⟩
  | @info repo repos s s1 s' i as h1 _ ih =>
    have hs1 := upholds_getInfo (env := env) (h := h) (c := c) (path := path) repo s hs
    rw [h1] at hs1
    obtain ⟨k1, k2⟩ := ih hs1
    refine ⟨k1, ?_⟩
    intro r i' hm
    rcases List.mem_cons.1 hm with hm | hm
    · cases hm
      obtain ⟨_, e, k3⟩ := answer_lists hs h1
      cases e
      exact k3
    · exact k2 r i' hm
  | @error repo repos s s1 s' e as h1 _ ih =>
    have hs1 := upholds_getInfo (env := env) (h := h) (c := c) (path := path) repo s hs
    rw [h1] at hs1
    obtain ⟨k1, k2⟩ := ih hs1
    refine ⟨k1, ?_⟩
    intro r i' hm
    rcases List.mem_cons.1 hm with hm | hm
    · cases hm
    · exact k2 r i' hm

theorem run_lists {path : Str} {ag : List (Option (Str × Mapping))} {s s' : MSt} {cs : List Consult} {out : Res TargetMatch} (hs : Standing env c s)
    (hr : MultiRun env h path ag s cs out s') : ∀ k ∈ cs, ∀ repo info, (repo, some info) ∈ k.answers → RepoLists env c repo path info := by
  induction hr with
  | exhausted => simp
  | nullMapping => simp
  | badPattern => simp
  | noMatch _ _ ih => exact ih hs
  | crash => simp
  | ambiguous _ ha | chosen _ ha | terminated _ ha =>
    intro k hk
    rw [List.mem_singleton] at hk
    subst hk
    exact (asked_lists hs ha).2
  | next _ ha _ _ _ _ ih =>
    intro k hk
    rcases List.mem_cons.1 hk with rfl | hk
    · exact (asked_lists hs ha).2
    · exact ih (asked_lists hs ha).1 k hk

theorem vouched_supports {path : Str} {as : Answers} (hl : ∀ repo info, (repo, some info) ∈ as → RepoLists env c repo path info) {info : TargetFiles} {repos : List Str}
    (hv : Vouched as info repos) : Supports env c path info repos := by
  refine ⟨hv.1, ?_⟩
  intro repo hr
  obtain ⟨i, h1, h2⟩ := hv.2 repo hr
  exact ⟨i, hl repo i h1, h2⟩

/-- **C126.** After `New` and any calls, when `GetTargetInfo` returns an info with repositories, then there is at least one repository, all are named by a mapping whose pattern matches the path,
and each of them, trusted by nothing but its own root, lists the info in authentic, complete and current metadata. At least as many repositories as the threshold of that mapping demands list
one info in this way. -/
theorem C126_info (hu : UniqueKeys c.repoMap.repositories) {w : World} {s0 s s' : MSt} {path : Str} {res : TargetMatch} (hn : newMultiRepo env h c { world := w } = (.ok (), s0))
    (hs : MultiSession env h c s0 s) (hr : multiGetTargetInfo env h c path s = (.ok res, s')) :
    Supports env c path res.targetInfo res.repositories ∧ res.repositories ≠ [] ∧ res.targetInfo.path = path ∧
    ∃ m p info repos, some m ∈ c.repoMap.mapping.elems ∧ p ∈ m.paths.elems ∧ env.glob p path = some true ∧ (∀ repo ∈ res.repositories, repo ∈ m.repositories.elems) ∧
      (∀ repo ∈ repos, repo ∈ m.repositories.elems) ∧ Supports env c path info repos ∧ m.threshold ≤ (repos.length : Int) := by
  have hst := standing_session (standing_new hu hn) hs
  obtain ⟨cs, h1⟩ := C68_search (env := env) (h := h) (path := path) c s
  rw [hr] at h1
  obtain ⟨k, g, h2, h3, h4⟩ := run_ok h1 rfl
  have hk := List.mem_of_getLast? h2
  obtain ⟨h5, h6, h7, s1, s2, h8⟩ := run_consult h1 k hk
  have hl := run_lists hst h1 k hk
  have hnames : ∀ info repos, Vouched k.answers info repos → ∀ repo ∈ repos, repo ∈ k.mapping.repositories.elems := by
    intro info repos hv repo hr
    obtain ⟨i, hi, _⟩ := hv.2 repo hr
    rw [← asked_repos h8]
    exact List.mem_map.2 ⟨_, hi, rfl⟩
  cases h3 with
  | @one before after _ he hre =>
    have hg : g ∈ k.groups := by rw [he]; simp
    have hlast : res ∈ k.groups := List.mem_of_getLast? h4
    unfold agenda at h5
    obtain ⟨o, h9, h10⟩ := List.mem_flatMap.1 h5
    cases o with
    | none => simp at h10
    | some m =>
      obtain ⟨p, h11, h12⟩ := List.mem_map.1 h10
      cases h12
      obtain ⟨v1, v2⟩ := group_vouched h7 hlast
      obtain ⟨v3, _⟩ := group_vouched h7 hg
      refine ⟨vouched_supports hl v1, v2, ?_, k.mapping, k.pattern, g.targetInfo, g.repositories, h9, h11, h6, hnames _ _ v1, hnames _ _ v3, vouched_supports hl v3, hre⟩
      obtain ⟨_, b, r, a, e1, _⟩ := h7.sound res hlast
      obtain ⟨_, _, _, _, _, _, _, _, _, _, _, _, _, _, _, _, hp⟩ := hl r res.targetInfo (by rw [e1]; simp)
      exact hp

/-- The info that is returned is literally the one that a repository lists. -/
theorem info_lists {s s' : MSt} {path : Str} {res : TargetMatch} (hst : Standing env c s) (hr : multiGetTargetInfo env h c path s = (.ok res, s')) :
    ∃ repo ∈ res.repositories, RepoLists env c repo path res.targetInfo := by
  obtain ⟨cs, h1⟩ := C68_search (env := env) (h := h) (path := path) c s
  rw [hr] at h1
  obtain ⟨k, g, h2, h3, h4⟩ := run_ok h1 rfl
  have hk := List.mem_of_getLast? h2
  obtain ⟨_, _, h7, _⟩ := run_consult h1 k hk
  obtain ⟨_, b, r, a, e1, e2⟩ := h7.sound res (List.mem_of_getLast? h4)
  exact ⟨r, (e2 r).2 (.inl rfl), run_lists hst h1 k hk r res.targetInfo (by rw [e1]; simp)⟩

/-- C126: what `DownloadTarget` then returns for the info, with any repositories, has the length and the hashes that one of the returned repositories lists. -/
theorem C126_data (hu : UniqueKeys c.repoMap.repositories) {w : World} {s0 s s1 s2 s' : MSt} {path : Str} {res : TargetMatch} (hn : newMultiRepo env h c { world := w } = (.ok (), s0))
    (hs : MultiSession env h c s0 s) (hr : multiGetTargetInfo env h c path s = (.ok res, s1)) {given base file : Str} {repos : List Str} {data : Bytes}
    (hd : multiDownloadTarget env h res.targetInfo given base repos s2 = (.ok (file, data), s')) :
    TargetMatches env res.targetInfo data ∧ ∃ repo ∈ res.repositories, RepoLists env c repo path res.targetInfo :=
  ⟨C71_verified hd, info_lists (standing_session (standing_new hu hn) hs) hr⟩

theorem loop_lists {names : List Str} {res res' : Entries TargetFiles} {s s' : MSt} (hst : Standing env c s) (hl : topLevelLoop env h c names res s = (.ok res', s')) {name : Str}
    {info : TargetFiles} (hn : res'.get? name = some info) : res.get? name = some info ∨ ∃ repo, RepoLists env c repo name info := by
  induction names generalizing res s with
  | nil => cases hl; exact .inl hn
  | cons a names ih =>
    rw [topLevelLoop] at hl
    obtain ⟨g, s1, h1, hl⟩ := SM.bind_eq_ok.1 hl
    have hs1 := upholds_multiGetTargetInfo (env := env) (h := h) (c := c) (path := a) s hst
    rw [h1] at hs1
    cases hg : res.get? a with
    | some val =>
      rw [hg] at hl
      dsimp only at hl
      split at hl
      · exact ih hs1 hl
      · cases hl
    | none =>
      rw [hg] at hl
      rcases ih hs1 hl with k | k
      · rw [Entries.get?_set] at k
        split at k
        · next he =>
          cases k
          subst he
          obtain ⟨repo, _, k⟩ := info_lists hst h1
          exact .inr ⟨repo, k⟩
        · exact .inl k
      · exact .inr k

theorem clients_list {repos : List Str} {res res' : Entries TargetFiles} {s s' : MSt} (hst : Standing env c s) (hl : topLevelClients env h c repos res s = (.ok res', s')) {name : Str}
    {info : TargetFiles} (hn : res'.get? name = some info) : res.get? name = some info ∨ ∃ repo, RepoLists env c repo name info := by
  induction repos generalizing res s with
  | nil => cases hl; exact .inl hn
  | cons a repos ih =>
    rw [topLevelClients] at hl
    obtain ⟨ts, s1, h1, hl⟩ := SM.bind_eq_ok.1 hl
    have hs1 := upholds_onClient (env := env) (h := h) (c := c) (m := fun _ => (fun s => (getTopLevelTargets s.trusted, s))) (fun x s => ⟨fun _ _ => True, .refl⟩) a s hst
    rw [h1] at hs1
    obtain ⟨names, s2, h2, hl⟩ := SM.bind_eq_ok.1 hl
    obtain ⟨w2, _, rfl⟩ := mWorld_ok h2
    obtain ⟨res1, s3, h3, hl⟩ := SM.bind_eq_ok.1 hl
    have hs3 := upholds_topLevelLoop (env := env) (h := h) (c := c) names res { s1 with world := w2 } hs1
    rw [h3] at hs3
    rcases ih hs3 hl with k | k
    · exact loop_lists (s := { s1 with world := w2 }) hs1 h3 k
    · exact .inr k

/-- C126: every info in the listing of `GetTopLevelTargets` is listed for its path by a repository, trusted by nothing but its own root. -/
theorem C126_listing (hu : UniqueKeys c.repoMap.repositories) {w : World} {s0 s s' : MSt} {res : Entries TargetFiles} (hn : newMultiRepo env h c { world := w } = (.ok (), s0))
    (hs : MultiSession env h c s0 s) (hl : multiGetTopLevelTargets env h c s = (.ok res, s')) {name : Str} {info : TargetFiles} (hi : res.get? name = some info) :
    ∃ repo, RepoLists env c repo name info := by
  unfold multiGetTopLevelTargets at hl
  obtain ⟨repos, s1, h1, hl⟩ := SM.bind_eq_ok.1 hl
  obtain ⟨w1, _, rfl⟩ := mWorld_ok h1
  have hst := standing_session (standing_new hu hn) hs
  rcases clients_list (s := { s with world := w1 }) hst hl hi with k | k
  · cases k
  · exact k

/-! ## Examples -/

set_option synthInstance.maxSize 1000 in
/-- A refresh, a listing and a lookup after which two repositories support the info and a third one does not; a download with its result. -/
example : (multiSession [mappingJ [b!"1", b!"2"] 2 true b!"*"] [2, 2, 3] (fun env h c => do
      multiRefresh env h
      let l ← multiGetTopLevelTargets env h c
      let g ← multiGetTargetInfo env h c b!"f"
      let d ← multiDownloadTarget env h g.targetInfo [] [] g.repositories
      pure (l.map (fun e => (e.1, e.2.length)), g.targetInfo.length, g.repositories, d))).1 = .ok ([(b!"f", 2)], 2, [b!"1", b!"2"], b!"t/f", [7, 7]) := by decide +kernel

end Tuf
