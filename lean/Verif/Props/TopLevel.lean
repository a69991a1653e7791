import Verif.Props.MultiRepo
import Verif.Props.Honest
import Verif.Props.Refresh

/-! # Listing top-level targets: properties C106 to C108 -/

namespace Tuf
open Spec Sample

section
variable {x : Ctx}

/-! ## C106 -/

theorem getTopLevelTargets_eq_ok {t : Trusted} {ts : GoMap (Option TargetFiles)} :
    getTopLevelTargets t = .ok ts ↔ ∃ m, t.targets.get? b!"targets" = some m ∧ m.signed.targets = ts := by
  unfold getTopLevelTargets
  show (Res.deref (t.targets.get? b!"targets") >>= fun m => Res.ok m.signed.targets) = .ok ts ↔ _
  cases t.targets.get? b!"targets" with
  | none => exact ⟨fun h => (by cases h), fun ⟨_, h, _⟩ => (by cases h)⟩
  | some m => exact ⟨fun h => by cases h; exact ⟨m, rfl, rfl⟩, fun ⟨_, h, h'⟩ => by cases h; rw [← h']; rfl⟩

/-- C106: after a successful `Refresh` there is a listing: that of the accepted top-level targets metadata. -/
theorem C106_after_refresh {s s' : St} (h : refresh x s = (.ok (), s')) :
    ∃ m, s'.trusted.targets.get? b!"targets" = some m ∧ getTopLevelTargets s'.trusted = .ok m.signed.targets := by
  obtain ⟨m, hm⟩ := Option.isSome_iff_exists.1 (refresh_targets h)
  exact ⟨m, hm, getTopLevelTargets_eq_ok.2 ⟨m, hm, rfl⟩⟩

/-- C106: what is listed under a path is what `GetTargetInfo` returns for it, at once: nothing is downloaded, read, written or added to the trusted set. -/
theorem C106_lookup (hmax : 0 ≤ x.cfg.maxDelegations) {s : St} {ts : GoMap (Option TargetFiles)} (h : getTopLevelTargets s.trusted = .ok ts) {path : Str}
    {o : Option TargetFiles} (ho : ts.get? path = some o) : getTargetInfo x path s = (.ok o, s) := by
  obtain ⟨m, hm, rfl⟩ := getTopLevelTargets_eq_ok.1 h
  exact info_topLevel hmax hm ho

theorem getTargetInfo_grows {path : Str} {s : St} (h : (s.trusted.targets.get? b!"targets").isSome) : Grows s.trusted (getTargetInfo x path s).2.trusted := by
  obtain ⟨vs, hr⟩ := getTargetInfo_run (x := x) (path := path) s
  cases hr with
  | direct _ h => exact search_grows h
  | refreshed hn => rw [hn] at h; cases h
  | notRefreshed hn => rw [hn] at h; cases h

/-- C106: the listing is the same after any further calls. -/
theorem C106_stable {s s' s'' : St} (h : refresh x s = (.ok (), s')) (hs : Session x s' s'') : getTopLevelTargets s''.trusted = getTopLevelTargets s'.trusted := by
  obtain ⟨m, hm, hl⟩ := C106_after_refresh h
  have : s''.trusted.targets.get? b!"targets" = some m := by
    induction hs with
    | refl => exact hm
    | @step s1 a hs1 ih =>
      cases a with
      | refresh => exact (congrArg (fun t : Trusted => t.targets.get? b!"targets") (C26_refresh_once h hs1).2.1).trans ih
      | getTargetInfo p => exact getTargetInfo_grows (by rw [ih]; rfl) _ _ ih
      | findCachedTarget tf f => exact (congrArg (fun t : Trusted => t.targets.get? b!"targets") (C44_reads_only tf f s1).2.1).trans ih
      | downloadTarget tf f u =>
        have : (downloadTarget x tf f u s1).2.trusted = s1.trusted := by
          rcases downloadTarget_run (x := x) tf f u s1 with ⟨e, h1, _⟩ | ⟨_, _, _, _, _, _, _, h1, _⟩ <;> rw [h1]
        exact (congrArg (fun t : Trusted => t.targets.get? b!"targets") this).trans ih
  rw [hl]
  exact getTopLevelTargets_eq_ok.2 ⟨m, this, rfl⟩

/-- C106: without delegations a path that is not listed is not found either. -/
theorem C106_not_listed {s : St} {m : Metadata TargetsType} (hm : s.trusted.targets.get? b!"targets" = some m) (hd : m.signed.delegations = none) {path : Str}
    (ho : m.signed.targets.get? path = none) : ∃ e, getTargetInfo x path s = (.err e, s) := by
  unfold getTargetInfo
  rw [SM.bind_ok (getTrusted_apply s)]
  rw [if_pos (show (s.trusted.targets.get? TARGETS).isSome = true by rw [show TARGETS = b!"targets" from rfl, hm]; rfl)]
  unfold preOrderDepthFirstWalk
  generalize (x.cfg.maxDelegations + 1).toNat = k
  match k with
  | 0 => exact ⟨_, rfl⟩
  | k + 1 =>
    rw [walk]
    show ∃ e, (loadTargets x TARGETS ROOT >>= _) s = _
    rw [SM.bind_ok (loadTargets_trusted (x := x) (role := TARGETS) (parent := ROOT) hm)]
    rw [ho]
    dsimp only
    have hp : onWorld (pushChildren x path TARGETS m []) s = (.ok [], s) := by
      unfold pushChildren
      rw [hd]
      rfl
    rw [SM.bind_ok hp]
    cases k <;> exact ⟨_, rfl⟩

end

/-! ## C107 -/

section
variable {env : Env} {h : Host} {path : Str}

/-- Clients keep their configuration and their top-level targets metadata once it is trusted. -/
def Spec.KeepsListings (s s' : MSt) : Prop :=
  (∀ repo, (s'.clients.get? repo).isSome = (s.clients.get? repo).isSome) ∧
  ∀ repo cl m, s.clients.get? repo = some cl → cl.trusted.targets.get? b!"targets" = some m →
    ∃ cl', s'.clients.get? repo = some cl' ∧ cl'.cfg = cl.cfg ∧ cl'.trusted.targets.get? b!"targets" = some m

theorem keepsListings_refl (s : MSt) : KeepsListings s s := ⟨fun _ => rfl, fun _ cl _ h1 h2 => ⟨cl, h1, rfl, h2⟩⟩
theorem keepsListings_trans {a b c : MSt} (h1 : KeepsListings a b) (h2 : KeepsListings b c) : KeepsListings a c := by
  refine ⟨fun r => (h2.1 r).trans (h1.1 r), ?_⟩
  intro repo cl m hc hm
  obtain ⟨cl1, e1, e2, e3⟩ := h1.2 repo cl m hc hm
  obtain ⟨cl2, f1, f2, f3⟩ := h2.2 repo cl1 m e1 e3
  exact ⟨cl2, f1, f2.trans e2, f3⟩

/-- The computation keeps the listings, whatever its outcome. -/
def ListingsKept {α : Type} (m : MM α) : Prop := ∀ s, KeepsListings s (m s).2

theorem listingsKept_pure {α : Type} (a : α) : ListingsKept (pure a) := fun s => keepsListings_refl s
theorem listingsKept_throw {α : Type} (e : Err) : ListingsKept (SM.throw e : MM α) := fun s => keepsListings_refl s
theorem listingsKept_panic {α : Type} : ListingsKept (SM.panic : MM α) := fun s => keepsListings_refl s
theorem listingsKept_lift {α : Type} (r : Res α) : ListingsKept (SM.lift r : MM α) := fun s => by rw [SM.lift_apply]; exact keepsListings_refl s
theorem listingsKept_bind {α β : Type} {m : MM α} {f : α → MM β} (hm : ListingsKept m) (hf : ∀ a, ListingsKept (f a)) : ListingsKept (m >>= f) := by
  intro s
  have h1 := hm s
  rw [SM.bind_apply]
  rcases hr : m s with ⟨r, s1⟩
  rw [hr] at h1
  cases r with
  | ok a => exact keepsListings_trans h1 (hf a s1)
  | err e => exact h1
  | panic => exact h1
theorem listingsKept_try {α : Type} {m : MM α} (hm : ListingsKept m) : ListingsKept (SM.try' m) := fun s => by rw [SM.try_snd]; exact hm s
theorem listingsKept_world {α : Type} (m : W α) : ListingsKept (mWorld m) := fun s => by
  unfold mWorld
  rcases m s.world with ⟨r, w⟩
  exact ⟨fun _ => rfl, fun _ cl _ h1 h2 => ⟨cl, h1, rfl, h2⟩⟩

theorem listingsKept_onClient {α : Type} {repo : Str} {m : Ctx → M α}
    (hm : ∀ x s tg, s.trusted.targets.get? b!"targets" = some tg → (m x s).2.trusted.targets.get? b!"targets" = some tg) : ListingsKept (onClient env h repo m) := by
  intro s
  refine ⟨fun name => ?_, ?_⟩
  · rcases ho : onClient env h repo m s with ⟨r, s'⟩
    exact onClient_clients ho name
  · intro name cl tg hc ht
    unfold onClient
    cases hr : s.clients.get? repo with
    | none => exact ⟨cl, hc, rfl, ht⟩
    | some c =>
      dsimp only
      rcases hm' : m ⟨env, h, c.cfg⟩ ⟨c.trusted, s.world⟩ with ⟨r, st⟩
      dsimp only
      by_cases he : name = repo
      · subst he
        rw [hr] at hc; cases hc
        have := hm ⟨env, h, cl.cfg⟩ ⟨cl.trusted, s.world⟩ tg ht
        rw [hm'] at this
        exact ⟨{ cl with trusted := st.trusted }, Entries.get?_set_self _ _ _, rfl, this⟩
      · exact ⟨cl, by rw [Entries.get?_set_ne _ _ (Ne.symm he)]; exact hc, rfl, ht⟩

theorem listingsKept_collect (repos : List Str) (gs : List TargetMatch) : ListingsKept (collectGroups env h path repos gs) := by
  induction repos generalizing gs with
  | nil => exact listingsKept_pure _
  | cons repo repos ih =>
    rw [collectGroups]
    refine listingsKept_bind (listingsKept_try (listingsKept_onClient ?_)) ?_
    · intro x s tg ht
      exact getTargetInfo_grows (by rw [ht]; rfl) _ _ ht
    · intro o
      cases o with
      | error e => exact ih gs
      | ok p => exact listingsKept_bind (listingsKept_lift _) (fun info => ih _)

theorem listingsKept_patterns (m : Mapping) (ps : List Str) : ListingsKept (tryPatterns env h path m ps) := by
  induction ps with
  | nil => exact listingsKept_pure _
  | cons p ps ih =>
    rw [tryPatterns]
    split
    · exact listingsKept_throw _
    · exact ih
    · refine listingsKept_bind (listingsKept_collect _ _) (fun groups => listingsKept_bind (listingsKept_lift _) (fun o => ?_))
      cases o with
      | some g => exact listingsKept_pure _
      | none =>
        dsimp only
        split
        · exact listingsKept_pure _
        · exact ih

theorem listingsKept_mappings (ms : List (Option Mapping)) : ListingsKept (tryMappings env h path ms) := by
  induction ms with
  | nil => exact listingsKept_throw _
  | cons o ms ih =>
    cases o with
    | none => exact listingsKept_panic
    | some m =>
      rw [tryMappings]
      refine listingsKept_bind (listingsKept_patterns _ _) ?_
      rintro ⟨o, b⟩
      cases o with
      | some g => exact listingsKept_pure _
      | none => cases b <;> first | exact ih | exact listingsKept_throw _

theorem listingsKept_info (c : MultiCfg) : ListingsKept (multiGetTargetInfo env h c path) := listingsKept_mappings _

/-- The result of looking the path up, in some state in which the clients have at least the listings of `s`. -/
def Spec.FoundFrom (env : Env) (h : Host) (c : MultiCfg) (s : MSt) (path : Str) (info : TargetFiles) : Prop :=
  ∃ s1 s2 g, KeepsListings s s1 ∧ multiGetTargetInfo env h c path s1 = (.ok g, s2) ∧ g.targetInfo = info

/-- The repository lists the path. -/
def Spec.ListedBy (s : MSt) (repo path : Str) : Prop :=
  ∃ cl ts, s.clients.get? repo = some cl ∧ getTopLevelTargets cl.trusted = .ok ts ∧ (ts.get? path).isSome

theorem listedBy_kept {s s' : MSt} (hk : KeepsListings s s') {repo : Str} (h : ListedBy s repo path) : ListedBy s' repo path := by
  obtain ⟨cl, ts, h1, h2, h3⟩ := h
  obtain ⟨m, h4, rfl⟩ := getTopLevelTargets_eq_ok.1 h2
  obtain ⟨cl', e1, _, e3⟩ := hk.2 repo cl m h1 h4
  exact ⟨cl', _, e1, getTopLevelTargets_eq_ok.2 ⟨m, e3, rfl⟩, h3⟩

theorem topLevelLoop_ok {c : MultiCfg} {names : List Str} {acc res : Entries TargetFiles} {s0 s s' : MSt} (hk : KeepsListings s0 s)
    (hl : topLevelLoop env h c names acc s = (.ok res, s')) (ha : ∀ n i, acc.get? n = some i → FoundFrom env h c s0 n i) :
    KeepsListings s s' ∧ (∀ n i, res.get? n = some i → FoundFrom env h c s0 n i) ∧ ∀ n, (res.get? n).isSome ↔ (acc.get? n).isSome ∨ n ∈ names := by
  induction names generalizing acc s with
  | nil => cases hl; exact ⟨keepsListings_refl _, ha, by simp⟩
  | cons name names ih =>
    rw [topLevelLoop] at hl
    obtain ⟨g, s1, h1, hl⟩ := SM.bind_eq_ok.1 hl
    have k1 : KeepsListings s s1 := by have := listingsKept_info (env := env) (h := h) (path := name) c s; rwa [h1] at this
    cases hv : acc.get? name with
    | some val =>
      rw [hv] at hl
      dsimp only at hl
      split at hl
      · obtain ⟨i1, i2, i3⟩ := ih (keepsListings_trans hk k1) hl ha
        refine ⟨keepsListings_trans k1 i1, i2, ?_⟩
        intro n
        rw [i3, List.mem_cons]
        constructor
        · rintro (h | h)
          · exact .inl h
          · exact .inr (.inr h)
        · rintro (h | rfl | h)
          · exact .inl h
          · exact .inl (by rw [hv]; rfl)
          · exact .inr h
      · cases hl
    | none =>
      rw [hv] at hl
      dsimp only at hl
      obtain ⟨i1, i2, i3⟩ := ih (keepsListings_trans hk k1) hl (by
        intro n i hn
        rw [Entries.get?_set] at hn
        split at hn
        · next he => cases hn; subst he; exact ⟨s, s1, g, hk, h1, rfl⟩
        · exact ha n i hn)
      refine ⟨keepsListings_trans k1 i1, i2, ?_⟩
      intro n
      rw [i3, List.mem_cons, Entries.get?_set]
      split
      · next he => simp [he]
      · next he => simp [Ne.symm he]

theorem iterate_perm {α : Type} {es l : List α} {s s' : MSt} (hi : mWorld (iterateMap h es) s = (.ok l, s')) : l.Perm es ∧ s'.clients = s.clients := by
  obtain ⟨w, h1, rfl⟩ := mWorld_ok hi
  obtain ⟨o, l', h3, h4, h5⟩ := iterateMap_apply h es s.world
  rw [h5] at h1
  cases h1
  refine ⟨?_, rfl⟩
  have := perm_iterate h3
  rwa [← h4] at this

theorem topLevelClients_ok {c : MultiCfg} {repos : List Str} {acc res : Entries TargetFiles} {s0 s s' : MSt} (hk : KeepsListings s0 s)
    (hl : topLevelClients env h c repos acc s = (.ok res, s')) (ha : ∀ n i, acc.get? n = some i → FoundFrom env h c s0 n i) :
    KeepsListings s s' ∧ (∀ n i, res.get? n = some i → FoundFrom env h c s0 n i) ∧
    (∀ r ∈ repos, ∃ cl ts, s'.clients.get? r = some cl ∧ getTopLevelTargets cl.trusted = .ok ts) ∧
    ∀ n, (res.get? n).isSome ↔ (acc.get? n).isSome ∨ ∃ r ∈ repos, ListedBy s' r n := by
  induction repos generalizing acc s with
  | nil => cases hl; exact ⟨keepsListings_refl _, ha, by simp, by simp⟩
  | cons repo repos ih =>
    rw [topLevelClients] at hl
    obtain ⟨ts, s1, h1, hl⟩ := SM.bind_eq_ok.1 hl
    obtain ⟨names, s2, h2, hl⟩ := SM.bind_eq_ok.1 hl
    obtain ⟨r1, s3, h3, hl⟩ := SM.bind_eq_ok.1 hl
    have k1 : KeepsListings s s1 := by
      have := listingsKept_onClient (env := env) (h := h) (repo := repo) (m := fun _ => (fun s => (getTopLevelTargets s.trusted, s))) (fun _ _ _ h => h) s
      rwa [h1] at this
    have k2 : KeepsListings s1 s2 := by have := listingsKept_world (iterateMap h ts.entries.keys) s1; rwa [h2] at this
    have k02 := keepsListings_trans hk (keepsListings_trans k1 k2)
    obtain ⟨k3, j2, j3⟩ := topLevelLoop_ok k02 h3 ha
    obtain ⟨k4, i2, i2', i3⟩ := ih (keepsListings_trans k02 k3) hl j2
    obtain ⟨cl, st, e1, e2, e3⟩ := onClient_ok h1
    have e4 : getTopLevelTargets cl.trusted = .ok ts ∧ st.trusted = cl.trusted := by
      dsimp only at e2
      rw [Prod.mk.injEq] at e2
      exact ⟨e2.1, by rw [← e2.2]⟩
    have e5 : s1.clients.get? repo = some cl := by
      rw [e3]
      dsimp only
      rw [Entries.get?_set_self, e4.2]
    obtain ⟨m, e6, e7⟩ := getTopLevelTargets_eq_ok.1 e4.1
    obtain ⟨cl', f1, _, f3⟩ := (keepsListings_trans k2 (keepsListings_trans k3 k4)).2 repo cl m e5 e6
    have f4 : getTopLevelTargets cl'.trusted = .ok ts := getTopLevelTargets_eq_ok.2 ⟨m, f3, e7⟩
    have hperm := (iterate_perm h2).1
    refine ⟨keepsListings_trans k1 (keepsListings_trans k2 (keepsListings_trans k3 k4)), i2, ?_, ?_⟩
    · intro r hr
      rcases List.mem_cons.1 hr with rfl | hr
      · exact ⟨cl', ts, f1, f4⟩
      · exact i2' r hr
    · intro n
      rw [i3, j3, or_assoc]
      refine or_congr Iff.rfl ?_
      have hn : n ∈ names ↔ ListedBy s' repo n := by
        rw [hperm.mem_iff]
        constructor
        · intro hn
          refine ⟨cl', ts, f1, f4, ?_⟩
          exact Entries.get?_isSome_iff.2 hn
        · rintro ⟨cl2, ts2, g1, g2, g3⟩
          rw [f1] at g1; cases g1
          rw [f4] at g2; cases g2
          obtain ⟨o, g3⟩ := Option.isSome_iff_exists.1 g3
          exact List.mem_map.2 ⟨_, Entries.mem_of_get? g3, rfl⟩
      constructor
      · rintro (h | ⟨r, hr, hl⟩)
        · exact ⟨repo, .head _, hn.1 h⟩
        · exact ⟨r, .tail _ hr, hl⟩
      · rintro ⟨r, hr, hlist⟩
        rcases List.mem_cons.1 hr with rfl | hr
        · exact .inl (hn.2 hlist)
        · exact .inr ⟨r, hr, hlist⟩

/-- The whole call. -/
theorem multiTopLevel_ok {c : MultiCfg} {s s' : MSt} {res : Entries TargetFiles} (hl : multiGetTopLevelTargets env h c s = (.ok res, s')) :
    KeepsListings s s' ∧ (∀ n i, res.get? n = some i → FoundFrom env h c s n i) ∧
    (∀ r cl, s'.clients.get? r = some cl → ∃ ts, getTopLevelTargets cl.trusted = .ok ts) ∧ ∀ n, (res.get? n).isSome ↔ ∃ r, ListedBy s' r n := by
  unfold multiGetTopLevelTargets at hl
  obtain ⟨repos, s1, h1, hl⟩ := SM.bind_eq_ok.1 hl
  have k1 : KeepsListings s s1 := by have := listingsKept_world (iterateMap h s.clients.keys) s; rwa [h1] at this
  obtain ⟨hp, hc⟩ := iterate_perm h1
  obtain ⟨k2, i2, i2', i3⟩ := topLevelClients_ok k1 hl (by intro n i hn; cases hn)
  have known : ∀ r cl, s'.clients.get? r = some cl → r ∈ repos := by
    intro r cl hr
    have := (keepsListings_trans k1 k2).1 r
    rw [hr] at this
    obtain ⟨cl0, h0⟩ := Option.isSome_iff_exists.1 this.symm
    exact hp.mem_iff.2 (List.mem_map.2 ⟨_, Entries.mem_of_get? h0, rfl⟩)
  refine ⟨keepsListings_trans k1 k2, i2, ?_, ?_⟩
  · intro r cl hr
    obtain ⟨cl', ts, h3, h4⟩ := i2' r (known r cl hr)
    rw [hr] at h3; cases h3
    exact ⟨ts, h4⟩
  · intro n
    rw [i3]
    constructor
    · rintro (h | ⟨r, _, h⟩)
      · cases h
      · exact ⟨r, h⟩
    · rintro ⟨r, hlist⟩
      obtain ⟨cl, ts, h4, _⟩ := id hlist
      exact .inr ⟨r, known r cl h4, hlist⟩

/-- C107: every entry of the listing was found by `GetTargetInfo` of the multi-repository client. -/
theorem C107_listed_partial {c : MultiCfg} {s s' : MSt} {res : Entries TargetFiles} (hl : multiGetTopLevelTargets env h c s = (.ok res, s')) {name : Str} {info : TargetFiles}
    (hn : res.get? name = some info) : ∃ s1 s2 g, multiGetTargetInfo env h c name s1 = (.ok g, s2) ∧ g.targetInfo = info ∧ KeepsListings s s1 := by
  obtain ⟨s1, s2, g, h1, h2, h3⟩ := (multiTopLevel_ok hl).2.1 name info hn
  exact ⟨s1, s2, g, h2, h3, h1⟩

/-- C107: the names listed are exactly those listed by one of the repositories. -/
theorem C107_names_partial {c : MultiCfg} {s s' : MSt} {res : Entries TargetFiles} (hl : multiGetTopLevelTargets env h c s = (.ok res, s')) (name : Str) :
    (res.get? name).isSome ↔ ∃ repo, ListedBy s' repo name := (multiTopLevel_ok hl).2.2.2 name

/-- C107: hence a name that some repository lists and that has no consensus makes the whole call fail: if the lookup of a listed name never succeeds, nor does the listing. -/
theorem C107_no_consensus_partial {c : MultiCfg} {s s' : MSt} {repo name : Str} (hlist : ListedBy s repo name)
    (hno : ∀ s1, KeepsListings s s1 → ∀ g s2, multiGetTargetInfo env h c name s1 ≠ (.ok g, s2)) (res : Entries TargetFiles) :
    multiGetTopLevelTargets env h c s ≠ (.ok res, s') := by
  intro hl
  have hk := (multiTopLevel_ok hl).1
  obtain ⟨info, hi⟩ := Option.isSome_iff_exists.1 ((C107_names_partial hl name).2 ⟨repo, listedBy_kept hk hlist⟩)
  obtain ⟨s1, s2, g, h1, _, h3⟩ := C107_listed_partial hl hi
  exact hno s1 h3 g s2 h1


/-! ## C108 -/

/-- C108, where it fails: directly after `New` the listing crashes, whatever the configuration. -/
theorem C108_before_refresh {x : Ctx} {w w' : World} {t : Trusted} (hn : newUpdater x w = (.ok t, w')) : getTopLevelTargets t = .panic := by
  obtain ⟨now, hn⟩ := newUpdater_ok hn
  obtain ⟨m, _, _, _, rfl⟩ := C78_new.1 hn
  rfl

/-- C108, where it fails: so does that of a multi-repository client none of whose clients has top-level targets, in particular after `New`. -/
theorem C108_multi_before_refresh {c : MultiCfg} {s : MSt} (hne : s.clients ≠ []) (hs : ∀ r cl, s.clients.get? r = some cl → cl.trusted.targets.get? b!"targets" = none) :
    (multiGetTopLevelTargets env h c s).1 = .panic := by
  unfold multiGetTopLevelTargets
  rcases hi : mWorld (iterateMap h s.clients.keys) s with ⟨r, s1⟩
  have hok : ∃ l, r = .ok l := by
    obtain ⟨o, l, _, _, h5⟩ := iterateMap_apply h s.clients.keys s.world
    unfold mWorld at hi
    rw [h5] at hi
    cases hi
    exact ⟨l, rfl⟩
  obtain ⟨l, rfl⟩ := hok
  obtain ⟨hp, hc⟩ := iterate_perm hi
  rw [SM.bind_ok hi]
  cases l with
  | nil =>
    have := hp.symm.eq_nil
    cases hcl : s.clients with
    | nil => exact absurd hcl hne
    | cons e es => rw [hcl] at this; cases this
  | cons repo rest =>
    have hmem : repo ∈ s.clients.keys := hp.mem_iff.1 (.head _)
    obtain ⟨cl, hcl⟩ := Option.isSome_iff_exists.1 (Entries.get?_isSome_iff.2 hmem)
    have hpanic : ∃ s2, onClient env h repo (fun _ => (fun s => (getTopLevelTargets s.trusted, s))) s1 = (.panic, s2) := by
      unfold onClient
      rw [hc, hcl]
      have : getTopLevelTargets cl.trusted = .panic := by
        unfold getTopLevelTargets
        rw [show TARGETS = b!"targets" from rfl, hs repo cl hcl]
        rfl
      dsimp only
      rw [this]
      exact ⟨_, rfl⟩
    obtain ⟨s2, h2⟩ := hpanic
    rw [topLevelClients, SM.bind_panic h2]

/-- The client has top-level targets. -/
def Spec.Loaded (s : MSt) (repo : Str) : Prop := ∃ cl, s.clients.get? repo = some cl ∧ (cl.trusted.targets.get? b!"targets").isSome

theorem refresh_onClient {name repo : Str} {s s' : MSt} (hr : onClient env h name (fun x => refresh x) s = (.ok (), s')) :
    Loaded s' name ∧ (Loaded s repo → Loaded s' repo) := by
  obtain ⟨cl, st, h1, h2, rfl⟩ := onClient_ok hr
  have hl : Loaded { clients := s.clients.set name { cl with trusted := st.trusted }, world := st.world } name := ⟨_, Entries.get?_set_self _ _ _, refresh_targets h2⟩
  refine ⟨hl, ?_⟩
  rintro ⟨cl', h3, h4⟩
  by_cases he : repo = name
  · rw [he]; exact hl
  · exact ⟨cl', (Entries.get?_set_ne _ _ (Ne.symm he)).trans h3, h4⟩

theorem refreshClients_loaded {names : List Str} {s s' : MSt} (hr : refreshClients env h names s = (.ok (), s')) :
    (∀ n, n ∈ names ∨ Loaded s n → Loaded s' n) ∧ ∀ n, (s'.clients.get? n).isSome = (s.clients.get? n).isSome := by
  induction names generalizing s with
  | nil => cases hr; exact ⟨by rintro n (h | h); exact absurd h (by simp); exact h, fun _ => rfl⟩
  | cons name names ih =>
    rw [refreshClients] at hr
    obtain ⟨_, s1, h1, hr⟩ := SM.bind_eq_ok.1 hr
    obtain ⟨i1, i2⟩ := ih hr
    refine ⟨?_, fun n => (i2 n).trans (onClient_clients h1 n)⟩
    rintro n (hn | hn)
    · rcases List.mem_cons.1 hn with rfl | hn
      · exact i1 _ (.inr (refresh_onClient (repo := n) h1).1)
      · exact i1 n (.inl hn)
    · exact i1 n (.inr ((refresh_onClient h1).2 hn))

theorem topLevelLoop_kept {c : MultiCfg} (names : List Str) (acc : Entries TargetFiles) : ListingsKept (topLevelLoop env h c names acc) := by
  induction names generalizing acc with
  | nil => exact listingsKept_pure _
  | cons name names ih =>
    rw [topLevelLoop]
    refine listingsKept_bind (listingsKept_info c) (fun g => ?_)
    cases acc.get? name with
    | some val =>
      dsimp only
      split
      · exact ih _
      · exact listingsKept_throw _
    | none => exact ih _

theorem topLevelLoop_panic {c : MultiCfg} {names : List Str} {acc : Entries TargetFiles} {s : MSt} (hp : (topLevelLoop env h c names acc s).1 = .panic) :
    ∃ name ∈ names, ∃ s1, KeepsListings s s1 ∧ (multiGetTargetInfo env h c name s1).1 = .panic := by
  induction names generalizing acc s with
  | nil => cases hp
  | cons name names ih =>
    rw [topLevelLoop, SM.bind_apply] at hp
    have k := listingsKept_info (env := env) (h := h) (path := name) c s
    rcases hr : multiGetTargetInfo env h c name s with ⟨r, s1⟩
    rw [hr] at hp k
    have fin : ∀ acc, (topLevelLoop env h c names acc s1).1 = .panic → ∃ n ∈ name :: names, ∃ s1, KeepsListings s s1 ∧ (multiGetTargetInfo env h c n s1).1 = .panic := by
      intro acc hp
      obtain ⟨n, i1, s2, i2, i3⟩ := ih hp
      exact ⟨n, .tail _ i1, s2, keepsListings_trans k i2, i3⟩
    cases r with
    | ok g =>
      dsimp only at hp
      cases hv : acc.get? name with
      | some val =>
        rw [hv] at hp
        dsimp only at hp
        split at hp
        · exact fin _ hp
        · cases hp
      | none => rw [hv] at hp; exact fin _ hp
    | err e => cases hp
    | panic => exact ⟨name, .head _, s, keepsListings_refl _, by rw [hr]⟩

theorem loaded_kept {s s' : MSt} (hk : KeepsListings s s') {repo : Str} (hl : Loaded s repo) : Loaded s' repo := by
  obtain ⟨cl, h1, h2⟩ := hl
  obtain ⟨m, h3⟩ := Option.isSome_iff_exists.1 h2
  obtain ⟨cl', e1, _, e3⟩ := hk.2 repo cl m h1 h3
  exact ⟨cl', e1, by rw [e3]; rfl⟩

theorem topLevelClients_panic {c : MultiCfg} {repos : List Str} {acc : Entries TargetFiles} {s : MSt} (hl : ∀ r ∈ repos, Loaded s r)
    (hp : (topLevelClients env h c repos acc s).1 = .panic) : ∃ repo name s1, ListedBy s1 repo name ∧ KeepsListings s s1 ∧ (multiGetTargetInfo env h c name s1).1 = .panic := by
  induction repos generalizing acc s with
  | nil => cases hp
  | cons repo repos ih =>
    rw [topLevelClients] at hp
    obtain ⟨cl, h1, h2⟩ := hl repo (.head _)
    obtain ⟨m, h3⟩ := Option.isSome_iff_exists.1 h2
    have h4 : getTopLevelTargets cl.trusted = .ok m.signed.targets := getTopLevelTargets_eq_ok.2 ⟨m, h3, rfl⟩
    have k1 := listingsKept_onClient (env := env) (h := h) (repo := repo) (m := fun _ => (fun s => (getTopLevelTargets s.trusted, s))) (fun _ _ _ h => h) s
    have h5 : ∃ s1, onClient env h repo (fun _ => (fun s => (getTopLevelTargets s.trusted, s))) s = (.ok m.signed.targets, s1) := by
      unfold onClient
      rw [h1]
      dsimp only
      rw [h4]
      exact ⟨_, rfl⟩
    obtain ⟨s1, h5⟩ := h5
    rw [h5] at k1
    rw [SM.bind_ok h5] at hp
    have h6 : ∃ l s2, mWorld (iterateMap h m.signed.targets.entries.keys) s1 = (.ok l, s2) := by
      obtain ⟨o, l, _, _, h7⟩ := iterateMap_apply h m.signed.targets.entries.keys s1.world
      refine ⟨l, { s1 with world := s1.world.emit (.iterate o) }, ?_⟩
      unfold mWorld
      rw [h7]
    obtain ⟨l, s2, h6⟩ := h6
    have k2 := listingsKept_world (iterateMap h m.signed.targets.entries.keys) s1
    rw [h6] at k2
    rw [SM.bind_ok h6, SM.bind_apply] at hp
    have k3 := topLevelLoop_kept (env := env) (h := h) (c := c) l acc s2
    rcases hr : topLevelLoop env h c l acc s2 with ⟨r, s3⟩
    rw [hr] at hp k3
    cases r with
    | ok res =>
      have k := keepsListings_trans k1 (keepsListings_trans k2 k3)
      obtain ⟨r, name, s4, i1, i2, i3⟩ := ih (fun r hr => loaded_kept k (hl r (.tail _ hr))) hp
      exact ⟨r, name, s4, i1, keepsListings_trans k i2, i3⟩
    | err e => cases hp
    | panic =>
      obtain ⟨name, i1, s4, i2, i3⟩ := topLevelLoop_panic (by rw [hr])
      have k := keepsListings_trans k1 (keepsListings_trans k2 i2)
      exact ⟨repo, name, s4, listedBy_kept k ⟨cl, _, h1, h4, Entries.get?_isSome_iff.2 ((iterate_perm h6).1.mem_iff.1 i1)⟩, k, i3⟩

/-- C108 after a successful `Refresh`: the listing crashes only if the lookup of a listed name does, in a state with the same listings. -/
theorem C108_after_refresh_partial {c : MultiCfg} {s s' : MSt} (hr : multiRefresh env h s = (.ok (), s')) (hp : (multiGetTopLevelTargets env h c s').1 = .panic) :
    ∃ repo name s1, ListedBy s1 repo name ∧ KeepsListings s' s1 ∧ (multiGetTargetInfo env h c name s1).1 = .panic := by
  unfold multiRefresh at hr
  obtain ⟨names, s1, h1, hr⟩ := SM.bind_eq_ok.1 hr
  obtain ⟨hp1, hc1⟩ := iterate_perm h1
  obtain ⟨i1, i2⟩ := refreshClients_loaded hr
  unfold multiGetTopLevelTargets at hp
  rw [SM.bind_apply] at hp
  rcases hi : mWorld (iterateMap h s'.clients.keys) s' with ⟨r, s2⟩
  rw [hi] at hp
  cases r with
  | ok repos =>
    obtain ⟨hp2, hc2⟩ := iterate_perm hi
    have k := listingsKept_world (iterateMap h s'.clients.keys) s'
    rw [hi] at k
    have hl : ∀ r ∈ repos, Loaded s2 r := by
      intro r hm
      have hm := hp2.mem_iff.1 hm
      have : (s.clients.get? r).isSome := by
        rw [← hc1, ← i2 r]
        exact Entries.get?_isSome_iff.2 hm
      obtain ⟨cl, h3, h4⟩ := i1 r (.inl (hp1.mem_iff.2 (Entries.get?_isSome_iff.1 this)))
      exact ⟨cl, by rw [hc2]; exact h3, h4⟩
    obtain ⟨repo, name, s3, i3, i4, i5⟩ := topLevelClients_panic hl hp
    exact ⟨repo, name, s3, i3, keepsListings_trans k i4, i5⟩
  | err e => cases hp
  | panic =>
    obtain ⟨o, l, _, _, h7⟩ := iterateMap_apply h s'.clients.keys s'.world
    unfold mWorld at hi
    rw [h7] at hi
    cases hi

end

namespace Sample

/-- Names and lengths of the listing after `Refresh`. -/
def multiListing (mappings : List Json) (lengths : List UInt8) (r : Bool) : Res (List (Str × Int)) :=
  (multiSession mappings lengths (fun env h c => (if r then multiRefresh env h else pure ()) >>= fun _ => multiGetTopLevelTargets env h c)).1.map (fun es => es.map (fun e => (e.1, e.2.length)))

end Sample

/-- After `Refresh` the listing has `f` but not the delegated `d/g` (C106). -/
example : (session ctx [] (refresh ctx >>= fun _ => fun s => (getTopLevelTargets s.trusted, s))).1.map (fun ts => ts.entries.map (fun e => (e.1, e.2.map (·.length)))) = .ok [(b!"f", some 2)] ∧
    (session ctx [] (fun s => (getTopLevelTargets s.trusted, s))).1.map (fun ts => ts.entries.length) = .panic := by decide +kernel

/-- Every repository lists `f`; `g` is listed by two of three repositories (C107). -/
example : multiListing two [2, 2, 2] true = .ok [(b!"f", 2)] ∧ multiListing two [2, 104, 104] true = .ok [(b!"f", 2), (b!"g", 2)] := by decide +kernel

/-- The negation of C107: all three repositories agree on `f`, one lists `g` too; instead of skipping `g` the call fails. -/
theorem C107_false : multiListing two [2, 2, 104] true = .err (.other "target info not found") ∧ multiLookup two [2, 2, 104] = .ok (2, [b!"1", b!"2", b!"3"]) := by decide +kernel

/-- The negation of C108. -/
theorem C108_false : multiListing two [2, 2, 2] false = .panic := by decide +kernel

end Tuf
