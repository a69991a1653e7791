import Verif.Spec.MultiDownload
import Verif.Props.MultiHonest
import Verif.Props.MultiHonestCase

/-!
# Downloads from several repositories (C130)
-/

namespace Tuf
open Spec Sample

section
variable {env : Env} {h : Host} {tf : TargetFiles} {given base : Str}

theorem onClient_known {α : Type} {repo : Str} {m : Ctx → M α} {s : MSt} {cl : Client} {r : Res α} {st : St} (hc : s.clients.get? repo = some cl)
    (hm : m ⟨env, h, cl.cfg⟩ ⟨cl.trusted, s.world⟩ = (r, st)) (ht : st.trusted = cl.trusted) :
    ∃ s', onClient env h repo m s = (r, s') ∧ s'.world = st.world ∧ ∀ name, s'.clients.get? name = s.clients.get? name := by
  refine ⟨_, by unfold onClient; rw [hc]; dsimp only; rw [hm], rfl, ?_⟩
  intro name
  dsimp only
  rw [Entries.get?_set, ht]
  split
  · next he => subst he; exact hc.symm
  · rfl

theorem downloadTarget_trusted (x : Ctx) (s : St) : (downloadTarget x tf given base s).2.trusted = s.trusted := by
  rcases downloadTarget_run (x := x) tf given base s with ⟨e, h1, _⟩ | ⟨_, _, _, _, _, _, _, h1, _⟩ <;> rw [h1]

/-- What is done for one repository that does not have the target in its file. -/
theorem mirror_step {repo : Str} {repos : List Str} {s s1 : MSt} {cl : Client} {out1 : Str × Bytes} (hc : s.clients.get? repo = some cl)
    (hs : ∀ name, s1.clients.get? name = s.clients.get? name) (hno : ∀ file data, ¬ InFile ⟨env, h, cl.cfg⟩ tf given s.world file data) (hlook : Looked s.world s1.world)
    (hfind : onClient env h repo (fun x => findCachedTarget x tf given) s = (.ok out1, s1)) (hcond : ¬ (out1.1.length ≠ 0 ∧ out1.2.length ≠ 0))
    (ih : ∀ s : MSt, (∀ name, (multiDownloadTarget env h tf given base repos s).2.clients.get? name = s.clients.get? name) ∧
      MirrorRun env h s.clients.get? tf given base repos s.world (multiDownloadTarget env h tf given base repos s).1 (multiDownloadTarget env h tf given base repos s).2.world) :
    (∀ name, (multiDownloadTarget env h tf given base (repo :: repos) s).2.clients.get? name = s.clients.get? name) ∧
      MirrorRun env h s.clients.get? tf given base (repo :: repos) s.world (multiDownloadTarget env h tf given base (repo :: repos) s).1
        (multiDownloadTarget env h tf given base (repo :: repos) s).2.world := by
  have hrun : multiDownloadTarget env h tf given base (repo :: repos) s = (do
      match ← SM.try' (onClient env h repo (fun x => downloadTarget x tf given base)) with
      | .error _ => multiDownloadTarget env h tf given base repos
      | .ok res => pure res : MM (Str × Bytes)) s1 := by
    rw [multiDownloadTarget, SM.bind_ok hfind]
    obtain ⟨a, b⟩ := out1
    dsimp only at hcond ⊢
    rw [if_neg hcond]
    rfl
  rw [hrun]
  clear hrun
  rcases hd : downloadTarget ⟨env, h, cl.cfg⟩ tf given base ⟨cl.trusted, s1.world⟩ with ⟨r, st⟩
  have ht : st.trusted = cl.trusted := by
    have := downloadTarget_trusted (tf := tf) (given := given) (base := base) ⟨env, h, cl.cfg⟩ ⟨cl.trusted, s1.world⟩
    rw [hd] at this
    exact this
  obtain ⟨s2, h1, h2, h3⟩ := onClient_known (m := fun x => downloadTarget x tf given base) ((hs repo).trans hc) hd ht
  have hnp := (C43_no_mismatch_stored (x := ⟨env, h, cl.cfg⟩) tf given base ⟨cl.trusted, s1.world⟩).1
  rw [hd] at hnp
  cases r with
  | panic => exact absurd rfl hnp
  | ok p =>
    rw [SM.bind_ok (SM.try_ok h1)]
    refine ⟨fun name => (h3 name).trans (hs name), ?_⟩
    show MirrorRun _ _ _ _ _ _ _ _ (.ok p) s2.world
    rw [h2]
    exact .delivered hc hno hlook hd
  | err e =>
    rw [SM.bind_ok (SM.try_err h1)]
    dsimp only
    obtain ⟨i1, i2⟩ := ih s2
    have hget : s2.clients.get? = s.clients.get? := funext (fun name => (h3 name).trans (hs name))
    refine ⟨fun name => (i1 name).trans ((h3 name).trans (hs name)), ?_⟩
    rw [hget, h2] at i2
    exact .failed hc hno hlook hd i2

/-- C130: everything `DownloadTarget` can do. The clients stay as they are. -/
theorem C130_run (tf : TargetFiles) (given base : Str) (repos : List Str) (s : MSt) :
    (∀ name, (multiDownloadTarget env h tf given base repos s).2.clients.get? name = s.clients.get? name) ∧
    MirrorRun env h s.clients.get? tf given base repos s.world (multiDownloadTarget env h tf given base repos s).1 (multiDownloadTarget env h tf given base repos s).2.world := by
  induction repos generalizing s with
  | nil => exact ⟨fun _ => rfl, .exhausted⟩
  | cons repo repos ih =>
    cases hc : s.clients.get? repo with
    | none =>
      have : multiDownloadTarget env h tf given base (repo :: repos) s = (.panic, s) := by
        rw [multiDownloadTarget]
        show SM.bind _ _ s = _
        unfold SM.bind
        rw [onClient_unknown hc]
      rw [this]
      exact ⟨fun _ => rfl, .unknown hc⟩
    | some cl =>
      rcases findCachedTarget_run (x := ⟨env, h, cl.cfg⟩) tf given ⟨cl.trusted, s.world⟩ with ⟨hd, h1⟩ | ⟨hd, hno, e, h1⟩ | ⟨hd, p, r, hp, ⟨d, h2, h3, h4, h1⟩ | ⟨h2, h1⟩⟩
      · obtain ⟨s1, g1, g2, g3⟩ := onClient_known (m := fun x => findCachedTarget x tf given) hc h1 rfl
        exact mirror_step hc g3 (fun file data hi => by have := hi.caching; rw [show cl.cfg.disableLocalCache = _ from hd] at this; cases this) (.inl g2) g1 (by simp) ih
      · obtain ⟨s1, g1, g2, g3⟩ := onClient_known (m := fun x => findCachedTarget x tf given) hc h1 rfl
        have : multiDownloadTarget env h tf given base (repo :: repos) s = (.err e, s1) := by
          rw [multiDownloadTarget, SM.bind_err g1]
        rw [this]
        refine ⟨g3, ?_⟩
        dsimp only
        rw [g2]
        exact .noFile hc hd hno
      · obtain ⟨s1, g1, g2, g3⟩ := onClient_known (m := fun x => findCachedTarget x tf given) hc h1 rfl
        by_cases hcond : p.length ≠ 0 ∧ d.length ≠ 0
        · have : multiDownloadTarget env h tf given base (repo :: repos) s = (.ok (p, d), s1) := by
            rw [multiDownloadTarget, SM.bind_ok g1]
            dsimp only
            rw [if_pos hcond]
            rfl
          rw [this]
          refine ⟨g3, .cached hc ⟨hd, hp, ?_, h2, h3, h4, ?_⟩ (.inr ⟨p, r, g2⟩)⟩
          · intro h0; rw [h0] at hcond; exact hcond.1 rfl
          · intro h0; rw [h0] at hcond; exact hcond.2 rfl
        · refine mirror_step hc g3 ?_ (.inr ⟨p, r, g2⟩) g1 hcond ih
          intro file data hi
          have := targetPath_unique hi.place hp
          subst this
          have hdd := hi.content
          rw [show s.world.fs file = _ from h2] at hdd
          cases hdd
          exact hcond ⟨fun h0 => hi.named (List.length_eq_zero_iff.1 h0), fun h0 => hi.nonempty (List.length_eq_zero_iff.1 h0)⟩
      · obtain ⟨s1, g1, g2, g3⟩ := onClient_known (m := fun x => findCachedTarget x tf given) hc h1 rfl
        refine mirror_step hc g3 ?_ (.inr ⟨p, r, g2⟩) g1 (by simp) ih
        intro file data hi
        have := targetPath_unique hi.place hp
        subst this
        rcases h2 data hi.content with h | h
        · have := hi.readable
          rw [h] at this
          cases this
        · exact h hi.matching

/-! ## One repository is enough -/

theorem mirror_succeeds {clients : Str → Option Client} {srv : Str → Int → Except Err Bytes} (hs : Serves h srv) {before after : List Str} {repo : Str} {cl : Client} {file : Str} {data : Bytes}
    (hcl : clients repo = some cl) (hd : Delivers env h srv tf given base cl file data)
    (hplace : ∀ r ∈ before, ∃ c, clients r = some c ∧ (c.cfg.disableLocalCache = true ∨ ∃ p, TargetPath ⟨env, h, c.cfg⟩ tf given p)) {w w' : World} {out : Res (Str × Bytes)}
    (hr : MirrorRun env h clients tf given base (before ++ repo :: after) w out w') :
    ∃ p d r c, out = .ok (p, d) ∧ TargetMatches env tf d ∧ r ∈ before ++ [repo] ∧ clients r = some c ∧ TargetPath ⟨env, h, c.cfg⟩ tf given p ∧
      (c.cfg.disableLocalCache = false → w'.fs p = some d) := by
  have hserved : ∀ w1, ∃ st, downloadTarget ⟨env, h, cl.cfg⟩ tf given base ⟨cl.trusted, w1⟩ = (.ok (file, data), st) := by
    intro w1
    obtain ⟨b, hb, hv⟩ := hd.served
    obtain ⟨st, h1, _⟩ := C88_download_partial (x := ⟨env, h, cl.cfg⟩) (s := ⟨cl.trusted, w1⟩) hs hd.disk hd.place hb hv hd.shallow hd.matching
    exact ⟨st, h1⟩
  have hlooked : ∀ {w w1 : World}, Looked w w1 → w1.fs = w.fs := by
    rintro w w1 (rfl | ⟨f, r, rfl⟩) <;> rfl
  induction before generalizing w with
  | nil =>
    rw [List.nil_append] at hr
    cases hr with
    | unknown h1 => rw [hcl] at h1; cases h1
    | noFile h1 h2 h3 => rw [hcl] at h1; cases h1; exact absurd hd.place (h3 _)
    | cached h1 h2 h3 =>
      rw [hcl] at h1
      cases h1
      exact ⟨_, _, repo, cl, rfl, h2.matching, by simp, hcl, h2.place, fun _ => (congrFun (hlooked h3) _).trans h2.content⟩
    | delivered h1 _ _ h2 =>
      rw [hcl] at h1
      cases h1
      obtain ⟨m1, m2, m3, _⟩ := C43_matching h2
      exact ⟨_, _, repo, cl, rfl, m1, by simp, hcl, m2, m3⟩
    | failed h1 _ _ h2 =>
      rw [hcl] at h1
      cases h1
      obtain ⟨st, h3⟩ := hserved _
      rw [h2] at h3
      cases h3
  | cons r0 before ih =>
    obtain ⟨c0, hc0, hp0⟩ := hplace r0 (by simp)
    rw [List.cons_append] at hr
    cases hr with
    | unknown h1 => rw [hc0] at h1; cases h1
    | noFile h1 h2 h3 =>
      rw [hc0] at h1
      cases h1
      rcases hp0 with hp0 | ⟨p, hp0⟩
      · rw [hp0] at h2; cases h2
      · exact absurd hp0 (h3 p)
    | cached h1 h2 h3 =>
      rw [hc0] at h1
      cases h1
      exact ⟨_, _, r0, c0, rfl, h2.matching, by simp, hc0, h2.place, fun _ => (congrFun (hlooked h3) _).trans h2.content⟩
    | delivered h1 _ _ h2 =>
      rw [hc0] at h1
      cases h1
      obtain ⟨m1, m2, m3, _⟩ := C43_matching h2
      exact ⟨_, _, r0, c0, rfl, m1, by simp, hc0, m2, m3⟩
    | failed _ _ _ _ h2 =>
      obtain ⟨p, d, r, c, i1, i2, i3, i4⟩ := ih (fun r hr => hplace r (.tail _ hr)) h2
      exact ⟨p, d, r, c, i1, i2, by rw [List.cons_append]; exact .tail _ i3, i4⟩

/-- **C130.** One of the given repositories has the target; those before it have clients with a file for the target, and may be unreachable or send anything. Then `DownloadTarget` returns data
with the length and hashes of the info, and the file holds them unless caching is off. -/
theorem C130_one_partial {srv : Str → Int → Except Err Bytes} (hs : Serves h srv) {before after : List Str} {repo : Str} {s : MSt} {cl : Client} {file : Str} {data : Bytes}
    (hcl : s.clients.get? repo = some cl) (hd : Delivers env h srv tf given base cl file data) (hplace : ∀ r ∈ before, HasPlace env h tf given s r) :
    ∃ p d s' r c, multiDownloadTarget env h tf given base (before ++ repo :: after) s = (.ok (p, d), s') ∧ TargetMatches env tf d ∧ r ∈ before ++ [repo] ∧ s.clients.get? r = some c ∧
      TargetPath ⟨env, h, c.cfg⟩ tf given p ∧ (c.cfg.disableLocalCache = false → s'.world.fs p = some d) := by
  obtain ⟨p, d, r, c, h1, h2⟩ := mirror_succeeds hs hcl hd hplace (C130_run (env := env) (h := h) tf given base (before ++ repo :: after) s).2
  exact ⟨p, d, _, r, c, Prod.ext h1 rfl, h2⟩

/-- C130: a target that is in its file is returned without downloads, and nothing is written. Missing: empty files (`C130_false_empty`). -/
theorem C130_cached_partial {repo : Str} {repos : List Str} {s : MSt} {cl : Client} {file : Str} {data : Bytes} (hcl : s.clients.get? repo = some cl)
    (hi : InFile ⟨env, h, cl.cfg⟩ tf given s.world file data) :
    ∃ s', multiDownloadTarget env h tf given base (repo :: repos) s = (.ok (file, data), s') ∧ s'.world.fs = s.world.fs ∧ downloads s'.world.trace = downloads s.world.trace := by
  have hr := (C130_run (env := env) (h := h) tf given base (repo :: repos) s).2
  refine ⟨(multiDownloadTarget env h tf given base (repo :: repos) s).2, ?_⟩
  generalize hm : multiDownloadTarget env h tf given base (repo :: repos) s = m at hr
  obtain ⟨out, s'⟩ := m
  generalize hw : s'.world = w' at hr
  cases hr with
  | unknown h1 => rw [hcl] at h1; cases h1
  | noFile h1 h2 h3 => rw [hcl] at h1; cases h1; exact absurd hi.place (h3 _)
  | delivered h1 h2 => rw [hcl] at h1; cases h1; exact absurd hi (h2 _ _)
  | failed h1 h2 => rw [hcl] at h1; cases h1; exact absurd hi (h2 _ _)
  | cached h1 h2 h3 =>
    rw [hcl] at h1
    cases h1
    have := targetPath_unique h2.place hi.place
    subst this
    have hc := h2.content
    rw [hi.content] at hc
    cases hc
    refine ⟨rfl, ?_⟩
    rcases h3 with rfl | ⟨f, r, rfl⟩
    · exact ⟨rfl, rfl⟩
    · exact ⟨rfl, by simp [downloads]⟩

/-- C130: an error means that every repository failed to deliver the target, or that the client of one has no file for it. -/
theorem C130_error {repos : List Str} {s s' : MSt} {e : Err} (he : multiDownloadTarget env h tf given base repos s = (.err e, s')) :
    (∃ repo cl, repo ∈ repos ∧ s.clients.get? repo = some cl ∧ cl.cfg.disableLocalCache = false ∧ ∀ p, ¬ TargetPath ⟨env, h, cl.cfg⟩ tf given p) ∨
    ∀ repo ∈ repos, ∃ cl w e', s.clients.get? repo = some cl ∧ (downloadTarget ⟨env, h, cl.cfg⟩ tf given base ⟨cl.trusted, w⟩).1 = .err e' := by
  have hr := (C130_run (env := env) (h := h) tf given base repos s).2
  rw [he] at hr
  dsimp only at hr
  generalize s'.world = w' at hr
  generalize s.world = w at hr
  clear he
  generalize hout : (Res.err e : Res (Str × Bytes)) = out at hr
  induction hr with
  | exhausted => exact .inr (by simp)
  | unknown => cases hout
  | noFile h1 h2 h3 => exact .inl ⟨_, _, by simp, h1, h2, h3⟩
  | cached => cases hout
  | delivered => cases hout
  | failed h1 h2 h3 h4 _ ih =>
    rcases ih hout with ⟨r, c, h5, h6⟩ | ih
    · exact .inl ⟨r, c, .tail _ h5, h6⟩
    · refine .inr ?_
      intro r hr
      rcases List.mem_cons.1 hr with rfl | hr
      · exact ⟨_, _, _, h1, by rw [h4]⟩
      · exact ih r hr

/-- C130: `DownloadTarget` crashes only for repositories without a client. -/
theorem C130_crash_partial {repos : List Str} {s : MSt} (hk : ∀ repo ∈ repos, (s.clients.get? repo).isSome) : (multiDownloadTarget env h tf given base repos s).1 ≠ .panic := by
  have hr := (C130_run (env := env) (h := h) tf given base repos s).2
  intro hp
  rw [hp] at hr
  generalize (multiDownloadTarget env h tf given base repos s).2.world = w' at hr
  generalize s.world = w at hr
  clear hp
  generalize hout : (Res.panic : Res (Str × Bytes)) = out at hr
  induction hr with
  | unknown h1 => have := hk _ (List.mem_cons_self); rw [h1] at this; cases this
  | failed _ _ _ _ _ ih => exact ih (fun r hr => hk r (.tail _ hr)) hout
  | _ => cases hout

/-! ## From the map file to the file -/

/-- **C130.** With `C122_honest`: if the repositories of the mapping agree on the target and one of them has it, then `New`, `GetTargetInfo` and `DownloadTarget` of what that returned succeed, and the
file of the target holds data with the published length and hashes. -/
theorem C130_session_partial {srv : Str → Int → Except Err Bytes} {now : Time} {c : MultiCfg} {path : Str} (laws : EnvLaws env) (hh : GoodHost h srv now) (hc : CanStart env now c) {w : World} (hw : NoTemps w.fs)
    {skipped rest : List (Option (Str × Mapping))} {p : Str} {m : Mapping}
    (hag : agenda c.repoMap.mapping.elems = skipped ++ some (p, m) :: rest) (hskip : ∀ o ∈ skipped, ∃ q m', o = some (q, m') ∧ env.glob q path = some false) (hp : env.glob p path = some true)
    (hnd : m.repositories.elems.Nodup) (hth : m.threshold ≤ (m.repositories.elems.length : Int)) {len : Int} {hashes : Hashes} (hu : UniqueKeys hashes)
    (hh1 : hashes.entries ≠ []) {good file : Str} {data : Bytes} (hgood : good ∈ m.repositories.elems) (hmatch : ∀ f : TargetFiles, f.length = len → f.hashes = hashes → TargetMatches env f data)
    (hfile : env.urlJoin c.localTargetsDir (queryEscape path) = some file)
    (hlist : ∀ repo ∈ m.repositories.elems, (c.repoMap.repositories.get? repo).isSome ∧ ∀ cfg, OwnConfig c repo cfg → env.urlJoin cfg.remoteMetadataURL b!"targets" = some cfg.remoteTargetsURL →
      ∃ r R docs, ListedAt ⟨env, h, cfg⟩ srv now path len hashes r R docs ∧ NothingCached (joinPath c.localMetadataDir repo) docs w.fs ∧
        (repo = good → (r.consistentSnapshot = true → path.count 47 ≤ 1) ∧ ∀ f : TargetFiles, f.length = len → f.hashes = hashes → f.path = path →
          ∃ b, TargetBase ⟨env, h, cfg⟩ [] b ∧ ServingTarget ⟨env, h, cfg⟩ srv r.consistentSnapshot b f data)) :
    ∃ s1 g s2 d s3, newMultiRepo env h c { world := w } = (.ok (), s1) ∧ multiGetTargetInfo env h c path s1 = (.ok g, s2) ∧ g.targetInfo.length = len ∧ g.targetInfo.hashes = hashes ∧
      multiDownloadTarget env h g.targetInfo [] [] g.repositories s2 = (.ok (file, d), s3) ∧ TargetMatches env g.targetInfo d ∧ s3.world.fs file = some d := by
  obtain ⟨s1, g, s2, h1, h2, h3, h4, h5, h6, h7, h8, h9⟩ := honest_lookup (Q := fun repo cfg r => repo = good → (r.consistentSnapshot = true → path.count 47 ≤ 1) ∧
      ∀ f : TargetFiles, f.length = len → f.hashes = hashes → f.path = path → ∃ b, TargetBase ⟨env, h, cfg⟩ [] b ∧ ServingTarget ⟨env, h, cfg⟩ srv r.consistentSnapshot b f data)
    laws hh hc hw hag hskip hp hnd (List.ne_nil_of_mem hgood) hth hu hh1 hlist
  obtain ⟨before, after, hsplit⟩ := List.append_of_mem ((h7 good).2 hgood)
  have hpath : ∀ {repo : Str} {cfg : Cfg}, OwnConfig c repo cfg → cfg.disableLocalCache = false ∧ TargetPath ⟨env, h, cfg⟩ g.targetInfo [] file := by
    intro repo cfg ho
    refine ⟨ho.cache.trans hc.caching, .generated rfl (.inl ?_) ?_⟩
    · dsimp only
      rw [ho.targets hc.dirs.2]
      exact hc.dirs.2
    · dsimp only
      rw [ho.targets hc.dirs.2, h5]
      exact hfile
  obtain ⟨cl, r, c1, c2, c3, c4⟩ := h9 good hgood
  obtain ⟨c5, c6⟩ := c3 rfl
  obtain ⟨b, c7, c8⟩ := c6 g.targetInfo h3 h4 h5
  have hcs : cl.trusted.root.signed.consistentSnapshot = r.consistentSnapshot := by rw [c4]; rfl
  have hdel : Delivers env h srv g.targetInfo [] [] cl file data :=
    ⟨.inr hh.disk, (hpath c2).2, ⟨b, c7, by rw [hcs]; exact c8⟩, fun _ h0 => by rw [h5]; exact c5 (hcs ▸ h0), hmatch _ h3 h4⟩
  obtain ⟨q, d, s3, r', cl', k1, k2, k3, k4, k5, k6⟩ := C130_one_partial (after := after) (before := before) hh.network c1 hdel (by
    intro r0 hr0
    obtain ⟨cl0, _, e1, e2, _⟩ := h9 r0 ((h7 r0).1 (by rw [hsplit]; exact List.mem_append_left _ hr0))
    exact ⟨cl0, e1, .inr ⟨_, (hpath e2).2⟩⟩)
  have hr' : r' ∈ m.repositories.elems := by
    refine (h7 r').1 ?_
    rw [hsplit]
    rcases List.mem_append.1 k3 with h0 | h0
    · exact List.mem_append_left _ h0
    · rw [List.mem_singleton] at h0
      rw [h0]
      simp
  obtain ⟨cl2, _, e1, e2, _⟩ := h9 r' hr'
  rw [e1] at k4
  cases k4
  have := targetPath_unique k5 (hpath e2).2
  subst this
  rw [← hsplit] at k1
  exact ⟨s1, g, s2, d, s3, h1, h2, h3, h4, k1, k2, k6 (hpath e2).1⟩

end

/-! ## Cases -/

namespace Sample

/-- Clients of the three repositories of `multiServer`, after `New` with these files. -/
def mirrors (files : List (Str × Bytes)) : MSt :=
  (newMultiRepo (multiEnv two) (hostOf (multiServer [2, 2, 2])) mirrorCfg { world := { fs := disk files } }).2
where
  mirrorCfg : MultiCfg :=
    { repoMap := { repositories := some [(b!"1", some [b!"1"]), (b!"2", some [b!"2"]), (b!"3", some [b!"3"])] },
      trustedRoots := [(b!"1", [1, 1]), (b!"2", [1, 1]), (b!"3", [1, 1])], localMetadataDir := b!"m", localTargetsDir := b!"t" }

/-- Download of a target of this length without hashes. -/
def mirrorDownload (files : List (Str × Bytes)) (len : Int) (repos : List Str) : Res (Str × Bytes) :=
  (multiDownloadTarget (multiEnv two) (hostOf (multiServer [2, 2, 2])) { length := len, path := b!"e" } [] [] repos (mirrors files)).1

end Sample

namespace Sample

/-- The server of `treeServer`, with the target. -/
def mirrorServer (url : Str) : Except Err Bytes := if url = b!"u/targets/" ++ hexEncode (digest [7, 7]) ++ b!".g" then .ok [7, 7] else treeServer url

end Sample

theorem mirror_same (url : Str) (h : (b!"u/targets/").isPrefixOf url = false) : mirrorServer url = treeServer url := by
  unfold mirrorServer
  rw [if_neg]
  intro he
  rw [he] at h
  exact absurd h (by decide +kernel)

/-- A case of `C130_session_partial`: the repositories of `C122_honest`; the file of the target is in the folder `t`. -/
example : ∃ s1 g s2 d s3, newMultiRepo treeEnv (hostOf mirrorServer) agreeCfg { world := { fs := disk [] } } = (.ok (), s1) ∧
    multiGetTargetInfo treeEnv (hostOf mirrorServer) agreeCfg b!"g" s1 = (.ok g, s2) ∧ g.targetInfo.length = pubTarget.length ∧ g.targetInfo.hashes = pubTarget.hashes ∧
      multiDownloadTarget treeEnv (hostOf mirrorServer) g.targetInfo [] [] g.repositories s2 = (.ok (b!"t/g", d), s3) ∧ TargetMatches treeEnv g.targetInfo d ∧ s3.world.fs b!"t/g" = some d :=
  C130_session_partial (srv := fun u _ => mirrorServer u) (now := now) treeEnv_laws ⟨⟨fun _ => rfl, fun _ => rfl, fun _ _ => rfl, fun _ _ => Nat.le_refl _, fun _ _ _ => rfl⟩, fun _ _ => rfl, fun _ _ => rfl, fun _ _ _ => rfl, fun _ => rfl⟩
    agreeStart (fun _ _ => rfl) (skipped := [some (b!"f", { paths := some [b!"f"] })]) (rest := []) (p := b!"g") (m := agreeMapping) rfl
    (by intro o ho; rw [List.mem_singleton] at ho; subst ho; exact ⟨_, _, rfl, by decide +kernel⟩) (by decide +kernel) (by decide) (by decide)
    (by simp only [UniqueKeys, pubTarget, GoMap.entries]; decide) (by decide) (good := b!"two") (data := [7, 7]) (by simp [agreeMapping, Slice.elems]) (by
      intro f h1 h2
      refine ⟨by rw [h1]; rfl, ?_⟩
      rw [h2]
      intro alg v hm
      simp only [pubTarget, GoMap.entries, Option.getD_some, List.mem_singleton, Prod.mk.injEq] at hm
      obtain ⟨rfl, rfl⟩ := hm
      exact .sha256) rfl (by
      intro repo hr
      refine ⟨by simp only [agreeMapping, Slice.elems, Option.getD_some, List.mem_cons, List.not_mem_nil, or_false] at hr; rcases hr with rfl | rfl <;> rfl, ?_⟩
      intro cfg hc hrem
      refine ⟨_, _, _, agree_listed mirror_same hc, ⟨fun _ _ => rfl, fun _ _ => rfl⟩, fun _ => ⟨by decide, ?_⟩⟩
      intro f h1 h2 h3
      have hurl : cfg.remoteTargetsURL = b!"u/targets" := by
        rw [(agree_url hc).1] at hrem
        exact (Option.some.inj hrem).symm
      refine ⟨b!"u/targets/", .configured rfl ?_ ?_, .inr ⟨rfl, hc.modes.1, ?_, ?_⟩⟩
      · dsimp only
        rw [hurl]
        decide
      · dsimp only
        rw [hurl]
        exact .inr ⟨by decide +kernel, by decide +kernel⟩
      · rw [h2]
        decide
      · rw [h2, h3]
        rintro alg v name hm ⟨dir, nm, n1, n2, n3, rfl⟩
        simp only [pubTarget, GoMap.entries, Option.getD_some, List.mem_singleton, Prod.mk.injEq] at hm
        obtain ⟨rfl, rfl⟩ := hm
        cases dir with
        | nil =>
          rw [List.nil_append] at n1
          subst n1
          unfold mirrorServer
          exact if_pos rfl
        | cons a dir =>
          obtain ⟨n4, n5⟩ := List.cons.inj n1
          have n6 := List.append_eq_nil_iff.1 n5.symm
          obtain ⟨rfl, rfl⟩ := n6
          subst n4
          rcases n3 with n3 | ⟨t, n3⟩
          · cases n3
          · cases t with
            | nil => cases n3
            | cons _ t => have := congrArg List.length n3; simp at this)

/-- C130 is false for empty files: the target has length 0 and its file is there, `FindCachedTarget` of each client finds it, but `DownloadTarget` asks the repositories, and fails as they are
offline. With a byte in file and target it succeeds. -/
theorem C130_false_empty : isErr (mirrorDownload [(b!"t/e", [])] 0 [b!"1", b!"2", b!"3"]) = true ∧
    (onClient (multiEnv two) (hostOf (multiServer [2, 2, 2])) b!"1" (fun x => findCachedTarget x { length := 0, path := b!"e" } []) (mirrors [(b!"t/e", [])])).1 = .ok (b!"t/e", []) ∧
    mirrorDownload [(b!"t/e", [1])] 1 [b!"1", b!"2", b!"3"] = .ok (b!"t/e", [1]) := by decide +kernel

/-- C130 is false for lists of repositories with a name without a client before the repository that has the target: the call crashes. -/
theorem C130_false_unknown : (multiSession two [2, 2, 2] (fun env h c => multiGetTargetInfo env h c b!"f" >>= fun g => multiDownloadTarget env h g.targetInfo [] [] [b!"4", b!"1"])).1 = .panic ∧
    (multiSession two [2, 2, 2] (fun env h c => multiGetTargetInfo env h c b!"f" >>= fun g => multiDownloadTarget env h g.targetInfo [] [] [b!"1", b!"4"])).1 = .ok (b!"t/f", [7, 7]) := by
  decide +kernel

end Tuf
