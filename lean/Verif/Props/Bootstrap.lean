import Verif.Props.ClientExample
import Verif.Props.TopLevel
import Verif.Props.MultiSession

/-!
# The example client for several repositories: property C125

All hosts (network answers, disk errors, orders of maps) and URLs.
-/

namespace Tuf
open Spec Sample

variable {env : Env} {h : Host} {u : DemoURLs}

theorem firstPart_folder (path : Str) : FolderOf path (firstPart path) := by
  unfold firstPart
  induction path with
  | nil => exact .plain (by simp) rfl
  | cons c l ih =>
    rw [List.takeWhile_cons]
    split
    · next hc =>
      have hc : c ≠ 47 := by simpa using hc
      cases ih with
      | plain h1 h2 => exact .plain (by simp [h1, Ne.symm hc]) (by rw [h2])
      | @inside rest h1 h2 => exact .inside (rest := rest) (by simp only [List.mem_cons, not_or]; exact ⟨Ne.symm hc, h1⟩) (by rw [List.cons_append, List.cons_append, ← h2])
    · next hc =>
      have hc : c = 47 := by simpa using hc
      subst hc
      exact .inside (rest := l) (by simp) rfl

theorem folderOf_unique {path a b : Str} (ha : FolderOf path a) (hb : FolderOf path b) : a = b := by
  cases ha with
  | plain h1 h2 =>
    cases hb with
    | plain _ h3 => rw [h2, h3]
    | inside _ h3 => exact absurd (by rw [h3]; simp) h1
  | @inside rest h1 h2 =>
    cases hb with
    | plain h3 _ => exact absurd (by rw [h2]; simp) h3
    | @inside rest' h3 h4 =>
      subst h2
      simp only [List.append_assoc] at h4
      have key : ∀ a b r r' : Str, (47 : UInt8) ∉ a → (47 : UInt8) ∉ b → a ++ 47 :: r = b ++ 47 :: r' → a = b := by
        intro a
        induction a with
        | nil =>
          intro b r r' _ hb he
          cases b with
          | nil => rfl
          | cons c b => injection he with h1 _; exact absurd (by rw [← h1]; simp) hb
        | cons c a ih =>
          intro b r r' ha hb he
          cases b with
          | nil => injection he with h1 _; exact absurd (by rw [h1]; simp) ha
          | cons c' b =>
            injection he with h1 h2
            rw [h1, ih b r r' (fun hm => ha (.tail _ hm)) (fun hm => hb (.tail _ hm)) h2]
      exact key _ _ _ _ h1 h3 h4

/-- What the loop returns. -/
theorem bootstrapTargets_ok {x : Ctx} {targetsDir : Str} {es : List (Str × Option TargetFiles)} {m0 : Bytes} {r0 : Entries Bytes} {s s' : St} {m : Bytes} {r : Entries Bytes}
    (hb : bootstrapTargets x targetsDir es m0 r0 s = (.ok (m, r), s')) :
    ((m = m0 ∧ ∀ o, (b!"map.json", o) ∉ es) ∨ ∃ tf, (b!"map.json", some tf) ∈ es ∧ TargetMatches x.env tf m) ∧
    (∀ repo data, r.get? repo = some data → r0.get? repo = some data ∨ ∃ path tf, path ≠ b!"map.json" ∧ (path, some tf) ∈ es ∧ firstPart path = repo ∧ TargetMatches x.env tf data) ∧
    (∀ path o, (path, o) ∈ es → path ≠ b!"map.json" → (r.get? (firstPart path)).isSome) ∧ ∀ repo, (r0.get? repo).isSome → (r.get? repo).isSome := by
  induction es generalizing m0 r0 s with
  | nil =>
    cases hb
    exact ⟨.inl ⟨rfl, by simp⟩, fun _ _ h => .inl h, by simp, fun _ h => h⟩
  | cons e es ih =>
    obtain ⟨name, info⟩ := e
    rw [bootstrapTargets] at hb
    obtain ⟨tf, s1, h1, hb1⟩ := SM.bind_eq_ok.1 hb
    obtain ⟨h1, rfl⟩ := lift_ok h1
    obtain ⟨_, s2, h2, hb2⟩ := SM.bind_eq_ok.1 hb1
    obtain ⟨_, s3, h3, hb3⟩ := SM.bind_eq_ok.1 hb2
    obtain ⟨⟨file, data⟩, s4, h4, hb4⟩ := SM.bind_eq_ok.1 hb3
    have hi : info = some tf := by
      cases info with
      | none => cases h1
      | some t => cases h1; rfl
    subst hi
    have hm := (C43_matching h4).1
    split at hb4
    · next hn =>
      subst hn
      obtain ⟨i1, i2, i3, i4⟩ := ih hb4
      refine ⟨.inr ?_, ?_, ?_, i4⟩
      · rcases i1 with ⟨rfl, _⟩ | ⟨tf', i1, i5⟩
        · exact ⟨tf, .head _, hm⟩
        · exact ⟨tf', .tail _ i1, i5⟩
      · intro repo data hd
        rcases i2 repo data hd with k | ⟨path, tf', k1, k2, k3⟩
        · exact .inl k
        · exact .inr ⟨path, tf', k1, .tail _ k2, k3⟩
      · intro path o hp hne
        rcases List.mem_cons.1 hp with hp | hp
        · cases hp; exact absurd rfl hne
        · exact i3 path o hp hne
    · next hn =>
      obtain ⟨i1, i2, i3, i4⟩ := ih hb4
      refine ⟨?_, ?_, ?_, ?_⟩
      · rcases i1 with ⟨rfl, i1⟩ | ⟨tf', i1, i5⟩
        · left
          refine ⟨rfl, ?_⟩
          intro o ho
          rcases List.mem_cons.1 ho with ho | ho
          · cases ho; exact hn rfl
          · exact i1 o ho
        · exact .inr ⟨tf', .tail _ i1, i5⟩
      · intro repo data' hd
        rcases i2 repo data' hd with k | ⟨path, tf', k1, k2, k3⟩
        · rw [Entries.get?_set] at k
          split at k
          · next he =>
            cases k
            exact .inr ⟨name, tf, hn, .head _, he, hm⟩
          · exact .inl k
        · exact .inr ⟨path, tf', k1, .tail _ k2, k3⟩
      · intro path o hp hne
        rcases List.mem_cons.1 hp with hp | hp
        · cases hp
          exact i4 _ (by rw [Entries.get?_set, if_pos rfl]; rfl)
        · exact i3 path o hp hne
      · intro repo hr
        refine i4 repo ?_
        rw [Entries.get?_set]
        split
        · rfl
        · exact hr

/-! ## Metadata that was read has no target twice -/

theorem setPaths_keys {es es' : Entries (Option TargetFiles)} (hs : setPaths es = .ok es') : es'.keys = es.keys := by
  induction es generalizing es' with
  | nil => cases hs; rfl
  | cons e es ih =>
    obtain ⟨k0, v⟩ := e
    cases v with
    | none => cases hs
    | some t =>
      obtain ⟨r, h1, h2⟩ := Res.bind_eq_ok.1 hs
      cases h2
      simp only [Entries.keys, List.map_cons]
      rw [show List.map Prod.fst r = List.map Prod.fst es from ih h1]

theorem targets_setField_unique {env : Env} {f : Str} {j : Json} {a a' : TargetsType} (hs : TargetsType.setField env f j a = .ok a') (ha : UniqueKeys a.targets) : UniqueKeys a'.targets := by
  unfold TargetsType.setField at hs
  repeat' split at hs
  all_goals
    obtain ⟨v, h1, h2⟩ := Res.bind_eq_ok.1 hs
    cases h2
    first
      | exact ha
      | exact decMap_nodup h1 ha

theorem unmarshal_unique {env : Env} {j : Json} {t : TargetsType} (hu : TargetsType.unmarshal env j = .ok t) : UniqueKeys t.targets := by
  obtain ⟨a, h0, hu⟩ := Res.bind_eq_ok.1 hu
  obtain ⟨b, h1, hu⟩ := Res.bind_eq_ok.1 hu
  obtain ⟨d, _, hu⟩ := Res.bind_eq_ok.1 hu
  cases hu
  show UniqueKeys b.targets
  have hz : UniqueKeys ({} : TargetsType).targets := List.nodup_nil
  have ha : UniqueKeys a.targets := by
    cases j with
    | obj m => exact decFields_keeps (P := fun a : TargetsType => UniqueKeys a.targets) (fun f j a a' h => targets_setField_unique h) h0 hz
    | null => cases h0; exact hz
    | _ => cases h0
  simp only [TargetsType.setTargetPaths] at h1
  split at h1
  · cases h1; exact ha
  · next es he =>
    obtain ⟨es', h2, h3⟩ := Res.bind_eq_ok.1 h1
    cases h3
    show es'.keys.Nodup
    rw [setPaths_keys h2]
    have := ha
    unfold UniqueKeys at this
    rw [he] at this
    exact this

theorem fromBytes_unique {env : Env} {data : Bytes} {m : Metadata TargetsType} (hp : ParsesTo env data m) : UniqueKeys m.signed.targets := by
  obtain ⟨_, _, hp⟩ := Res.bind_eq_ok.1 hp
  obtain ⟨j, _, hp⟩ := Res.bind_eq_ok.1 hp
  obtain ⟨m', h1, hp⟩ := Res.bind_eq_ok.1 hp
  obtain ⟨_, _, hp⟩ := Res.bind_eq_ok.1 hp
  cases hp
  obtain ⟨a, h2, hp⟩ := Res.bind_eq_ok.1 h1
  obtain ⟨b, h3, hp⟩ := Res.bind_eq_ok.1 hp
  obtain ⟨d, _, hp⟩ := Res.bind_eq_ok.1 hp
  cases h3
  cases hp
  have hz : UniqueKeys (RoleType.zero : TargetsType).targets := List.nodup_nil
  show UniqueKeys a.signed.targets
  have hset : ∀ f j (a a' : Metadata TargetsType), Metadata.setField env f j a = .ok a' → UniqueKeys a.signed.targets → UniqueKeys a'.signed.targets := by
    intro f j a a' h ha
    simp only [Metadata.setField] at h
    split at h <;> obtain ⟨v, h1, h2⟩ := Res.bind_eq_ok.1 h <;> cases h2
    · exact unmarshal_unique h1
    · exact ha
  cases j with
  | obj m => exact decFields_keeps (P := fun a : Metadata TargetsType => UniqueKeys a.signed.targets) hset h2 hz
  | null => cases h2; exact hz
  | _ => cases h2

/-! ## C125 -/

theorem bootstrapConfig_ok {cwd : Str} {rootBytes : Bytes} {cfg : Cfg} (hc : bootstrapConfig env u cwd rootBytes = .ok cfg) :
    cfg.localTrustedRoot = rootBytes ∧ cfg.localMetadataDir = joinPath cwd b!"bootstrap" ∧ cfg.localTargetsDir = joinPath cwd b!"bootstrap/targets" ∧ cfg.disableLocalCache = false ∧
    cfg.maxDelegations = 32 := by
  unfold bootstrapConfig Cfg.new at hc
  obtain ⟨c, h1, h2⟩ := Res.bind_eq_ok.1 hc
  split at h1
  · cases h1
  · cases h1
    cases h2
    exact ⟨rfl, rfl, rfl, rfl, rfl⟩

/-- The top-level targets metadata of a session is current. -/
theorem current_targets {x : Ctx} {now : Time} {t0 : Trusted} {w : World} {s : St} (h0 : Trusted.new x.env now x.cfg.localTrustedRoot = .ok t0) (hs : Session x ⟨t0, w⟩ s)
    {m : Metadata TargetsType} (hm : s.trusted.targets.get? b!"targets" = some m) : CurrentTargets x.env t0.root now m ∧ UniqueKeys m.signed.targets ∧ PathsSet m.signed := by
  obtain ⟨k1, k2, k3, _⟩ := (C82_always_sound h0 hs).targets _ _ hm
  have href := C20_reference_time h0 (session_history hs).history
  rw [href] at k3
  obtain ⟨ts, sn, tg, _, _, j1, _, _, _, _, _, j2, _⟩ := k1.roles
  rw [hm] at j1
  cases j1
  obtain ⟨sn, f, data, _, _, _, hp, _⟩ := (C16_targets_match_snapshot (new_root h0).2.2.2.2.2.1 (session_history hs) hm).listed
  exact ⟨⟨s.trusted, C11_root_rotations_partial h0 (session_history hs).history, k1, href, hm, j2, k3⟩, fromBytes_unique hp, fromBytes_pathsSet hp⟩

theorem bootstrapWith_ok {x : Ctx} {now : Time} {t0 : Trusted} {w : World} {dir : Str} (h0 : Trusted.new x.env now x.cfg.localTrustedRoot = .ok t0) {s : St} {mapFile : Bytes} {roots : Entries Bytes}
    (hb : bootstrapWith x dir ⟨t0, w⟩ = (.ok (mapFile, roots), s)) : ∃ m, CurrentTargets x.env t0.root now m ∧ Bootstrapped x.env m mapFile roots := by
  unfold bootstrapWith at hb
  obtain ⟨_, s1, h1, hb1⟩ := SM.bind_eq_ok.1 hb
  obtain ⟨t, s2, h2, hb2⟩ := SM.bind_eq_ok.1 hb1
  cases h2
  obtain ⟨ts, s3, h3, hb3⟩ := SM.bind_eq_ok.1 hb2
  obtain ⟨h3, rfl⟩ := lift_ok h3
  obtain ⟨es, s4, h4, hb4⟩ := SM.bind_eq_ok.1 hb3
  have hs1 : Session x ⟨t0, w⟩ s3 := by
    have := Session.refl (x := x) (s := ⟨t0, w⟩) |>.step .refresh
    simp only [Api.run, h1] at this
    exact this
  obtain ⟨m, hm, rfl⟩ := getTopLevelTargets_eq_ok.1 h3
  obtain ⟨k1, k2, k3⟩ := current_targets h0 hs1 hm
  refine ⟨m, k1, ?_⟩
  obtain ⟨o, l, g3, g4, g5⟩ := iterateMap_apply x.host m.signed.targets.entries s3.world
  rw [onWorld_apply, g5] at h4
  cases h4
  have hperm := perm_iterate (es := m.signed.targets.entries) g3
  rw [← g4] at hperm
  have hmem : ∀ path o, (path, o) ∈ es ↔ m.signed.targets.get? path = some o :=
    fun path o => ⟨fun he => Entries.get?_of_mem k2 (hperm.mem_iff.1 he), fun he => hperm.mem_iff.2 (Entries.mem_of_get? he)⟩
  have hpath : ∀ path tf, (path, some tf) ∈ es → tf.path = path := by
    intro path tf he
    obtain ⟨tf', e1, e2⟩ := k3 path _ ((hmem _ _).1 he)
    cases e1
    exact e2
  obtain ⟨i1, i2, i3, _⟩ := bootstrapTargets_ok hb4
  refine ⟨?_, ?_, ?_⟩
  · rcases i1 with ⟨rfl, i1⟩ | ⟨tf, i1, i4⟩
    · right
      refine ⟨?_, rfl⟩
      cases hg : m.signed.targets.get? b!"map.json" with
      | none => rfl
      | some o => exact absurd ((hmem _ _).2 hg) (i1 o)
    · exact .inl ⟨tf, (hmem _ _).1 i1, hpath _ _ i1, i4⟩
  · intro repo data hr
    rcases i2 repo data hr with k | ⟨path, tf, e1, e2, rfl, e3⟩
    · cases k
    · exact ⟨path, e1, firstPart_folder path, tf, (hmem _ _).1 e2, hpath _ _ e2, e3⟩
  · intro path repo hp hne hf
    obtain ⟨o, hp⟩ := Option.isSome_iff_exists.1 hp
    rw [folderOf_unique hf (firstPart_folder path)]
    exact i3 path o ((hmem _ _).2 hp) hne

/-- C125: what `BootstrapTUF` returns is exactly what authentic, complete and current targets metadata lists, where trust begins with the file `root.json` in the working directory. -/
theorem C125_bootstrap {w w' : World} {mapFile : Bytes} {roots : Entries Bytes} (hb : bootstrapTUF env h u w = (.ok (mapFile, roots), w')) :
    ∃ cwd d now t0 m, h.cwd w.trace = some cwd ∧ w.fs (joinPath cwd b!"root.json") = some d ∧ Trusted.new env now d = .ok t0 ∧ CurrentTargets env t0.root now m ∧
      Bootstrapped env m mapFile roots := by
  unfold bootstrapTUF at hb
  obtain ⟨cwd, w1, h1, hb1⟩ := SM.bind_eq_ok.1 hb
  obtain ⟨_, w2, h2, hb2⟩ := SM.bind_eq_ok.1 hb1
  obtain ⟨d, w3, h3, hb3⟩ := SM.bind_eq_ok.1 hb2
  obtain ⟨cfg, w4, h4, hb4⟩ := SM.bind_eq_ok.1 hb3
  obtain ⟨h5, h6⟩ := lift_ok h4
  subst h6
  have hw1 : h.cwd w.trace = some cwd ∧ w1 = w := by
    unfold workingDir at h1
    split at h1
    · next hc => cases h1; exact ⟨hc, rfl⟩
    · cases h1
  obtain ⟨hc, rfl⟩ := hw1
  have hw2 : w2.fs = w1.fs := by
    unfold mkdirAll at h2
    dsimp only at h2
    split at h2 <;> cases h2
    rfl
  obtain ⟨k1, _, rfl⟩ := readFile_ok h3
  obtain ⟨c1, _⟩ := bootstrapConfig_ok h5
  obtain ⟨t0, w5, s, _, k2, k3, rfl⟩ := usingUpdater_ok hb4
  obtain ⟨m, m1, m2⟩ := bootstrapWith_ok k2 k3
  rw [show (Ctx.cfg ⟨env, h, cfg⟩) = cfg from rfl, c1] at k2
  exact ⟨cwd, d, _, t0, m, hc, by rw [← hw2]; exact k1, k2, m1, m2⟩

/-- C125, end to end: when the program succeeds, its last call returned bytes with the length and the hashes of an info. Every repository for that info, at least one, lists it (or one that
`Equal` takes for the same) in authentic, complete and current metadata, whose chain of trust begins with a root file. The root file is in turn listed, under a path whose first folder is the
name of the repository, in authentic, complete and current targets metadata, whose chain of trust begins with `root.json` in the working directory. The map file is listed there too. -/
theorem C125_main {w : World} {s' : MSt} {target file : Str} {data : Bytes} (hm : multiDemoMain env h u target { world := w } = (.ok (file, data), s')) :
    ∃ cwd d now t0 m mapFile roots c info repos, h.cwd w.trace = some cwd ∧ w.fs (joinPath cwd b!"root.json") = some d ∧ Trusted.new env now d = .ok t0 ∧ CurrentTargets env t0.root now m ∧
      ListedData env m b!"map.json" mapFile ∧ newMultiConfig env mapFile roots = .ok c ∧ TargetMatches env info data ∧ repos ≠ [] ∧ Supports env c target info repos ∧
      ∀ repo ∈ repos, ∃ i path bytes now' first, FolderOf path repo ∧ ListedData env m path bytes ∧ Trusted.new env now' bytes = .ok first ∧ ListsInfo env first.root now' target i ∧
        (i = info ∨ info.equal i = true) := by
  unfold multiDemoMain at hm
  obtain ⟨⟨mapFile, roots⟩, s1, h1, hm1⟩ := SM.bind_eq_ok.1 hm
  obtain ⟨w1, h2, rfl⟩ := mWorld_ok h1
  obtain ⟨cwd, d, now, t0, m, b1, b2, b3, b4, b5⟩ := C125_bootstrap h2
  obtain ⟨cfg, s2, h3, hm2⟩ := SM.bind_eq_ok.1 hm1
  obtain ⟨_, s3, h4, hm3⟩ := SM.bind_eq_ok.1 hm2
  obtain ⟨g, s4, h5, hm4⟩ := SM.bind_eq_ok.1 hm3
  unfold initMultiRepo at h3
  obtain ⟨cwd', s5, i1, h6⟩ := SM.bind_eq_ok.1 h3
  obtain ⟨w2, _, rfl⟩ := mWorld_ok i1
  obtain ⟨c, s6, i2, h7⟩ := SM.bind_eq_ok.1 h6
  obtain ⟨i3, i4⟩ := lift_ok i2
  subst i4
  dsimp only at h7 i3
  obtain ⟨_, s7, i5, h8⟩ := SM.bind_eq_ok.1 h7
  cases h8
  have hu := C72_unique i3
  have hroots := (C72_roots i3).1
  have hs : MultiSession env h { c with localMetadataDir := joinPath cwd' b!"metadata", localTargetsDir := joinPath cwd' b!"download" } s2 s3 := by
    have := MultiSession.refl (env := env) (h := h) (c := { c with localMetadataDir := joinPath cwd' b!"metadata", localTargetsDir := joinPath cwd' b!"download" }) (s := s2) |>.step .refresh
    simp only [MultiApi.after, h4] at this
    exact this
  obtain ⟨j1, j2, _⟩ := C126_info (w := w2) (by exact hu) i5 hs h5
  refine ⟨cwd, d, now, t0, m, mapFile, roots, c, g.targetInfo, g.repositories, b1, b2, b3, b4, ?_, i3, C71_verified hm4, j2, j1, ?_⟩
  · rcases b5.mapped with k | ⟨_, k⟩
    · exact k
    · subst k
      exact absurd i3 (by unfold newMultiConfig; simp)
  · intro repo hr
    obtain ⟨i, ⟨_, bytes, now', first, k1, k2, k3⟩, k4⟩ := j1.2 repo hr
    obtain ⟨path, _, k5, k6⟩ := b5.rooted repo bytes (by rw [← hroots]; exact k1)
    exact ⟨i, path, bytes, now', first, k5, k6, k2, k3, k4⟩

/-! ## The trust anchor -/

theorem cleanPath_ne_nil {p : Str} : cleanPath p ≠ [] := by
  have := cleanPath_idem p
  intro h
  rw [h] at this
  exact absurd this (by decide)

theorem joinPath_folder_ne {a b : Str} (ha : a ≠ []) : joinPath a b ≠ [] := by
  unfold joinPath
  rw [if_pos ha]
  exact cleanPath_ne_nil

theorem joinPath_file_ne {a b : Str} (hb : b ≠ []) : joinPath a b ≠ [] := by
  unfold joinPath
  split
  · exact cleanPath_ne_nil
  · exact cleanPath_ne_nil

theorem exec_bootstrapTargets {x : Ctx} {dir : Str} {J : Trusted → Str → Bytes → Prop} (hd : x.cfg.disableLocalCache = false) (hdir : dir ≠ []) (es : List (Str × Option TargetFiles)) (m : Bytes)
    (r : Entries Bytes) (s : St) : Exec x (EventOk x ⟨True, fun _ _ => True, fun p => ∃ name o, (name, o) ∈ es ∧ joinPath dir name = p⟩ J) s (bootstrapTargets x dir es m r s).2 := by
  have mono : ∀ {ex ex' : Extra} {a b : St}, ex'.metadata = True → ex'.fetch = (fun _ _ => True) → (∀ p, ex.file p → ex'.file p) → Exec x (EventOk x ex J) a b → Exec x (EventOk x ex' J) a b :=
    fun hm hq hf he => he.mono (fun _ _ _ h => eventOk_mono (fun _ => by rw [hm]; trivial) (fun _ _ _ => by rw [hq]; trivial) hf (fun _ _ _ h => h) h)
  induction es generalizing m r s with
  | nil => exact .refl
  | cons e es ih =>
    obtain ⟨name, info⟩ := e
    rw [bootstrapTargets]
    refine exec_bind exec_lift (fun tf s1 h1 => ?_)
    refine exec_bind exec_findCachedTarget (fun c s2 h2 => ?_)
    refine exec_bind (exec_onWorld (exec_mkdir hd)) (fun _ s3 h3 => ?_)
    refine exec_bind (mono rfl rfl ?_ exec_downloadTarget) (fun _ s4 h4 => ?_)
    · intro p hp
      have hp : targetFilePath x tf (joinPath dir name) = .ok p := hp
      unfold targetFilePath at hp
      rw [if_neg (joinPath_folder_ne hdir)] at hp
      cases hp
      exact ⟨name, info, .head _, rfl⟩
    · split
      · refine mono rfl rfl ?_ (ih _ _ _)
        exact fun p ⟨n, o, h1, h2⟩ => ⟨n, o, .tail _ h1, h2⟩
      · refine mono rfl rfl ?_ (ih _ _ _)
        exact fun p ⟨n, o, h1, h2⟩ => ⟨n, o, .tail _ h1, h2⟩

/-- The targets that a refresh makes known, with their places. -/
def KnownPlace (x : Ctx) (dir : Str) (s : St) (p : Str) : Prop :=
  ∃ m name o, (refresh x s).2.trusted.targets.get? b!"targets" = some m ∧ (name, o) ∈ m.signed.targets.entries ∧ joinPath dir name = p

theorem exec_bootstrapWith {x : Ctx} {dir : Str} (hd : x.cfg.disableLocalCache = false) (hdir : dir ≠ []) (s : St) :
    Exec x (EventOk x ⟨True, fun _ _ => True, KnownPlace x dir s⟩ (JustAccepted x.env s.trusted)) s (bootstrapWith x dir s).2 := by
  unfold bootstrapWith
  have e0 : Exec x (EventOk x Extra.none (JustAccepted x.env s.trusted)) s (refresh x s).2 := exec_refresh trivial .refl
  refine exec_bind (e0.mono (fun _ _ _ h => eventOk_mono (fun _ => trivial) (fun _ _ _ => trivial) (fun p hp => False.elim hp) (fun _ _ _ h => h) h)) (fun _ s1 h1 => ?_)
  refine exec_bind exec_getTrusted (fun t s2 h2 => ?_)
  cases h2
  refine exec_bind exec_lift (fun ts s3 h3 => ?_)
  obtain ⟨h3, rfl⟩ := lift_ok h3
  obtain ⟨m, hm, rfl⟩ := getTopLevelTargets_eq_ok.1 h3
  refine exec_bind (exec_onWorld exec_iterate) (fun es s4 h4 => ?_)
  obtain ⟨o, l, g3, g4, g5⟩ := iterateMap_apply x.host m.signed.targets.entries s3.world
  rw [onWorld_apply, g5] at h4
  cases h4
  have hperm := perm_iterate (es := m.signed.targets.entries) g3
  rw [← g4] at hperm
  have hplace : ∀ p, (∃ name o, (name, o) ∈ es ∧ joinPath dir name = p) → KnownPlace x dir s p := by
    rintro p ⟨name, o, k1, k2⟩
    refine ⟨m, name, o, ?_, hperm.mem_iff.1 k1, k2⟩
    rw [h1]
    exact hm
  refine Exec.mono (P := EventOk x ⟨True, fun _ _ => True, fun p => ∃ name o, (name, o) ∈ es ∧ joinPath dir name = p⟩ (JustAccepted x.env s.trusted)) ?_ ?_
  · exact exec_bootstrapTargets hd hdir es [] [] _
  · exact fun _ _ _ h => eventOk_mono (fun _ => trivial) (fun _ _ _ => trivial) hplace (fun _ _ _ h => h) h

theorem anchor_not_cache (cwd role : Str) : joinPath cwd b!"root.json" ≠ joinPath (joinPath cwd b!"bootstrap") (queryEscape role ++ b!".json") := by
  obtain ⟨D, _, hj⟩ := joinPath_plain cwd
  rw [joinPath_join ⟨by decide, by decide, by decide, by decide⟩ (plainName_json role), hj b!"root.json" ⟨by decide, by decide, by decide, by decide⟩, hj b!"bootstrap" ⟨by decide, by decide, by decide, by decide⟩]
  intro h
  simp at h

theorem anchor_not_temp (cwd : Str) : ¬ TempName (joinPath cwd b!"root.json") := by
  obtain ⟨D, _, hj⟩ := joinPath_plain cwd
  rw [hj b!"root.json" ⟨by decide, by decide, by decide, by decide⟩]
  have := json_not_temp (D ++ b!"root")
  rwa [List.append_assoc] at this

/-- A moment of the work with the updater leaves the trust anchor as it was, unless a listed target has its place. -/
theorem bootstrap_updater_crash {cwd : Str} {d : Bytes} {cfg : Cfg} (hcfg : bootstrapConfig env u cwd d = .ok cfg) {w : World} {evs : List Event}
    (ht : (usingUpdater ⟨env, h, cfg⟩ (bootstrapWith ⟨env, h, cfg⟩ (joinPath cwd b!"bootstrap/targets")) w).2.trace = w.trace ++ evs) {fs' : FS} (hc : CrashState w.fs evs fs') :
    fs' (joinPath cwd b!"root.json") = w.fs (joinPath cwd b!"root.json") ∨ ∃ now t0 m name, Trusted.new env now d = .ok t0 ∧ CurrentTargets env t0.root now m ∧
      (m.signed.targets.get? name).isSome ∧ joinPath (joinPath cwd b!"bootstrap/targets") name = joinPath cwd b!"root.json" := by
  obtain ⟨c1, c2, _, c4, _⟩ := bootstrapConfig_ok hcfg
  rcases exec_usingUpdater (x := ⟨env, h, cfg⟩) (use := bootstrapWith ⟨env, h, cfg⟩ (joinPath cwd b!"bootstrap/targets"))
    (fun s => exec_bootstrapWith c4 (joinPath_file_ne (by decide)) s) (w := w) with k | ⟨t0, w1, s', k1, k2, k3⟩
  · rw [k] at ht
    have : evs = [] := by simpa using ht
    subst this
    rw [crash_nil hc]
    exact .inl rfl
  · rw [← k2] at ht
    by_cases hf : KnownPlace ⟨env, h, cfg⟩ (joinPath cwd b!"bootstrap/targets") ⟨t0, w1⟩ (joinPath cwd b!"root.json")
    · right
      obtain ⟨m, name, o, f1, f2, f3⟩ := hf
      obtain ⟨g1, g2, _⟩ := current_targets (x := ⟨env, h, cfg⟩) (w := w1) k1 (Session.refl.step .refresh) f1
      refine ⟨_, t0, m, name, ?_, g1, ?_, f3⟩
      · rw [← c1]; exact k1
      · rw [show m.signed.targets.get? name = some o from Entries.get?_of_mem g2 f2]
        rfl
    · left
      rcases crash_files k3 ht hc (anchor_not_temp cwd) hf with h3 | ⟨role, data, t', h3, _⟩
      · exact h3
      · rw [show (Ctx.cfg ⟨env, h, cfg⟩).localMetadataDir = joinPath cwd b!"bootstrap" from c2] at h3
        exact absurd h3 (anchor_not_cache cwd role)

/-- C125: `BootstrapTUF`, interrupted at any moment, leaves the trust anchor `root.json` as it was. Missing: the current targets metadata must not list a path that leads there from the folder for
targets (`C125_false_traversal`); see `C125_inside` for paths that do not. -/
theorem C125_anchor_partial {w : World} {cwd : Str} {evs : List Event} (hcwd : h.cwd w.trace = some cwd) (ht : (bootstrapTUF env h u w).2.trace = w.trace ++ evs) {fs' : FS}
    (hc : CrashState w.fs evs fs') :
    fs' (joinPath cwd b!"root.json") = w.fs (joinPath cwd b!"root.json") ∨ ∃ d now t0 m name, w.fs (joinPath cwd b!"root.json") = some d ∧ Trusted.new env now d = .ok t0 ∧
      CurrentTargets env t0.root now m ∧ (m.signed.targets.get? name).isSome ∧ joinPath (joinPath cwd b!"bootstrap/targets") name = joinPath cwd b!"root.json" := by
  unfold bootstrapTUF at ht
  rw [SM.bind_ok (show workingDir h w = (.ok cwd, w) by unfold workingDir; rw [hcwd]), SM.bind_apply] at ht
  have idle : ∀ {l : List Event}, (∀ e ∈ l, (∃ p r, e = .read p r) ∨ ∃ p b, e = .mkdir p b) → w.trace ++ l = w.trace ++ evs → fs' = w.fs := by
    intro l hl he
    rw [List.append_cancel_left he] at hl
    exact crash_idle hl hc
  rcases hmk : mkdirAll h (joinPath cwd b!"bootstrap/targets") w with ⟨r, w1⟩
  have hw1 : ∃ b, w1 = w.emit (.mkdir (joinPath cwd b!"bootstrap/targets") b) := by
    unfold mkdirAll at hmk
    dsimp only at hmk
    split at hmk <;> cases hmk <;> exact ⟨_, rfl⟩
  obtain ⟨b, rfl⟩ := hw1
  have one : ∀ e ∈ [Event.mkdir (joinPath cwd b!"bootstrap/targets") b], (∃ p r, e = .read p r) ∨ ∃ p b, e = .mkdir p b := by
    intro e he
    rw [List.mem_singleton] at he
    exact .inr ⟨_, _, he⟩
  rw [hmk] at ht
  cases r with
  | err e => rw [idle one ht]; exact .inl rfl
  | panic => rw [idle one ht]; exact .inl rfl
  | ok _ =>
    dsimp only at ht
    rw [SM.bind_apply] at ht
    rcases hr : readFile h (joinPath cwd b!"root.json") (w.emit (.mkdir (joinPath cwd b!"bootstrap/targets") b)) with ⟨r, w2⟩
    obtain ⟨o, hw2⟩ := readFile_emits h (joinPath cwd b!"root.json") (w.emit (.mkdir (joinPath cwd b!"bootstrap/targets") b))
    rw [hr] at ht hw2
    dsimp only at hw2
    subst hw2
    have two : ∀ e ∈ [Event.mkdir (joinPath cwd b!"bootstrap/targets") b, .read (joinPath cwd b!"root.json") o], (∃ p r, e = .read p r) ∨ ∃ p b, e = .mkdir p b := by
      intro e he
      rcases List.mem_cons.1 he with he | he
      · exact .inr ⟨_, _, he⟩
      · rw [List.mem_singleton] at he
        exact .inl ⟨_, _, he⟩
    have quiet : ((w.emit (.mkdir (joinPath cwd b!"bootstrap/targets") b)).emit (.read (joinPath cwd b!"root.json") o)).trace = w.trace ++ evs → fs' = w.fs :=
      fun he => idle two (by simpa [World.emit] using he)
    cases r with
    | err e => rw [quiet ht]; exact .inl rfl
    | panic => rw [quiet ht]; exact .inl rfl
    | ok d =>
      obtain ⟨hd, _, _⟩ := readFile_ok hr
      simp only [SM.bind_apply, SM.lift_apply] at ht
      cases hcfg : bootstrapConfig env u cwd d with
      | err e => rw [hcfg] at ht; rw [quiet ht]; exact .inl rfl
      | panic => rw [hcfg] at ht; rw [quiet ht]; exact .inl rfl
      | ok cfg =>
        rw [hcfg] at ht
        dsimp only at ht
        have hev : ∃ evs', (usingUpdater ⟨env, h, cfg⟩ (bootstrapWith ⟨env, h, cfg⟩ (joinPath cwd b!"bootstrap/targets"))
            ((w.emit (.mkdir (joinPath cwd b!"bootstrap/targets") b)).emit (.read (joinPath cwd b!"root.json") o))).2.trace =
            ((w.emit (.mkdir (joinPath cwd b!"bootstrap/targets") b)).emit (.read (joinPath cwd b!"root.json") o)).trace ++ evs' := by
          obtain ⟨c1, c2, _, c4, _⟩ := bootstrapConfig_ok hcfg
          rcases exec_usingUpdater (x := ⟨env, h, cfg⟩) (use := bootstrapWith ⟨env, h, cfg⟩ (joinPath cwd b!"bootstrap/targets"))
            (fun s => exec_bootstrapWith c4 (joinPath_file_ne (by decide)) s) (w := (w.emit (.mkdir (joinPath cwd b!"bootstrap/targets") b)).emit (.read (joinPath cwd b!"root.json") o))
            with k | ⟨t0, w1, s', k1, k2, k3⟩
          · rw [k]; exact ⟨[], by simp⟩
          · obtain ⟨evs', k4, _⟩ := k3.events
            rw [← k2]
            exact ⟨evs', k4⟩
        obtain ⟨evs', hev⟩ := hev
        have hsplit : evs = [Event.mkdir (joinPath cwd b!"bootstrap/targets") b, .read (joinPath cwd b!"root.json") o] ++ evs' := by
          rw [hev] at ht
          simp only [World.emit, List.append_assoc] at ht
          exact (List.append_cancel_left ht).symm
        rw [hsplit] at hc
        rcases crash_append hc with hc | hc
        · rw [crash_idle two hc]
          exact .inl rfl
        · rcases bootstrap_updater_crash hcfg hev hc with k | ⟨now, t0, m, name, k⟩
          · exact .inl k
          · exact .inr ⟨d, now, t0, m, name, hd, k⟩

/-! ## Paths inside the folder -/

/-- The components of a clean absolute path, last first. -/
def stackOf (p : Str) : List Str := (splitOn 47 p).foldl (cleanStep true) []

theorem stackOf_clean {p : Str} (hp : ∃ r, p = 47 :: r) : stackOf (cleanPath p) = stackOf p ∧ ∃ r, cleanPath p = 47 :: r := by
  obtain ⟨r, rfl⟩ := hp
  have hst : CleanStack true ((splitOn 47 (47 :: r)).foldl (cleanStep true) []) := cleanStack_foldl _ (splitOn_no_sep 47 _) ⟨0, [], rfl, fun _ => rfl, by simp⟩
  have he : cleanPath (47 :: r) = 47 :: joinWith 47 ((splitOn 47 (47 :: r)).foldl (cleanStep true) []).reverse := by
    unfold cleanPath
    simp
  refine ⟨?_, _, he⟩
  rw [he]
  unfold stackOf
  generalize (splitOn 47 (47 :: r)).foldl (cleanStep true) [] = st at hst
  rw [show (47 : UInt8) :: joinWith 47 st.reverse = [] ++ 47 :: joinWith 47 st.reverse from rfl, splitOn_append_sep]
  show (splitOn 47 (joinWith 47 st.reverse)).foldl (cleanStep true) [] = st
  by_cases hne : st = []
  · subst hne; rfl
  · rw [splitOn_joinWith (by simpa using hne) (fun p hp => hst.noSlash p (by simpa using hp))]
    exact foldl_clean hst

theorem stackOf_join {a b : Str} (ha : ∃ r, a = 47 :: r) : stackOf (joinPath a b) = (splitOn 47 b).foldl (cleanStep true) (stackOf a) ∧ ∃ r, joinPath a b = 47 :: r := by
  obtain ⟨r, rfl⟩ := ha
  unfold joinPath
  rw [if_pos (by simp)]
  obtain ⟨h1, h2⟩ := stackOf_clean (p := 47 :: r ++ 47 :: b) ⟨_, rfl⟩
  refine ⟨?_, h2⟩
  rw [h1]
  unfold stackOf
  rw [splitOn_append_sep, List.foldl_append]

theorem foldl_grows {rooted : Bool} (l : List Str) (hl : b!".." ∉ l) (st : List Str) : ∃ more, l.foldl (cleanStep rooted) st = more ++ st := by
  induction l generalizing st with
  | nil => exact ⟨[], rfl⟩
  | cons p l ih =>
    rw [List.foldl_cons]
    obtain ⟨more, h1⟩ := ih (fun h => hl (.tail _ h)) (cleanStep rooted st p)
    rw [h1]
    unfold cleanStep
    split
    · exact ⟨more, rfl⟩
    · rw [if_neg (fun h => hl (by rw [h]; exact .head _))]
      exact ⟨more ++ [p], by simp⟩

/-- C125: a path without a component `..` never leads from the folder for targets to the trust anchor. -/
theorem C125_inside {cwd name : Str} (habs : ∃ r, cwd = 47 :: r) (hn : b!".." ∉ splitOn 47 name) : joinPath (joinPath cwd b!"bootstrap/targets") name ≠ joinPath cwd b!"root.json" := by
  intro he
  obtain ⟨h1, h2⟩ := stackOf_join (b := b!"bootstrap/targets") habs
  obtain ⟨h3, _⟩ := stackOf_join (b := name) h2
  obtain ⟨h4, _⟩ := stackOf_join (b := b!"root.json") habs
  rw [he, h4, h1] at h3
  obtain ⟨more, h5⟩ := foldl_grows (rooted := true) _ hn ((splitOn 47 b!"bootstrap/targets").foldl (cleanStep true) (stackOf cwd))
  rw [h5] at h3
  have h6 : (splitOn 47 b!"bootstrap/targets").foldl (cleanStep true) (stackOf cwd) = b!"targets" :: b!"bootstrap" :: stackOf cwd := rfl
  have h7 : (splitOn 47 b!"root.json").foldl (cleanStep true) (stackOf cwd) = b!"root.json" :: stackOf cwd := rfl
  rw [h6, h7] at h3
  have := congrArg List.length h3
  simp at this
  omega

end Tuf
