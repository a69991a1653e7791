import Verif.Props.Publish
import Verif.Props.Targets
import Verif.Props.Search

/-!
# Clients of an honest repository (C87, C88)
-/

namespace Tuf
open Spec

section
variable {x : Ctx} {srv : Str → Int → Except Err Bytes}

theorem targetPath_unique {tf : TargetFiles} {given p q : Str} (h1 : TargetPath x tf given p) (h2 : TargetPath x tf given q) : p = q := by
  cases h1 with
  | given ha => cases h2 with
    | given => rfl
    | generated hb => exact absurd hb ha
  | generated ha hb hc => cases h2 with
    | given hd => exact absurd ha hd
    | generated _ _ hf => rw [hc] at hf; cases hf; rfl

theorem targetBase_unique {given a b : Str} (h1 : TargetBase x given a) (h2 : TargetBase x given b) : a = b := by
  cases h1 with
  | given ha hb => cases h2 with
    | given _ hc => exact slashBase_unique hb hc
    | configured hc => exact absurd hc ha
  | configured ha _ hb => cases h2 with
    | given hc => exact absurd ha hc
    | configured _ _ hc => exact slashBase_unique hb hc

/-- A target that the server has under every name that the client may ask for is delivered. -/
theorem download_progress (hs : Serves x.host srv) (hd : x.cfg.disableLocalCache = true ∨ GoodDisk x.host) {tf : TargetFiles} {given base path b : Str} {data : Bytes} {s : St}
    (hp : TargetPath x tf given path) (hb : TargetBase x base b) (hserve : ∀ name, UrlName x s.trusted tf name → srv (b ++ name) tf.length = .ok data)
    (hm : TargetMatches x.env tf data) :
    ∃ s', downloadTarget x tf given base s = (.ok (path, data), s') ∧ s'.trusted = s.trusted ∧ (x.cfg.disableLocalCache = false → s'.world.fs path = some data) := by
  unfold downloadTarget
  rcases targetFilePath_cases (x := x) tf given with ⟨p, h1, h2⟩ | ⟨_, h2⟩
  · obtain rfl := targetPath_unique h2 hp
    rcases targetBase_cases (x := x) base with ⟨b', h3, h4⟩ | ⟨_, h4⟩
    · obtain rfl := targetBase_unique h4 hb
      rw [SM.bind_ok (by rw [h1]; rfl), SM.bind_ok (by rw [h3]; rfl), SM.bind_ok (getTrusted_apply s)]
      obtain ⟨name, pre, h5, h6, h7⟩ := targetURLPath_cases (x := x) s.trusted tf s.world
      have h5' : onWorld (targetURLPath x s.trusted tf) s = (.ok name, ⟨s.trusted, ⟨s.world.fs, s.world.trace ++ pre⟩⟩) := by rw [onWorld_apply, h5]
      rw [SM.bind_ok h5']
      have hf := hserve name h7
      generalize s.world.trace ++ pre = tr
      have : onWorld (doFetch x.host (b' ++ name) tf.length) ⟨s.trusted, ⟨s.world.fs, tr⟩⟩ =
          (.ok data, ⟨s.trusted, ⟨s.world.fs, tr ++ [.fetch (b' ++ name) tf.length (.ok data)]⟩⟩) := by
        rw [onWorld_apply]; unfold doFetch; rw [hs, hf]; rfl
      rw [SM.bind_ok this, SM.bind_ok (by rw [targetVerify_ok.2 hm]; rfl)]
      cases hdis : x.cfg.disableLocalCache with
      | true =>
        have : ∀ w : World, onWorld (storeTarget x p data) ⟨s.trusted, w⟩ = (.ok (), ⟨s.trusted, w⟩) := by
          intro w; rw [onWorld_apply]; unfold storeTarget; rw [if_pos hdis]; rfl
        rw [SM.bind_ok (this _)]
        exact ⟨_, rfl, rfl, by simp⟩
      | false =>
        have hg : GoodDisk x.host := by
          rcases hd with hd | hd
          · rw [hdis] at hd; cases hd
          · exact hd
        generalize tr ++ [Event.fetch (b' ++ name) tf.length (.ok data)] = tr1
        have : onWorld (storeTarget x p data) ⟨s.trusted, ⟨s.world.fs, tr1⟩⟩ =
            (.ok (), ⟨s.trusted, ⟨(s.world.fs.put p (some [])).put p (some data), tr1 ++ [.truncate p] ++ [.write p data]⟩⟩) := by
          have hw := hg.write (tr1 ++ [.truncate p]) data.length
          rw [onWorld_apply]; unfold storeTarget; rw [if_neg (by rw [hdis]; simp)]; unfold writeFile
          rw [if_neg (by simp [hg.open'])]
          have hlt : ¬ x.host.writeCount (tr1 ++ [.truncate p]) data.length < data.length := by omega
          simp only [World.emit, applyEvent, if_neg hlt, List.take_of_length_le hw]
        rw [SM.bind_ok this]
        exact ⟨_, rfl, rfl, fun _ => by simp [FS.put]⟩
    · exact absurd hb (h4 _)
  · exact absurd hp (h2 _)

theorem prefixedPath_name {path hash : Str} (hone : path.count 47 ≤ 1) : PrefixedName path hash (prefixedPath path hash) := by
  unfold prefixedPath
  rcases cutSlash_spec path with ⟨h8, h9⟩ | ⟨a, c, h8, h9, h10⟩
  · rw [h9]
    exact ⟨[], path, rfl, h8, .inl rfl, rfl⟩
  · rw [h10]
    refine ⟨a ++ b!"/", c, by rw [h8]; simp, ?_, .inr ⟨a, rfl⟩, by simp⟩
    rw [h8, List.count_append, List.count_cons_self] at hone
    exact List.count_eq_zero.1 (by omega)

/-! ## C87 -/

variable {r : RootType} {ts : TimestampType} {sn : SnapshotType} {tg : TargetsType} {dts dsn dtg : Bytes} {fsn ftg : MetaFiles} {t : Trusted} {now : Time}

/-- A published release that the server has under the names that the client asks for is a valid update. -/
theorem release_update (laws : EnvLaws x.env) (h : Release x.env now r ts sn tg dts dsn dtg fsn ftg) (hroot : t.root.signed = readRoot r) (h1 : t.timestamp = none)
    (h2 : t.snapshot = none) (h3 : t.targets = []) (hnow : t.refTime = now) (hv : Serving x srv r dts dsn dtg fsn ftg) :
    ∃ mts msn mtg, mts.signed = viewTimestamp ts ∧ msn.signed = viewSnapshot sn ∧ mtg.signed = readTargets tg ∧
      ValidUpdate x srv t dts dsn dtg mts msn mtg (viewMeta fsn) (viewMeta ftg) := by
  obtain ⟨mts, msn, mtg, a, b, c, x1, x2, x3⟩ := release_accepted laws h hroot h1 h2 h3 hnow
  have hurl : ∀ role v url, RoleURL x { root := { signed := r }, refTime := Time.zero } role v url → RoleURL x t role v url := by
    rintro role v url (⟨e1, e2⟩ | ⟨e1, e2⟩)
    · exact .inl ⟨by rw [hroot]; exact e1, e2⟩
    · exact .inr ⟨by rw [hroot]; exact e1, e2⟩
  obtain ⟨u2, n2, e2, l2, s2⟩ := hv.snapshot
  obtain ⟨u3, n3, e3, l3, s3⟩ := hv.targets
  refine ⟨mts, msn, mtg, a, b, c, hv.timestamp, x1, by rw [a, hnow]; exact h.timestampFresh, by rw [a]; exact mapValues_get? h.snapshotListed.1,
    ⟨u2, n2, hurl _ _ _ e2, l2, s2⟩, x2, by rw [b, hnow]; exact h.snapshotFresh, by rw [b]; exact h.snapshotListed.2.1.symm, by rw [b]; exact mapValues_get? h.targetsListed.1,
    ⟨u3, n3, hurl _ _ _ e3, l3, s3⟩, x3⟩

theorem rootsLeadTo_keeps {n : Nat} {t0 t : Trusted} (h : RootsLeadTo x srv n t0 t) :
    t.timestamp = t0.timestamp ∧ t.snapshot = t0.snapshot ∧ t.targets = t0.targets ∧ t.refTime = t0.refTime := by
  induction h with
  | limit => exact ⟨rfl, rfl, rfl, rfl⟩
  | newest => exact ⟨rfl, rfl, rfl, rfl⟩
  | rotated _ _ _ _ ih => exact ih

/-- C87 and that no temporary file remains. -/
theorem release_refresh (laws : EnvLaws x.env) (h : Release x.env now r ts sn tg dts dsn dtg fsn ftg) (hv : Serving x srv r dts dsn dtg fsn ftg) (hu : x.cfg.unsafeLocalMode = false)
    (hs : Serves x.host srv) (hd : x.cfg.disableLocalCache = true ∨ GoodDisk x.host) {s : St} (hw : NoTemps s.world.fs)
    (hm : 0 ≤ x.cfg.maxRootRotations ∧ wrap64 (s.trusted.root.signed.version + 1) + x.cfg.maxRootRotations < 2 ^ 63)
    (hroots : RootsLeadTo x srv x.cfg.maxRootRotations.toNat s.trusted t) (hroot : t.root.signed = readRoot r)
    (hts : s.trusted.timestamp = none) (hsn : s.trusted.snapshot = none) (htg : s.trusted.targets = []) (hnow : s.trusted.refTime = now)
    (hempty : ∀ name ∈ [b!"timestamp.json", b!"snapshot.json", b!"targets.json"], s.world.fs (joinPath x.cfg.localMetadataDir name) = none) :
    ∃ mts msn mtg s', refresh x s = (.ok (), s') ∧ s'.trusted = { t with timestamp := some mts, snapshot := some msn, targets := [(b!"targets", mtg)] } ∧
      mts.signed = viewTimestamp ts ∧ msn.signed = viewSnapshot sn ∧ mtg.signed = readTargets tg ∧ NoTemps s'.world.fs := by
  obtain ⟨k1, k2, k3, k4⟩ := rootsLeadTo_keeps hroots
  obtain ⟨mts, msn, mtg, a, b, c, hvu⟩ := release_update laws h hroot (k1.trans hts) (k2.trans hsn) (k3.trans htg) (k4.trans hnow) hv
  have e1 := hempty b!"timestamp.json" (by simp)
  have e2 := hempty b!"snapshot.json" (by simp)
  have e3 := hempty b!"targets.json" (by simp)
  obtain ⟨m, s', p1, p2, p3, p4⟩ := refresh_progress hu hs hd hw hts hsn hm hroots hvu (by simp [e1]) (by simp [e2]) (by simp [e3])
  have hmm : m = mtg := by
    rcases p3 with p3 | ⟨d, p3, _⟩
    · exact p3
    · rw [e3] at p3; cases p3
  subst hmm
  refine ⟨mts, msn, m, s', p1, ?_, a, b, c, p4⟩
  rw [p2, k3, htg]
  rfl

/-- C87: a client without cached metadata, whose roots lead to a published root, refreshes successfully from a server that has a published release, and then trusts exactly
what was published. -/
theorem C87_refresh (laws : EnvLaws x.env) (h : Release x.env now r ts sn tg dts dsn dtg fsn ftg) (hv : Serving x srv r dts dsn dtg fsn ftg) (hu : x.cfg.unsafeLocalMode = false)
    (hs : Serves x.host srv) (hd : x.cfg.disableLocalCache = true ∨ GoodDisk x.host) {s : St} (hw : NoTemps s.world.fs)
    (hm : 0 ≤ x.cfg.maxRootRotations ∧ wrap64 (s.trusted.root.signed.version + 1) + x.cfg.maxRootRotations < 2 ^ 63)
    (hroots : RootsLeadTo x srv x.cfg.maxRootRotations.toNat s.trusted t) (hroot : t.root.signed = readRoot r)
    (hts : s.trusted.timestamp = none) (hsn : s.trusted.snapshot = none) (htg : s.trusted.targets = []) (hnow : s.trusted.refTime = now)
    (hempty : ∀ name ∈ [b!"timestamp.json", b!"snapshot.json", b!"targets.json"], s.world.fs (joinPath x.cfg.localMetadataDir name) = none) :
    ∃ mts msn mtg s', refresh x s = (.ok (), s') ∧ s'.trusted = { t with timestamp := some mts, snapshot := some msn, targets := [(b!"targets", mtg)] } ∧
      mts.signed = viewTimestamp ts ∧ msn.signed = viewSnapshot sn ∧ mtg.signed = readTargets tg := by
  obtain ⟨mts, msn, mtg, s', h1, h2, h3, h4, h5, _⟩ := release_refresh laws h hv hu hs hd hw hm hroots hroot hts hsn htg hnow hempty
  exact ⟨mts, msn, mtg, s', h1, h2, h3, h4, h5⟩

/-! ## C88 -/

theorem loadTargets_trusted {role parent : Str} {s : St} {m : Metadata TargetsType} (h : s.trusted.targets.get? role = some m) : loadTargets x role parent s = (.ok m, s) := by
  unfold loadTargets
  rw [SM.bind_ok (getTrusted_apply s), h]
  rfl

/-- A target of trusted top-level targets metadata is found there. -/
theorem info_topLevel (hmax : 0 ≤ x.cfg.maxDelegations) {path : Str} {s : St} {m : Metadata TargetsType} {o : Option TargetFiles}
    (h : s.trusted.targets.get? b!"targets" = some m) (ho : m.signed.targets.get? path = some o) : getTargetInfo x path s = (.ok o, s) := by
  obtain ⟨vs, hr⟩ := getTargetInfo_run (x := x) (path := path) s
  have hk : ∃ k, (x.cfg.maxDelegations + 1).toNat = k + 1 := ⟨x.cfg.maxDelegations.toNat, by omega⟩
  obtain ⟨k, hk⟩ := hk
  generalize hout : (getTargetInfo x path s).1 = out at hr
  generalize hs' : (getTargetInfo x path s).2 = s' at hr
  cases hr with
  | direct h0 hse =>
    rw [hk] at hse
    have hl := loadTargets_trusted (x := x) (parent := b!"root") h
    cases hse with
    | skip hmem => cases hmem
    | failed _ h1 h2 => rw [hl] at h1; cases h1; exact absurd rfl (h2 _)
    | found _ h1 h2 =>
      rw [hl] at h1
      cases h1
      rw [ho] at h2
      cases h2
      exact Prod.ext hout hs'
    | crash _ h1 h2 => rw [hl] at h1; cases h1; rw [ho] at h2; cases h2
    | next _ h1 h2 => rw [hl] at h1; cases h1; rw [ho] at h2; cases h2
  | refreshed h0 => rw [h] at h0; cases h0
  | notRefreshed h0 => rw [h] at h0; cases h0

theorem readTargetMap_get {m : GoMap (Option TargetFiles)} {path : Str} {o : Option TargetFiles} (h : m.get? path = some o) :
    (readTargetMap m).get? path = some (o.map (fun f => { f with path := path })) := by
  cases m with
  | none => simp [GoMap.get?, GoMap.entries] at h
  | some es =>
    have h' : Entries.get? es path = some o := h
    show Entries.get? (es.map (fun e => (e.1, e.2.map (fun t => { t with path := e.1 })))) path = _
    clear h
    induction es with
    | nil => cases h'
    | cons e es ih =>
      rw [Entries.get?_cons] at h'
      rw [List.map_cons, Entries.get?_cons]
      split
      · next he => rw [if_pos he] at h'; rw [Option.some.inj h']; subst he; rfl
      · next he => rw [if_neg he] at h'; exact ih h'

/-- The published bytes of a target are downloaded. -/
theorem C88_download_partial {s : St} (hs : Serves x.host srv) (hd : x.cfg.disableLocalCache = true ∨ GoodDisk x.host) {tf : TargetFiles} {given base file b data : Bytes}
    (hp : TargetPath x tf given file) (hb : TargetBase x base b) (hserve : ServingTarget x srv s.trusted.root.signed.consistentSnapshot b tf data)
    (hdeep : x.cfg.prefixTargetsWithHash = true → s.trusted.root.signed.consistentSnapshot = true → tf.path.count 47 ≤ 1) (hmatch : TargetMatches x.env tf data) :
    ∃ s', downloadTarget x tf given base s = (.ok (file, data), s') ∧ (x.cfg.disableLocalCache = false → s'.world.fs file = some data) := by
  have hall : ∀ name, UrlName x s.trusted tf name → srv (b ++ name) tf.length = .ok data := by
    intro name hn
    rcases hserve with ⟨hc, h1⟩ | ⟨hc, hpre, hne, h1⟩
    · rcases hn with ⟨n1, n2, _⟩ | ⟨_, rfl⟩
      · rcases hc with hc | hc
        · rw [n1] at hc; cases hc
        · rw [n2] at hc; cases hc
      · exact h1
    · rcases hn with ⟨_, _, ⟨alg, v, n3, rfl⟩ | ⟨n3, _⟩⟩ | ⟨hn | hn, _⟩
      · exact h1 alg v _ n3 (prefixedPath_name (hdeep hpre hc))
      · exact absurd n3 hne
      · rw [hn] at hc; cases hc
      · rw [hn] at hpre; cases hpre
  obtain ⟨s', h1, _, h3⟩ := download_progress hs hd (s := s) hp hb hall hmatch
  exact ⟨s', h1, h3⟩

/-- C88, for targets of the top-level role: after the refresh of C87, `GetTargetInfo` returns what was published for the path, and `DownloadTarget` the published bytes, if the
server has them. -/
theorem C88_target_partial {s : St} {mtg : Metadata TargetsType} (hs : Serves x.host srv) (hd : x.cfg.disableLocalCache = true ∨ GoodDisk x.host)
    (htg : s.trusted.targets.get? b!"targets" = some mtg) (hm : mtg.signed = readTargets tg) (hmax : 0 ≤ x.cfg.maxDelegations) {path : Str} {f : TargetFiles}
    (hf : tg.targets.get? path = some (some f)) :
    getTargetInfo x path s = (.ok (some { f with path := path }), s) ∧
    ∀ given base file b data, TargetPath x { f with path := path } given file → TargetBase x base b →
      ServingTarget x srv s.trusted.root.signed.consistentSnapshot b { f with path := path } data →
      (x.cfg.prefixTargetsWithHash = true → s.trusted.root.signed.consistentSnapshot = true → path.count 47 ≤ 1) → TargetMatches x.env f data →
      ∃ s', downloadTarget x { f with path := path } given base s = (.ok (file, data), s') ∧ (x.cfg.disableLocalCache = false → s'.world.fs file = some data) := by
  refine ⟨info_topLevel hmax htg (by rw [hm]; exact readTargetMap_get hf), ?_⟩
  intro given base file b data hp hb hserve hdeep hmatch
  exact C88_download_partial hs hd hp hb hserve hdeep hmatch

end
end Tuf
