import Verif.Proofs.Cache

/-! # The local cache across sessions -/

namespace Tuf
open Spec Sample

/-- The cache file of a top-level role. -/
theorem cacheFile (x : Ctx) : localPath x.cfg TIMESTAMP = joinPath x.cfg.localMetadataDir b!"timestamp.json" ∧
    localPath x.cfg SNAPSHOT = joinPath x.cfg.localMetadataDir b!"snapshot.json" ∧
    localPath x.cfg TARGETS = joinPath x.cfg.localMetadataDir b!"targets.json" ∧
    localPath x.cfg ROOT = joinPath x.cfg.localMetadataDir b!"root.json" := by
  have h : ∀ role ∈ [TIMESTAMP, SNAPSHOT, TARGETS, ROOT], queryEscape role = role := by decide
  refine ⟨?_, ?_, ?_, ?_⟩
  · rw [C48_top_level x _ (by decide)]; unfold persistPath; rw [h _ (by decide)]; rfl
  · rw [C48_top_level x _ (by decide)]; unfold persistPath; rw [h _ (by decide)]; rfl
  · rw [C48_top_level x _ (by decide)]; unfold persistPath; rw [h _ (by decide)]; rfl
  · rw [C48_top_level x _ (by decide)]; unfold persistPath; rw [h _ (by decide)]; rfl

/-- The parts of a successful online refresh. -/
theorem refresh_parts {x : Ctx} (hu : x.cfg.unsafeLocalMode = false) {s s' : St} (h : refresh x s = (.ok (), s')) :
    ∃ s1 s2 s3 m, loadRoot x s = (.ok (), s1) ∧ loadTimestamp x s1 = (.ok (), s2) ∧ loadSnapshot x s2 = (.ok (), s3) ∧
      loadTargets x TARGETS ROOT s3 = (.ok m, s') := by
  unfold refresh at h
  rw [if_neg (by simp [hu])] at h
  unfold onlineRefresh at h
  obtain ⟨_, s1, h1, h⟩ := SM.bind_eq_ok.1 h
  obtain ⟨_, s2, h2, h⟩ := SM.bind_eq_ok.1 h
  obtain ⟨_, s3, h3, h⟩ := SM.bind_eq_ok.1 h
  obtain ⟨m, s4, h4, h⟩ := SM.bind_eq_ok.1 h
  cases h
  exact ⟨s1, s2, s3, m, h1, h2, h3, h4⟩

theorem exec_history {x : Ctx} {P : St → Event → Prop} {α : Type} {m : M α} {r : Res α} {s s' : St} (h : Exec x P s (m s).2) (hr : m s = (r, s')) :
    History x.env s.trusted s'.trusted := by
  rw [hr] at h
  exact h.history.history

/-- C29, timestamp: a session that starts on a cache whose timestamp verifies under the root that the session ends up with does not go back behind it. -/
theorem C29_timestamp {x : Ctx} (hu : x.cfg.unsafeLocalMode = false) {s s' : St} (h0 : s.trusted.timestamp = none)
    (h : refresh x s = (.ok (), s')) {data : Bytes} {m : Metadata TimestampType}
    (hfile : s.world.fs (joinPath x.cfg.localMetadataDir b!"timestamp.json") = some data)
    (hread : ∀ tr, x.host.readFails tr (joinPath x.cfg.localMetadataDir b!"timestamp.json") = false)
    (hp : ParsesTo x.env data m) (ht : m.signed.type = b!"timestamp") (hv : Verifies x.env (.root s'.trusted.root) b!"timestamp" (.timestamp m)) :
    (∃ new, s'.trusted.timestamp = some new ∧ m.signed.version ≤ new.signed.version) ∧
    ∀ v, Lists m.signed.metas b!"snapshot.json" v →
      ∃ new v', s'.trusted.timestamp = some new ∧ Lists new.signed.metas b!"snapshot.json" v' ∧ v ≤ v' := by
  obtain ⟨s1, s2, s3, tg, h1, h2, h3, h4⟩ := refresh_parts hu h
  rw [← (cacheFile x).1] at hfile hread
  have k1 := loadRoot_keeps h1
  have kf1 := loadRoot_files (x := x) s (role := TIMESTAMP) (by decide)
  have k2 := loadTimestamp_keeps (x := x) s1
  have k3 := loadSnapshot_keeps (x := x) s2
  have k4 := loadTargets_keeps (x := x) TARGETS ROOT s3
  rw [h1] at kf1; rw [h2] at k2; rw [h3] at k3; rw [h4] at k4
  have hroot : s'.trusted.root = s1.trusted.root := k4.1.trans (k3.1.trans k2.1)
  have hacc : TimestampAccepted x.env s1.trusted data m := by
    have hn : s1.trusted.timestamp = none := by rw [k1]; exact h0
    refine ⟨loadTimestamp_snapshot h2, loadTimestamp_rootFresh h2, hp, ht, by rw [← hroot]; exact hv, ?_, ?_⟩
    · intro old ho; rw [hn] at ho; cases ho
    · intro old ho; rw [hn] at ho; cases ho
  obtain ⟨o, s1a, d, h5, h6⟩ := loadTimestamp_ok h2
  have hst : s1a.trusted = { s1.trusted with timestamp := some m } := by
    have := (tryLocal_read (x := x) (role := TIMESTAMP) (f := fun data t => t.updateTimestamp x.env data) (s := s1) (hread _) (kf1.trans hfile)).1
    rw [h5] at this
    exact this.trans (updateTimestamp_stores hacc)
  have hh : History x.env s1a.trusted s2.trusted := by
    have := History.step (env := x.env) (.timestamp d) (.refl (t := s1a.trusted))
    rw [Call.run] at this
    rcases h6 with ⟨e, h7, _⟩ | ⟨m', h7, _⟩ <;> rwa [h7] at this
  have hh2 : History x.env s2.trusted s'.trusted :=
    (exec_history (exec_loadSnapshot' (ex := moveExtra) (J := fun _ _ _ => True) (fun _ _ _ => trivial) (fun _ _ => trivial)) h3).trans
      (exec_history (exec_loadTopTargets' (ex := moveExtra) (J := fun _ _ _ => True) (fun _ _ _ => trivial) (fun _ _ => trivial)) h4)
  have hh3 := hh.trans hh2
  have ho : s1a.trusted.timestamp = some m := by rw [hst]
  refine ⟨?_, fun v hl => C14_no_snapshot_rollback hh3 ho hl⟩
  obtain ⟨new, hn, h8⟩ := C13_no_timestamp_rollback hh3 ho
  refine ⟨new, hn, ?_⟩
  rcases h8 with rfl | h8
  · exact Int.le_refl _
  · exact Int.le_of_lt h8

/-- C29, snapshot: a cached snapshot that verifies under the root that the session ends up with bounds the versions of all roles it lists. -/
theorem C29_snapshot {x : Ctx} (hu : x.cfg.unsafeLocalMode = false) {s s' : St} (h0 : s.trusted.timestamp = none)
    (h : refresh x s = (.ok (), s')) {data : Bytes} {m : Metadata SnapshotType}
    (hfile : s.world.fs (joinPath x.cfg.localMetadataDir b!"snapshot.json") = some data)
    (hread : ∀ tr, x.host.readFails tr (joinPath x.cfg.localMetadataDir b!"snapshot.json") = false)
    (hp : ParsesTo x.env data m) (ht : m.signed.type = b!"snapshot") (hv : Verifies x.env (.root s'.trusted.root) b!"snapshot" (.snapshot m)) :
    ∀ name v, Lists m.signed.metas name v → ∃ new v', s'.trusted.snapshot = some new ∧ Lists new.signed.metas name v' ∧ v ≤ v' := by
  intro name v hl
  obtain ⟨s1, s2, s3, tg, h1, h2, h3, h4⟩ := refresh_parts hu h
  obtain ⟨hs0, t1, d1, m1, hc, ha, ht1⟩ := refresh_accepted h
  rw [← (cacheFile x).2.1] at hfile hread
  have k1 := loadRoot_keeps h1
  have kf1 := loadRoot_files (x := x) s (role := SNAPSHOT) (by decide)
  have kf2 := loadTimestamp_files (x := x) s1 (role := SNAPSHOT) (by decide)
  have k2 := loadTimestamp_keeps (x := x) s1
  have k3 := loadSnapshot_keeps (x := x) s2
  have k4 := loadTargets_keeps (x := x) TARGETS ROOT s3
  rw [h1] at kf1; rw [h2] at k2 kf2; rw [h3] at k3; rw [h4] at k4
  have hroot : s'.trusted.root = s2.trusted.root := k4.1.trans k3.1
  have inv := trustedInv (env := x.env) (t := t1) h0 hs0 hc.history
  obtain ⟨sn, ts, f, D, h5, h6, _⟩ := ha.snapshot
  obtain ⟨⟨ts', h7, h8⟩, _⟩ := inv.snapshot sn h5
  have e1 : s2.trusted.timestamp = t1.timestamp := (k4.2.1.trans k3.2.1).symm.trans (by rw [ht1])
  have e2 : s2.trusted.refTime = t1.refTime := (k4.2.2.2.trans k3.2.2.2).symm.trans (by rw [ht1])
  have hnt : s2.trusted.targets.get? TARGETS = none := by
    obtain ⟨t2, d, b, m, h5, _⟩ := loadSnapshot_ok h3
    obtain ⟨h6, _, h7⟩ := updateSnapshot_ok h5
    rw [← k3.2.2.1, h7]; exact h6.early
  have hns : s2.trusted.snapshot = none := k2.2.1.trans (loadTimestamp_snapshot h2)
  have hacc : SnapshotAccepted x.env s2.trusted data true m := by
    refine ⟨⟨ts', e1.trans h7, by rw [e2]; exact h8, by simp⟩, hnt, hp, ht, by rw [← hroot]; exact hv, ?_⟩
    intro old ho; rw [hns] at ho; cases ho
  have hrd := tryLocal_read (x := x) (role := SNAPSHOT) (f := fun data t => t.updateSnapshot x.env data true) (s := s2) (hread _) (kf2.trans (kf1.trans hfile))
  have hh : ∃ s2a : St, s2a.trusted = { s2.trusted with snapshot := some m } ∧ History x.env s2a.trusted s3.trusted := by
    unfold loadSnapshot at h3
    obtain ⟨o, s2a, h9, h3⟩ := SM.bind_eq_ok.1 h3
    rw [h9] at hrd
    refine ⟨s2a, hrd.1.trans (updateSnapshot_stores hacc), ?_⟩
    cases o with
    | some m => cases h3; exact .refl
    | none =>
      obtain ⟨t, s2a', h10, h3⟩ := SM.bind_eq_ok.1 h3
      cases h10
      cases hts : s2a.trusted.timestamp with
      | none => rw [hts] at h3; cases h3
      | some ts =>
        rw [hts] at h3
        obtain ⟨f, s2b, h11, h3⟩ := SM.bind_eq_ok.1 h3
        obtain ⟨_, rfl⟩ := lift_ok h11
        obtain ⟨d, s2c, h12, h3⟩ := SM.bind_eq_ok.1 h3
        obtain ⟨m', s2d, h13, h3⟩ := SM.bind_eq_ok.1 h3
        have h14 := (onTrusted_ok h13).1
        rw [onWorld_trusted h12] at h14
        rw [onWorld_trusted h3]
        have := History.step (env := x.env) (.snapshot d false) (.refl (t := s2b.trusted))
        rw [Call.run] at this
        rwa [h14] at this
  obtain ⟨s2a, h9, h10⟩ := hh
  have h11 := exec_history (exec_loadTopTargets' (ex := moveExtra) (J := fun _ _ _ => True) (fun _ _ _ => trivial) (fun _ _ => trivial)) h4
  exact C15_no_targets_rollback (h10.trans h11) (by rw [h9]) hl

/-- A cached newer timestamp makes the refresh fail when the server goes back; without the cache the same server is accepted. -/
example : (session ctx [(b!"m/timestamp.json", [2, 5])] (refresh ctx)).1 = .err (.badVersionNumber "timestamp") ∧
    (session ctx [(b!"m/timestamp.json", [2, 3])] (refresh ctx)).1 = .ok () := by decide +kernel

/-! ## C23 -/

/-- C23 for `Refresh`: the snapshot that a successful online refresh ends up with was read from bytes that were in the cache file, or from bytes of the length and hashes that the
trusted timestamp lists. Missing: that the former match too (`C23_cached_snapshot_unchecked`). -/
theorem C23_refresh_partial {x : Ctx} (hu : x.cfg.unsafeLocalMode = false) {s s' : St} (h : refresh x s = (.ok (), s')) :
    ∃ ts sn data, s'.trusted.timestamp = some ts ∧ s'.trusted.snapshot = some sn ∧ ParsesTo x.env data sn ∧
      (s.world.fs (joinPath x.cfg.localMetadataDir b!"snapshot.json") = some data ∨
        ∃ f, ts.signed.metas.get? b!"snapshot.json" = some (some f) ∧ MetaMatches x.env f data) := by
  obtain ⟨s1, s2, s3, tg, h1, h2, h3, h4⟩ := refresh_parts hu h
  have kf1 := loadRoot_files (x := x) s (role := SNAPSHOT) (by decide)
  have kf2 := loadTimestamp_files (x := x) s1 (role := SNAPSHOT) (by decide)
  have k3 := loadSnapshot_keeps (x := x) s2
  have k4 := loadTargets_keeps (x := x) TARGETS ROOT s3
  rw [h1] at kf1; rw [h2] at kf2; rw [h3] at k3; rw [h4] at k4
  have hfs := kf2.trans kf1
  rw [(cacheFile x).2.1] at hfs
  have key : ∃ (t1 : Trusted) (data : Bytes) (b : Bool) (m : Metadata SnapshotType), t1.updateSnapshot x.env data b = (.ok m, s3.trusted) ∧ t1.timestamp = s2.trusted.timestamp ∧
      (s2.world.fs (localPath x.cfg SNAPSHOT) = some data ∨ b = false) := by
    unfold loadSnapshot at h3
    obtain ⟨o, s2a, h9, h3⟩ := SM.bind_eq_ok.1 h3
    cases o with
    | some m =>
      cases h3
      obtain ⟨d, e1, e2⟩ := tryLocal_some h9
      exact ⟨_, d, true, m, e2, rfl, .inl e1⟩
    | none =>
      have hts2 : s2a.trusted.timestamp = s2.trusted.timestamp := by
        obtain ⟨_, ⟨e1, _⟩ | ⟨d, e, _, e1, _⟩⟩ := tryLocal_none h9
        · rw [e1]
        · have := congrArg Trusted.timestamp (updateSnapshot_keeps x.env d true s2.trusted)
          rwa [e1] at this
      obtain ⟨t, s2a', h10, h3⟩ := SM.bind_eq_ok.1 h3
      cases h10
      cases hts : s2a.trusted.timestamp with
      | none => rw [hts] at h3; cases h3
      | some ts =>
        rw [hts] at h3
        obtain ⟨f, s2b, h11, h3⟩ := SM.bind_eq_ok.1 h3
        obtain ⟨_, rfl⟩ := lift_ok h11
        obtain ⟨d, s2c, h12, h3⟩ := SM.bind_eq_ok.1 h3
        obtain ⟨m', s2d, h13, h3⟩ := SM.bind_eq_ok.1 h3
        have h14 := (onTrusted_ok h13).1
        refine ⟨_, d, false, m', by rw [h14, onWorld_trusted h3], ?_, .inr rfl⟩
        rw [onWorld_trusted h12]
        exact hts2
  obtain ⟨t1, data, b, m, e1, e2, e3⟩ := key
  obtain ⟨ha, _, hst⟩ := updateSnapshot_ok e1
  obtain ⟨ts, a1, _, a3⟩ := ha.timestamp
  refine ⟨ts, m, data, ?_, ?_, ha.parsed, ?_⟩
  · exact (k4.2.1.trans k3.2.1).trans (e2.symm.trans a1)
  · exact k4.2.2.1.trans (by rw [hst])
  · rcases e3 with e3 | rfl
    · rw [(cacheFile x).2.1] at e3
      exact .inl (hfs.symm.trans e3)
    · exact .inr (a3 rfl)

/-! ## C79 -/

/-- C79: after a successful online `Refresh` of a new session with caching on, the cache files of timestamp, snapshot and targets hold documents that parse to exactly
the trusted metadata, and so does the root file if it did before (as `New` leaves it). -/
theorem C79_cache_mirrors {x : Ctx} (hu : x.cfg.unsafeLocalMode = false) (hd : x.cfg.disableLocalCache = false) {s s' : St}
    (h0 : s.trusted.timestamp = none) (h : refresh x s = (.ok (), s')) :
    (∃ d ts, s'.world.fs (joinPath x.cfg.localMetadataDir b!"timestamp.json") = some d ∧ s'.trusted.timestamp = some ts ∧ ParsesTo x.env d ts) ∧
    (∃ d sn, s'.world.fs (joinPath x.cfg.localMetadataDir b!"snapshot.json") = some d ∧ s'.trusted.snapshot = some sn ∧ ParsesTo x.env d sn) ∧
    (∃ d tg, s'.world.fs (joinPath x.cfg.localMetadataDir b!"targets.json") = some d ∧ s'.trusted.targets.get? b!"targets" = some tg ∧ ParsesTo x.env d tg) ∧
    ((∃ d, s.world.fs (joinPath x.cfg.localMetadataDir b!"root.json") = some d ∧ ParsesTo x.env d s.trusted.root) →
      ∃ d, s'.world.fs (joinPath x.cfg.localMetadataDir b!"root.json") = some d ∧ ParsesTo x.env d s'.trusted.root) := by
  obtain ⟨s1, s2, s3, tg, h1, h2, h3, h4⟩ := refresh_parts hu h
  obtain ⟨hs0, t1, d1, m1, hc, ha, ht1⟩ := refresh_accepted h
  have c := cacheFile x
  rw [← c.1, ← c.2.1, ← c.2.2.1, ← c.2.2.2]
  have k1 := loadRoot_keeps h1
  have k2 := loadTimestamp_keeps (x := x) s1
  have k3 := loadSnapshot_keeps (x := x) s2
  have k4 := loadTargets_keeps (x := x) TARGETS ROOT s3
  have f2 := fun role hr => loadTimestamp_files (x := x) s1 (role := role) hr
  have f3 := fun role hr => loadSnapshot_files (x := x) s2 (role := role) hr
  have f4 := fun role hr => loadTopTargets_files (x := x) s3  (role := role) hr
  rw [h2] at k2 f2; rw [h3] at k3 f3; rw [h4] at k4 f4
  dsimp only at k2 k3 k4 f2 f3 f4
  obtain ⟨sn, ts, f, D, h5, h6, _⟩ := ha.snapshot
  have hts : s'.trusted.timestamp = some ts := by rw [ht1]; exact h6
  refine ⟨?_, ?_, ?_, ?_⟩
  · obtain ⟨d, i1, i2, _⟩ := loadTimestamp_cached hd h2 (by rw [k1]; exact h0) (ts := ts) ((k4.2.1.trans k3.2.1).symm.trans hts)
    exact ⟨d, ts, by rw [f4 _ (by decide), f3 _ (by decide)]; exact i1, hts, i2⟩
  · obtain ⟨d, sn, i1, i2, i3, _⟩ := loadSnapshot_cached hd h3
    exact ⟨d, sn, by rw [f4 _ (by decide)]; exact i2, k4.2.2.1.trans i1, i3⟩
  · have hn : s3.trusted.targets.get? TARGETS = none := by
      obtain ⟨t1, d, b, m, h5, _⟩ := loadSnapshot_ok h3
      obtain ⟨h6, _, h7⟩ := updateSnapshot_ok h5
      rw [h7]; exact h6.early
    obtain ⟨d, i1, i2, i3, _⟩ := loadTargets_cached hd h4 hn
    exact ⟨d, tg, i2, i1, i3⟩
  · intro hr
    obtain ⟨d, i1, i2⟩ := rootLoop_cached hd _ _ (show loadRootLoop x _ _ s = (.ok (), s1) from h1) hr
    exact ⟨d, by rw [f4 _ (by decide), f3 _ (by decide), f2 _ (by decide)]; exact i1, by rw [k4.1, k3.1, k2.1]; exact i2⟩

example : (session ctx [] (refresh ctx)).1 = .ok () ∧
    ([b!"m/root.json", b!"m/timestamp.json", b!"m/snapshot.json", b!"m/targets.json"].map (fileAt (session ctx [] (refresh ctx)).2)) =
      [some [1, 1], some [2, 4], some [3, 4], some [4, 4]] := by decide +kernel

/-! ## C80 -/

/-- C80: two sessions on the same cache, each with a successful online `Refresh`, with any servers, clocks and configurations otherwise. If the timestamp and
snapshot of the first are still signed as the root of the second demands, then no version that the second trusts is lower. -/
theorem C80_sessions {x y : Ctx} (he : y.env = x.env) (hdir : y.cfg.localMetadataDir = x.cfg.localMetadataDir)
    (hux : x.cfg.unsafeLocalMode = false) (huy : y.cfg.unsafeLocalMode = false) (hd : x.cfg.disableLocalCache = false)
    {s s' r r' : St} (hs : s.trusted.timestamp = none) (hr : r.trusted.timestamp = none)
    (h1 : refresh x s = (.ok (), s')) (h2 : refresh y r = (.ok (), r'))
    (hfiles : ∀ name ∈ [b!"timestamp.json", b!"snapshot.json"], r.world.fs (joinPath x.cfg.localMetadataDir name) = s'.world.fs (joinPath x.cfg.localMetadataDir name))
    (hread : ∀ tr p, y.host.readFails tr p = false)
    {ts : Metadata TimestampType} {sn : Metadata SnapshotType} {tg : Metadata TargetsType}
    (hts : s'.trusted.timestamp = some ts) (hsn : s'.trusted.snapshot = some sn) (htg : s'.trusted.targets.get? b!"targets" = some tg)
    (hv1 : Verifies y.env (.root r'.trusted.root) b!"timestamp" (.timestamp ts)) (hv2 : Verifies y.env (.root r'.trusted.root) b!"snapshot" (.snapshot sn)) :
    ∃ ts' sn' tg', r'.trusted.timestamp = some ts' ∧ r'.trusted.snapshot = some sn' ∧ r'.trusted.targets.get? b!"targets" = some tg' ∧
      ts.signed.version ≤ ts'.signed.version ∧ sn.signed.version ≤ sn'.signed.version ∧ tg.signed.version ≤ tg'.signed.version := by
  obtain ⟨s1, s2, s3, m, p1, p2, p3, p4⟩ := refresh_parts hux h1
  obtain ⟨hs0, t1, d1, m1, hc, ha, ht1⟩ := refresh_accepted h1
  obtain ⟨_, t2, d2, m2, hc2, ha2, ht2⟩ := refresh_accepted h2
  obtain ⟨sn1, ts1, f1, D1, a1, a2, _, a4, a5, _, a6, _, _⟩ := ha.snapshot
  obtain ⟨sn2, ts2, f2, D2, b1, b2, _, b4, b5, _, b6, _, _⟩ := ha2.snapshot
  have k1 := loadRoot_keeps p1
  have k3 := loadSnapshot_keeps (x := x) s2
  have k4 := loadTargets_keeps (x := x) TARGETS ROOT s3
  rw [p3] at k3; rw [p4] at k4
  dsimp only at k3 k4
  have g3 := fun role hr => loadSnapshot_files (x := x) s2 (role := role) hr
  have g4 := fun role hr => loadTopTargets_files (x := x) s3  (role := role) hr
  rw [p3] at g3; rw [p4] at g4
  dsimp only at g3 g4
  obtain ⟨dt, i1, i2, i3⟩ := loadTimestamp_cached hd p2 (by rw [k1]; exact hs) (ts := ts) ((k4.2.1.trans k3.2.1).symm.trans hts)
  obtain ⟨ds, sn', j1, j2, j3, j4⟩ := loadSnapshot_cached hd p3
  obtain rfl : sn' = sn := by
    have := (k4.2.2.1.trans j1).symm.trans hsn
    cases this; rfl
  have c := cacheFile x
  have e1 : r.world.fs (joinPath y.cfg.localMetadataDir b!"timestamp.json") = some dt := by
    rw [hdir, hfiles _ (by simp), ← c.1, g4 _ (by decide), g3 _ (by decide)]; exact i1
  have e2 : r.world.fs (joinPath y.cfg.localMetadataDir b!"snapshot.json") = some ds := by
    rw [hdir, hfiles _ (by simp), ← c.2.1, g4 _ (by decide)]; exact j2
  rw [← he] at i2 j3
  obtain ⟨⟨ts', q1, q2⟩, q3⟩ := C29_timestamp huy hr h2 e1 (fun tr => hread tr _) i2 i3 hv1
  have q4 := C29_snapshot huy hr h2 e2 (fun tr => hread tr _) j3 j4 hv2
  have e3 : t1.timestamp = some ts ∧ t1.snapshot = some sn' ∧ m1 = tg := by
    rw [ht1] at hts hsn htg
    refine ⟨hts, hsn, ?_⟩
    have := (Entries.get?_set_self t1.targets TARGETS m1).symm.trans htg
    cases this; rfl
  have e4 : r'.trusted.timestamp = some ts2 ∧ r'.trusted.snapshot = some sn2 ∧ r'.trusted.targets.get? b!"targets" = some m2 := by
    rw [ht2]
    exact ⟨b2, b1, Entries.get?_set_self _ _ _⟩
  rw [a2] at e3; rw [a1] at e3
  obtain ⟨e3a, e3b, rfl⟩ := e3
  cases e3a; cases e3b
  obtain rfl : ts2 = ts' := by have := e4.1.symm.trans q1; cases this; rfl
  refine ⟨ts2, sn2, m2, e4.1, e4.2.1, e4.2.2, q2, ?_, ?_⟩
  · obtain ⟨n', v', w1, ⟨g, w2, w3⟩, w4⟩ := q3 _ a4
    rw [e4.1] at w1; cases w1
    obtain ⟨g', w5, w6⟩ := b4
    rw [w2] at w5; cases w5
    rw [← w6, w3]; exact w4
  · obtain ⟨n', v', w1, ⟨g, w2, w3⟩, w4⟩ := q4 _ _ ⟨f1, a5, rfl⟩
    rw [e4.2.1] at w1; cases w1
    have w5 : some (some g) = some (some f2) := w2.symm.trans b5
    cases w5
    rw [a6, b6, w3]; exact w4

/-- Two sessions: the second starts on the files of the first and meets a newer repository. -/
example :
    let first := (session ctx [] (refresh ctx)).2
    let newer : Ctx := { ctx with host := hostOf (fun u => if u = b!"u/timestamp.json" then .ok [2, 6] else if u = b!"u/6.snapshot.json" then .ok [3, 6]
      else if u = b!"u/6.targets.json" then .ok [4, 6] else server u) }
    let files := [b!"m/timestamp.json", b!"m/snapshot.json"].filterMap (fun p => (fileAt first p).map (p, ·))
    (session newer files (refresh newer)).1 = .ok () ∧
      (session newer files (refresh newer)).2.map (fun s => versions s.trusted) = some (1, some 6, some 6, some 6) := by decide +kernel

/-! ## C35 -/

/-- The bytes are a root that the trusted set accepted in this call: the successor of a root that was trusted, reached from the one trusted at the start. -/
def Spec.AcceptedRoot (env : Env) (T : Trusted) (data : Bytes) : Prop :=
  ∃ before new, History env T before ∧ RootAccepted env before data new

theorem exec_rootLoop_accepted {x : Ctx} {T : Trusted} (n : Nat) (v : Int) (s : St) (hT : History x.env T s.trusted) :
    Exec x (EventOk x moveExtra (fun _ role data => role = ROOT → AcceptedRoot x.env T data)) s (loadRootLoop x n v s).2 := by
  induction n generalizing v s with
  | zero => exact .refl
  | succ n ih =>
    unfold loadRootLoop
    refine exec_bind (exec_try (exec_onWorld (exec_fetch (.inr trivial)))) ?_
    intro r s1 h1
    have e1 : s1.trusted = s.trusted := by
      have := congrArg (fun p => p.2.trusted) h1
      dsimp only at this
      rw [SM.try_snd, onWorld_apply] at this
      exact this.symm
    cases r with
    | error e =>
      cases e with
      | downloadHTTP st u => dsimp only; split <;> exact .refl
      | _ => exact .refl
    | ok d =>
      refine exec_bind (exec_call (.root d) trivial rfl) ?_
      intro m s2 h2
      obtain ⟨ha, hb⟩ := updateRoot_ok (onTrusted_ok h2).1
      refine exec_bind (exec_onWorld (exec_persist (fun _ => ⟨s.trusted, m, hT, by rw [← e1]; exact ha⟩))) ?_
      intro _ s3 h3
      refine ih _ _ ?_
      have := History.step (env := x.env) (.root d) hT
      rw [Call.run] at this
      rw [onWorld_trusted h3]
      rw [← e1, (onTrusted_ok h2).1] at this
      exact this

theorem exec_refresh_root {x : Ctx} (s : St) :
    Exec x (EventOk x moveExtra (fun _ role data => role = ROOT → AcceptedRoot x.env s.trusted data)) s (refresh x s).2 := by
  cases hu : x.cfg.unsafeLocalMode with
  | true =>
    unfold refresh
    rw [if_pos hu]
    unfold unsafeLocalRefresh
    refine exec_bind (exec_onWorld exec_read) (fun d1 s1 _ => exec_bind (exec_call (.timestamp d1) trivial rfl) (fun _ s2 _ => ?_))
    refine exec_bind (exec_onWorld exec_read) (fun d2 s3 _ => exec_bind (exec_call (.snapshot d2 false) trivial rfl) (fun _ s4 h4 => ?_))
    refine exec_bind (exec_onWorld exec_read) (fun d3 s5 h5 => exec_bind (exec_call (.targets d3 TARGETS ROOT) ⟨snapshot_early h4 h5, .inl ⟨rfl, rfl⟩⟩ rfl) (fun _ s6 _ => ?_))
    exact .refl
  | false =>
    rw [refresh_online hu]
    refine exec_bind ?_ ?_
    · unfold loadRoot
      refine exec_bind exec_getTrusted ?_
      intro t s1 h1
      cases h1
      exact exec_rootLoop_accepted _ _ _ .refl
    · intro _ s1 _
      refine exec_afterRoot (fun _ _ _ _ _ => trivial) ?_
      intro role hr t d he
      exact absurd he (by revert role; decide)

/-- C35 holds within `Refresh`: at every crash point of a `Refresh`, the cached root file has its old content or is an accepted successor of a root that
was trusted, reached by accepted rotations from the root trusted before. -/
theorem C35_refresh_partial {x : Ctx} (s : St) {evs : List Event} (ht : (refresh x s).2.world.trace = s.world.trace ++ evs) {fs' : FS}
    (hc : CrashState s.world.fs evs fs') :
    fs' (joinPath x.cfg.localMetadataDir b!"root.json") = s.world.fs (joinPath x.cfg.localMetadataDir b!"root.json") ∨
    ∃ data before new, fs' (joinPath x.cfg.localMetadataDir b!"root.json") = some data ∧ History x.env s.trusted before ∧
      RootAccepted x.env before data new := by
  rw [← (cacheFile x).2.2.2]
  rcases crash_files (exec_refresh_root s) ht hc (localPath_not_temp x.cfg ROOT) id with h | ⟨role, d, t, h1, h2, h3⟩
  · exact .inl h
  · right
    rw [C48_top_level x _ (by decide)] at h1 h2 ⊢
    obtain rfl := persistPath_inj (show persistPath x.cfg ROOT = persistPath x.cfg role from h1)
    obtain ⟨before, new, h4, h5⟩ := h3 rfl
    exact ⟨d, before, new, h2, h4, h5⟩

/-- C35: versions along accepted rotations only go up, as long as they stay below 2^63 - 1. -/
theorem C35_versions_partial {env : Env} {now : Time} {data0 data : Bytes} {t before : Trusted} {new : Metadata RootType}
    (h0 : Trusted.new env now data0 = .ok t) (h : History env t before) (ha : RootAccepted env before data new)
    (hb : before.root.signed.version < 2 ^ 63 - 1) : new.signed.version = before.root.signed.version + 1 ∧
      RootChain env t.root before.root := by
  refine ⟨?_, C11_root_rotations_partial h0 h⟩
  rw [ha.version]
  have hr : inInt64 before.root.signed.version = true := by
    refine history_change (P := fun x => inInt64 x.root.signed.version = true) (root_version_range (new_root h0).1) ?_ h
    rintro a c b hr hch
    cases hch with
    | root ha => exact root_version_range ha.parsed
    | _ => exact hr
  have := hr
  simp [inInt64] at this
  exact wrap64_of_bounds (by omega) (by omega)

/-- C35 is false: `New` replaces a newer cached root by the configured one. -/
theorem C35_false : (fresh ctx [(b!"m/root.json", [1, 3])]).1 = .ok () ∧ fileAt (fresh ctx [(b!"m/root.json", [1, 3])]).2 b!"m/root.json" = some [1, 1] ∧
    (fromBytes (T := RootType) ctx.env [1, 3]).map (·.signed.version) = .ok 3 ∧
    (fromBytes (T := RootType) ctx.env [1, 1]).map (·.signed.version) = .ok 1 := by decide +kernel

/-! ## C34 -/

/-- C34 is false: a cached timestamp that is not JSON makes every refresh fail although the server is fine. -/
theorem C34_false : (session ctx [(b!"m/timestamp.json", [99])] (refresh ctx)).1 = .err jsonErr ∧ (session ctx [] (refresh ctx)).1 = .ok () := by
  decide +kernel

/-- C34 is false also for a well-formed document of another type. -/
theorem C34_false_type : (session ctx [(b!"m/snapshot.json", [2, 4])] (refresh ctx)).1 = .err (.value "unexpected metadata type") := by decide +kernel

end Tuf
