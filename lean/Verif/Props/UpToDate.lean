import Verif.Spec.UpToDate
import Verif.Props.Offline
import Verif.Props.MultiDirs
import Verif.Props.Cli
import Verif.Props.Search

/-! # What is cached and current is not downloaded again (C149) -/

namespace Tuf
open Spec Sample

section
variable {x : Ctx}

theorem tryLocal_asks {α : Type} (role : Str) (f : Bytes → Trusted → Res α × Trusted) (s : St) :
    downloads (tryLocal x role f s).2.world.trace = downloads s.world.trace := by
  have hd : ∀ r, downloads (s.world.emit (.read (localPath x.cfg role) r)).trace = downloads s.world.trace := by
    intro r
    unfold World.emit
    rw [downloads_append]
    simp [downloads]
  unfold tryLocal
  rcases hr : (if x.host.readFails s.world.trace (localPath x.cfg role) then none else s.world.fs (localPath x.cfg role)) with _ | d
  · rw [SM.bind_ok (SM.try_err (readLocal hr))]
    exact hd _
  · rw [SM.bind_ok (SM.try_ok (readLocal hr))]
    dsimp only
    rw [SM.bind_apply]
    unfold SM.try'
    rw [onTrusted_apply]
    dsimp only
    rcases f d s.trusted with ⟨r, t⟩
    cases r with
    | ok a => exact hd _
    | err e => dsimp only; split <;> exact hd _
    | panic => exact hd _

/-- The timestamp phase asks for the timestamp at most once, and for nothing else. -/
theorem loadTimestamp_asks (s : St) :
    ∃ last, downloads (loadTimestamp x s).2.world.trace = downloads s.world.trace ++ last ∧
      (last = [] ∨ ∃ url r, PlainURL x.cfg.remoteMetadataURL b!"timestamp" url ∧ last = [(url, x.cfg.timestampMaxLength, r)]) := by
  unfold loadTimestamp
  rw [SM.bind_apply]
  have h1 := tryLocal_asks (x := x) TIMESTAMP (fun data t => t.updateTimestamp x.env data) s
  rcases hx : tryLocal x TIMESTAMP (fun data t => t.updateTimestamp x.env data) s with ⟨o, s1⟩
  rw [hx] at h1
  dsimp only at h1
  cases o with
  | err e => exact ⟨[], by simpa using h1, .inl rfl⟩
  | panic => exact ⟨[], by simpa using h1, .inl rfl⟩
  | ok a =>
    dsimp only
    unfold downloadMetadata
    rw [SM.bind_apply, doFetch_apply]
    have hf : ∀ r, downloads (s1.world.emit (.fetch (metadataURL x.cfg.remoteMetadataURL TIMESTAMP []) x.cfg.timestampMaxLength r)).trace =
        downloads s.world.trace ++ [(metadataURL x.cfg.remoteMetadataURL TIMESTAMP [], x.cfg.timestampMaxLength, r)] := by
      intro r
      unfold World.emit
      rw [downloads_append, h1]
      rfl
    have hl : ∀ r : Except Err Bytes, (∃ url r', PlainURL x.cfg.remoteMetadataURL b!"timestamp" url ∧
        [(metadataURL x.cfg.remoteMetadataURL TIMESTAMP [], x.cfg.timestampMaxLength, r)] = [(url, x.cfg.timestampMaxLength, r')]) :=
      fun r => ⟨_, r, plainURL x.cfg.remoteMetadataURL TIMESTAMP, rfl⟩
    rcases x.host.fetch s1.world.trace (metadataURL x.cfg.remoteMetadataURL TIMESTAMP []) x.cfg.timestampMaxLength with e | d
    · exact ⟨_, hf _, .inr (hl _)⟩
    · dsimp only
      rw [SM.bind_apply]
      unfold SM.try'
      rw [onTrusted_apply]
      dsimp only
      rcases s1.trusted.updateTimestamp x.env d with ⟨r, t⟩
      cases r with
      | panic => exact ⟨_, hf _, .inr (hl _)⟩
      | err e => dsimp only; split <;> exact ⟨_, hf _, .inr (hl _)⟩
      | ok m =>
        dsimp only
        obtain ⟨evs, h2, h3⟩ := persist_downloads x TIMESTAMP d ⟨t, s1.world.emit (.fetch (metadataURL x.cfg.remoteMetadataURL TIMESTAMP []) x.cfg.timestampMaxLength (.ok d))⟩
        refine ⟨_, ?_, .inr (hl (.ok d))⟩
        rw [h2, downloads_append, h3, List.append_nil]
        exact hf _

/-- A cached file that the trusted set accepts is taken, without a request. -/
theorem tryLocal_takes {α : Type} {role : Str} {f : Bytes → Trusted → Res α × Trusted} {s : St} {d : Bytes} {a : α} {t : Trusted}
    (h1 : x.host.readFails s.world.trace (localPath x.cfg role) = false) (h2 : s.world.fs (localPath x.cfg role) = some d) (h3 : f d s.trusted = (.ok a, t)) :
    ∃ s', tryLocal x role f s = (.ok (some a), s') ∧ s'.trusted = t ∧ s'.world.fs = s.world.fs ∧ downloads s'.world.trace = downloads s.world.trace := by
  have k1 := tryLocal_apply (f := f) h1 h2
  have k2 := tryLocal_read (f := f) h1 h2
  have k3 := tryLocal_asks (x := x) role f s
  rw [h3] at k1 k2
  refine ⟨(tryLocal x role f s).2, Prod.ext k1 rfl, k2.1, k2.2, k3⟩

/-- With current files and a trusted timestamp the rest of a refresh takes the files. -/
theorem rest_takes (hread : ∀ tr p, x.host.readFails tr p = false) {s : St} {dsn dtg : Bytes} {sn : Metadata SnapshotType} {tg : Metadata TargetsType}
    (f1 : s.world.fs (localPath x.cfg SNAPSHOT) = some dsn) (f2 : s.world.fs (localPath x.cfg TARGETS) = some dtg) (h1 : s.trusted.snapshot = none) (h2 : s.trusted.targets.get? TARGETS = none)
    (hc : Current x.env s.trusted dsn dtg sn tg) :
    ∃ s', (loadSnapshot x >>= fun _ => loadTargets x TARGETS ROOT >>= fun _ => pure ()) s = (.ok (), s') ∧
      s'.trusted = { s.trusted with snapshot := some sn, targets := s.trusted.targets.set TARGETS tg } ∧ s'.world.fs = s.world.fs ∧ downloads s'.world.trace = downloads s.world.trace := by
  obtain ⟨⟨ts, c1, c2, c3⟩, ⟨c4, c5, c6, c7⟩, ⟨c8, c9, c10, c11⟩, f, c12, c13, c14⟩ := hc
  have u1 : SnapshotAccepted x.env s.trusted dsn true sn := ⟨⟨ts, c1, c2, nofun⟩, h2, c4, c5, c6, fun old ho => by rw [h1] at ho; cases ho⟩
  have v1 := updateSnapshot_fresh u1 c7 c1 c3
  obtain ⟨s1, a1, a2, a3, a4⟩ := tryLocal_takes (x := x) (role := SNAPSHOT) (f := fun data t => t.updateSnapshot x.env data true) (s := s) (hread _ _) f1 v1
  have b1 : loadSnapshot x s = (.ok (), s1) := by
    unfold loadSnapshot
    rw [SM.bind_ok a1]
    rfl
  rw [SM.bind_ok b1]
  have u2 : TargetsAccepted x.env s1.trusted dtg TARGETS ROOT tg := by
    rw [a2]
    exact ⟨⟨sn, ts, f, _, rfl, c1, c7, c3, c12, c13, c14, .root, c10⟩, c8, c9, c11⟩
  have v2 := updateTargets_accepts u2
  obtain ⟨s2, a5, a6, a7, a8⟩ := tryLocal_takes (x := x) (role := TARGETS) (f := fun data t => t.updateDelegatedTargets x.env data TARGETS ROOT) (s := s1) (hread _ _) (by rw [a3]; exact f2) v2
  have b2 : loadTargets x TARGETS ROOT s1 = (.ok tg, s2) := by
    unfold loadTargets
    rw [SM.bind_ok (getTrusted_apply s1), a2]
    dsimp only
    rw [h2]
    dsimp only
    rw [SM.bind_ok a5]
    rfl
  rw [SM.bind_ok b2]
  refine ⟨s2, rfl, ?_, a7.trans a3, a8.trans a4⟩
  rw [a6, a2]

theorem keeps_loadRoot {β : Type} {φ : Trusted → β} (h : ∀ d t, φ (Trusted.updateRoot x.env t d).2 = φ t) : Keeps φ (loadRoot x) := by
  unfold loadRoot
  refine keeps_bind keeps_getTrusted (fun t => ?_)
  dsimp only
  generalize (wrap64 (wrap64 (t.root.signed.version + 1) + x.cfg.maxRootRotations) - wrap64 (t.root.signed.version + 1)).toNat = n
  generalize wrap64 (t.root.signed.version + 1) = v
  induction n generalizing v with
  | zero => exact keeps_pure ()
  | succ n ih =>
    unfold loadRootLoop
    refine keeps_bind (keeps_try (keeps_onWorld _)) (fun a => ?_)
    split
    · split
      · exact keeps_throw _
      · exact keeps_pure _
    · exact keeps_throw _
    · exact keeps_bind (keeps_onTrusted (h _)) (fun _ => keeps_bind (keeps_onWorld _) (fun _ => ih _))

/-- C149 for one refresh: if the cached snapshot and targets are current by the root and the timestamp that the client comes to trust, `Refresh` asks only for roots and once for the timestamp; it
succeeds with the cached metadata unless already the roots or the timestamp fail, and leaves the two files alone. -/
theorem C149_refresh {x : Ctx} (hu : x.cfg.unsafeLocalMode = false) (hread : ∀ tr p, x.host.readFails tr p = false) {w0 w : World} {t : Trusted} (hnew : newUpdater x w0 = (.ok t, w))
    {o : Res Unit} {s' : St} (h : refresh x ⟨t, w⟩ = (o, s')) {dsn dtg : Bytes} (f1 : w0.fs (joinPath x.cfg.localMetadataDir b!"snapshot.json") = some dsn)
    (f2 : w0.fs (joinPath x.cfg.localMetadataDir b!"targets.json") = some dtg) {sn : Metadata SnapshotType} {tg : Metadata TargetsType} (hc : Current x.env s'.trusted dsn dtg sn tg) :
    (∃ ds, downloads s'.world.trace = downloads w.trace ++ ds ∧ OnlyTimestamp x t ds) ∧
    (o = .ok () ∧ s'.trusted.snapshot = some sn ∧ s'.trusted.targets.get? b!"targets" = some tg ∨ o ≠ .ok () ∧ s'.trusted.snapshot = none ∧ s'.trusted.targets = []) ∧
    s'.world.fs (joinPath x.cfg.localMetadataDir b!"snapshot.json") = some dsn ∧ s'.world.fs (joinPath x.cfg.localMetadataDir b!"targets.json") = some dtg := by
  have c := cacheFile x
  rw [← c.2.1] at f1 ⊢
  rw [← c.2.2.1] at f2 ⊢
  obtain ⟨_, _, _, n1, n2, n3, _⟩ := new_root (newUpdater_root hnew)
  have hfile : ∀ role ∈ [SNAPSHOT, TARGETS], w.fs (localPath x.cfg role) = w0.fs (localPath x.cfg role) := by
    intro role hr
    refine (newUpdater_files hnew).2 _ (localPath_not_temp x.cfg role) ?_
    rw [C48_top_level x role (by revert role; decide)]
    intro hp
    have := persistPath_inj hp
    subst this
    exact absurd hr (by decide)
  have k0 : (loadRoot x ⟨t, w⟩).2.trusted.timestamp = t.timestamp ∧ (loadRoot x ⟨t, w⟩).2.trusted.snapshot = t.snapshot ∧ (loadRoot x ⟨t, w⟩).2.trusted.targets = t.targets := by
    have hroot : ∀ d t, (Trusted.updateRoot x.env t d).2 = { t with root := (Trusted.updateRoot x.env t d).2.root } := by
      intro d t
      unfold Trusted.updateRoot
      split <;> rfl
    exact ⟨keeps_loadRoot (φ := (·.timestamp)) (fun d t => by rw [hroot]) ⟨t, w⟩, keeps_loadRoot (φ := (·.snapshot)) (fun d t => by rw [hroot]) ⟨t, w⟩,
      keeps_loadRoot (φ := (·.targets)) (fun d t => by rw [hroot]) ⟨t, w⟩⟩
  obtain ⟨n, evs, out, p1, p2, p3, p4⟩ := loadRoot_phase (x := x) ⟨t, w⟩
  have g1 := fun role hr => loadRoot_files (x := x) ⟨t, w⟩ (role := role) hr
  unfold refresh at h
  rw [if_neg (by simp [hu])] at h
  unfold onlineRefresh at h
  rw [SM.bind_apply] at h
  rcases hl : loadRoot x ⟨t, w⟩ with ⟨o1, s1⟩
  rw [hl] at h k0 p1 p3 p4 g1
  dsimp only at h k0 p1 p3 p4 g1
  have hbad : s1 = s' → False := by
    rintro rfl
    obtain ⟨ts, c1, _⟩ := hc.timestamp
    rw [k0.1, n1] at c1
    cases c1
  cases o1 with
  | err e => cases h; exact absurd rfl hbad
  | panic => cases h; exact absurd rfl hbad
  | ok u =>
    dsimp only at h
    rw [SM.bind_apply] at h
    have k2 := loadTimestamp_keeps (x := x) s1
    obtain ⟨last, q1, q2⟩ := loadTimestamp_asks (x := x) s1
    have g2 := fun role hr => loadTimestamp_files (x := x) s1 (role := role) hr
    rcases hl2 : loadTimestamp x s1 with ⟨o2, s2⟩
    rw [hl2] at h k2 q1 g2
    dsimp only at h k2 q1 g2
    have hds : downloads s2.world.trace = downloads w.trace ++ (downloads evs ++ last) := by
      rw [q1, p1, downloads_append, List.append_assoc]
    have hot : OnlyTimestamp x t (downloads evs ++ last) := ⟨n, out, _, last, p2, rfl, q2⟩
    have e1 : s2.trusted.snapshot = none := by rw [k2.2.1, k0.2.1, n2]
    have e2 : s2.trusted.targets = [] := by rw [k2.2.2.1, k0.2.2, n3]
    have z1 : s2.world.fs (localPath x.cfg SNAPSHOT) = some dsn := by
      rw [g2 _ (by decide), g1 _ (by decide)]
      exact (hfile _ (by decide)).trans f1
    have z2 : s2.world.fs (localPath x.cfg TARGETS) = some dtg := by
      rw [g2 _ (by decide), g1 _ (by decide)]
      exact (hfile _ (by decide)).trans f2
    cases o2 with
    | err e => cases h; exact ⟨⟨_, hds, hot⟩, .inr ⟨nofun, e1, e2⟩, z1, z2⟩
    | panic => cases h; exact ⟨⟨_, hds, hot⟩, .inr ⟨nofun, e1, e2⟩, z1, z2⟩
    | ok u =>
      dsimp only at h
      have hk : Current x.env s2.trusted dsn dtg sn tg := by
        have m1 := loadSnapshot_keeps (x := x) s2
        rw [SM.bind_apply] at h
        rcases hl3 : loadSnapshot x s2 with ⟨o3, s3⟩
        rw [hl3] at h m1
        dsimp only at h m1
        have m2 := loadTargets_keeps (x := x) TARGETS ROOT s3
        have same : s'.trusted.root = s2.trusted.root ∧ s'.trusted.timestamp = s2.trusted.timestamp ∧ s'.trusted.refTime = s2.trusted.refTime := by
          cases o3 with
          | err e => cases h; exact ⟨m1.1, m1.2.1, m1.2.2.2⟩
          | panic => cases h; exact ⟨m1.1, m1.2.1, m1.2.2.2⟩
          | ok u =>
            dsimp only at h
            rw [SM.bind_apply] at h
            rcases hl4 : loadTargets x TARGETS ROOT s3 with ⟨o4, s4⟩
            rw [hl4] at h m2
            dsimp only at h m2
            cases o4 <;> cases h <;> exact ⟨m2.1.trans m1.1, m2.2.1.trans m1.2.1, m2.2.2.2.trans m1.2.2.2⟩
        obtain ⟨c1, c2, c3, c4⟩ := hc
        rw [same.2.1, same.2.2] at c1
        rw [same.1, same.2.2] at c2 c3
        exact ⟨c1, c2, c3, c4⟩
      obtain ⟨s3, r1, r2, r3, r4⟩ := rest_takes hread z1 z2 e1 (by rw [e2]; rfl) hk
      rw [r1] at h
      cases h
      refine ⟨⟨_, r4.trans hds, hot⟩, .inl ⟨rfl, by rw [r2], ?_⟩, by rw [r3]; exact z1, by rw [r3]; exact z2⟩
      rw [r2]
      exact Entries.get?_set_self _ _ _

end

/-- C149 from run to run: after a run that refreshed, a later client on the same files (perhaps with another configuration, another host, other failures) that comes to trust the same root and a
timestamp that lists the version of the snapshot of the first run, all unexpired, asks only for roots and once for the timestamp, and ends with the snapshot and targets of the first run. -/
theorem C149_next_run {x y : Ctx} (he : y.env = x.env) (hdir : y.cfg.localMetadataDir = x.cfg.localMetadataDir) (hux : x.cfg.unsafeLocalMode = false) (huy : y.cfg.unsafeLocalMode = false)
    (hd : x.cfg.disableLocalCache = false) (hread : ∀ tr p, y.host.readFails tr p = false) {v0 v : World} {t0 : Trusted} {s : St} (hx : newUpdater x v0 = (.ok t0, v))
    (hr : refresh x ⟨t0, v⟩ = (.ok (), s)) {w0 w : World} (hfs : w0.fs = s.world.fs) {t : Trusted} (hy : newUpdater y w0 = (.ok t, w)) {o : Res Unit} {s' : St} (h : refresh y ⟨t, w⟩ = (o, s'))
    {sn : Metadata SnapshotType} {tg : Metadata TargetsType} (hsn : s.trusted.snapshot = some sn) (htg : s.trusted.targets.get? b!"targets" = some tg)
    (hroot : s'.trusted.root = s.trusted.root)
    (hts : ∃ ts, s'.trusted.timestamp = some ts ∧ ¬ Expired ts.signed.expires t.refTime ∧ Lists ts.signed.metas b!"snapshot.json" sn.signed.version)
    (e1 : ¬ Expired sn.signed.expires t.refTime) (e2 : ¬ Expired tg.signed.expires t.refTime) :
    (∃ ds, downloads s'.world.trace = downloads w.trace ++ ds ∧ OnlyTimestamp y t ds) ∧
    (o = .ok () ∧ s'.trusted.snapshot = some sn ∧ s'.trusted.targets.get? b!"targets" = some tg ∨ o ≠ .ok () ∧ s'.trusted.snapshot = none ∧ s'.trusted.targets = []) := by
  have h0 := newUpdater_root hx
  obtain ⟨_, _, _, n1, n2, n3, _⟩ := new_root h0
  obtain ⟨_, ⟨dsn, sn', b4, b5, b6⟩, _⟩ := C79_cache_mirrors hux hd n1 hr
  rw [hsn] at b5; cases b5
  obtain ⟨s1, s2, s3, m, p1, p2, p3, p4⟩ := refresh_parts hux hr
  have hn : s3.trusted.targets.get? TARGETS = none := by
    obtain ⟨t1, d, b, m, h5, _⟩ := loadSnapshot_ok p3
    obtain ⟨h6, _, h7⟩ := updateSnapshot_ok h5
    rw [h7]; exact h6.early
  obtain ⟨dtg, t3, c1, c2, c4, c3⟩ := loadTargets_cachedAccepted hd p4 hn
  have hsess : Session x ⟨t0, v⟩ s := by
    have := (Session.refl (x := x) (s := ⟨t0, v⟩)).step .refresh
    simp only [Api.run, hr] at this
    exact this
  have hsound := C82_always_sound h0 hsess
  obtain ⟨_, v3⟩ := hsound.snapshot sn hsn
  obtain ⟨sn1, ts1, f1, D1, g1, g2, g3, g4, g5, g6, g7, g8, g9⟩ := c2.snapshot
  have q2 : t3.snapshot = some sn := by rw [c3] at hsn; exact hsn
  have q3 : t3.root = s.trusted.root := by rw [c3]
  rw [q2] at g1; cases g1
  have q4 : m = tg := by
    rw [c3] at htg
    have := (Entries.get?_set_self t3.targets TARGETS m).symm.trans htg
    cases this; rfl
  subst q4
  have hD : D1 = .root s.trusted.root := by
    cases g8 with
    | root => rw [q3]
    | targets h _ => exact absurd rfl h
  subst hD
  have hmsn : sn.signed.type = SNAPSHOT := by
    have k4 := loadTargets_keeps (x := x) TARGETS ROOT s3
    rw [p4] at k4
    obtain ⟨_, sn'', j1, _, _, j4⟩ := loadSnapshot_cached hd p3
    have := (k4.2.2.1.trans j1).symm.trans hsn
    cases this
    exact j4
  have hnow : s'.trusted.refTime = t.refTime := by
    have hsess' : Session y ⟨t, w⟩ s' := by
      have := (Session.refl (x := y) (s := ⟨t, w⟩)).step .refresh
      simp only [Api.run, h] at this
      exact this
    have : ∀ {t' : Trusted}, History y.env t t' → t'.refTime = t.refTime := by
      intro t' ht
      induction ht with
      | refl => rfl
      | @step t' c _ ih =>
        have key := run_change y.env t' c
        revert key
        generalize (c.run y.env t').2 = t''
        intro key
        cases key <;> exact ih
    exact this (session_history hsess').history
  have c := cacheFile x
  have hcur : Current y.env s'.trusted dsn dtg sn m := by
    rw [he]
    refine ⟨by rw [hnow]; exact hts, ⟨b6, hmsn, by rw [hroot]; exact v3, by rw [hnow]; exact e1⟩, ⟨c2.parsed, c2.type, by rw [hroot]; exact g9, by rw [hnow]; exact e2⟩, f1, g5, g6, g7⟩
  obtain ⟨r1, r2, _⟩ := C149_refresh huy hread hy h (dsn := dsn) (dtg := dtg) (by rw [hdir, hfs]; exact b4) (by rw [hdir, hfs, ← c.2.2.1]; exact c1) hcur
  exact ⟨r1, r2⟩

/-! ## Lookups -/

section
variable {x : Ctx} {path : Str}

theorem loadTargets_asks (hread : ∀ tr p, x.host.readFails tr p = false) (role parent : Str) (s : St) (m : Option (Metadata TargetsType)) :
    ∃ asked ds, downloads (loadTargets x role parent s).2.world.trace = downloads s.world.trace ++ ds ∧ asked.Sublist [⟨role, parent, s, m⟩] ∧ AskedFor x asked ds := by
  have none' : ∀ s' : St, downloads s'.world.trace = downloads s.world.trace →
      ∃ asked ds, downloads s'.world.trace = downloads s.world.trace ++ ds ∧ asked.Sublist [(⟨role, parent, s, m⟩ : Visit)] ∧ AskedFor x asked ds :=
    fun s' h => ⟨[], [], by simpa using h, List.nil_sublist _, .nil⟩
  unfold loadTargets
  rw [SM.bind_ok (getTrusted_apply s)]
  rcases hg : s.trusted.targets.get? role with _ | m'
  · dsimp only
    rw [SM.bind_apply]
    have h1 := tryLocal_asks (x := x) role (fun data t => t.updateDelegatedTargets x.env data role parent) s
    rcases hx : tryLocal x role (fun data t => t.updateDelegatedTargets x.env data role parent) s with ⟨o, s1⟩
    rw [hx] at h1
    dsimp only at h1
    cases o with
    | err e => exact none' s1 h1
    | panic => exact none' s1 h1
    | ok o =>
      cases o with
      | some m => exact none' s1 h1
      | none =>
        dsimp only
        have hs := tryLocal_targets_none hx
        rw [SM.bind_ok (getTrusted_apply s1), hs]
        rcases hsn : s.trusted.snapshot with _ | sn
        · exact none' s1 h1
        · dsimp only
          rw [SM.bind_apply, SM.lift_apply]
          rcases hf : Res.deref (sn.signed.metas.ptr (jsonName role)) with f | e | _
          · dsimp only
            have hat : ¬ AtHand x ⟨role, parent, s, m⟩ := by
              rintro (⟨m, h⟩ | ⟨d, m, h2, h3⟩)
              · rw [hg] at h; cases h
              · obtain ⟨s2, k, _⟩ := tryLocal_takes (x := x) (role := role) (f := fun data t => t.updateDelegatedTargets x.env data role parent) (s := s) (hread _ _) h2 (updateTargets_accepts h3)
                rw [hx] at k
                cases k
            rw [Res.deref_eq_ok, ptr_eq_some] at hf
            have one : ∀ (s' : St) (r : Except Err Bytes),
                downloads s'.world.trace = downloads s.world.trace ++ [(metadataURL x.cfg.remoteMetadataURL role (metaVersion s.trusted f), metaLength f x.cfg.targetsMaxLength, r)] →
                ∃ asked ds, downloads s'.world.trace = downloads s.world.trace ++ ds ∧ asked.Sublist [(⟨role, parent, s, m⟩ : Visit)] ∧ AskedFor x asked ds :=
              fun s' r h => ⟨[_], [_], h, List.Sublist.refl _, .cons hat hsn ⟨f, hf, rfl⟩ (roleURL x _ _ f) .nil⟩
            unfold downloadMetadata
            rw [SM.bind_apply, doFetch_apply]
            have hd : ∀ r, downloads (s1.world.emit (.fetch (metadataURL x.cfg.remoteMetadataURL role (metaVersion s.trusted f)) (metaLength f x.cfg.targetsMaxLength) r)).trace =
                downloads s.world.trace ++ [(metadataURL x.cfg.remoteMetadataURL role (metaVersion s.trusted f), metaLength f x.cfg.targetsMaxLength, r)] := by
              intro r
              unfold World.emit
              rw [downloads_append, h1]
              rfl
            rcases x.host.fetch s1.world.trace (metadataURL x.cfg.remoteMetadataURL role (metaVersion s.trusted f)) (metaLength f x.cfg.targetsMaxLength) with e | d
            · exact one _ _ (hd _)
            · dsimp only
              rw [SM.bind_apply, onTrusted_apply]
              dsimp only
              rcases s1.trusted.updateDelegatedTargets x.env d role parent with ⟨r, t⟩
              cases r with
              | panic => exact one _ _ (hd _)
              | err e => exact one _ _ (hd _)
              | ok m' =>
                dsimp only
                obtain ⟨evs, h2, h3⟩ := persist_downloads x role d ⟨t, s1.world.emit (.fetch (metadataURL x.cfg.remoteMetadataURL role (metaVersion s.trusted f)) (metaLength f x.cfg.targetsMaxLength) (.ok d))⟩
                refine one _ (.ok d) ?_
                rw [SM.bind_apply]
                rcases hp : onWorld (persistMetadata x role d) ⟨t, s1.world.emit (.fetch (metadataURL x.cfg.remoteMetadataURL role (metaVersion s.trusted f)) (metaLength f x.cfg.targetsMaxLength) (.ok d))⟩ with ⟨r, s2⟩
                rw [hp] at h2
                have h4 : downloads s2.world.trace = downloads s.world.trace ++ [(metadataURL x.cfg.remoteMetadataURL role (metaVersion s.trusted f), metaLength f x.cfg.targetsMaxLength, .ok d)] := by
                  rw [h2, downloads_append, h3, List.append_nil]
                  exact hd _
                cases r <;> exact h4
          · exact none' s1 h1
          · exact none' s1 h1
  · exact none' s rfl

theorem askedFor_append {a b : List Visit} {d e : List (Str × Int × Except Err Bytes)} (h : AskedFor x a d) (h' : AskedFor x b e) : AskedFor x (a ++ b) (d ++ e) := by
  induction h with
  | nil => exact h'
  | cons h1 h2 h3 h4 _ ih => exact .cons h1 h2 h3 h4 ih

theorem search_asks (hread : ∀ tr p, x.host.readFails tr p = false) {k : Nat} {agenda : List (Str × Str)} {seen : List Str} {s s' : St} {vs : List Visit} {out : Res (Option TargetFiles)}
    (h : Search x path k agenda seen s vs out s') :
    ∃ asked ds, downloads s'.world.trace = downloads s.world.trace ++ ds ∧ asked.Sublist vs ∧ AskedFor x asked ds := by
  induction h with
  | limit => exact ⟨[], [], by simp, List.nil_sublist _, .nil⟩
  | empty => exact ⟨[], [], by simp, List.nil_sublist _, .nil⟩
  | skip _ _ ih => exact ih
  | @failed k role parent _ _ s s' _ _ _ h1 =>
    have := loadTargets_asks hread role parent s none
    rwa [h1] at this
  | @found k role parent _ _ s s' m _ _ h1 =>
    have := loadTargets_asks hread role parent s (some m)
    rwa [h1] at this
  | @crash k role parent _ _ s s' m _ h1 =>
    have := loadTargets_asks hread role parent s (some m)
    rwa [h1] at this
  | @next k role parent _ _ s s1 s2 s' m _ _ vs _ _ h1 _ _ _ _ hd _ ih =>
    obtain ⟨a1, d1, i1, i2, i3⟩ := ih
    obtain ⟨a0, d0, j1, j2, j3⟩ := loadTargets_asks hread role parent s (some m)
    rw [h1] at j1
    refine ⟨a0 ++ a1, d0 ++ d1, ?_, ?_, askedFor_append j3 i3⟩
    · rw [i1, hd, j1, List.append_assoc]
    · exact List.Sublist.append j2 i2

end

/-- C149 for a lookup: once top-level targets are trusted, `GetTargetInfo` downloads metadata only for visited roles that are neither trusted nor cached in a file that is acceptable by then; once for
each such role, in the order of the visits, under the name with the version that the trusted snapshot lists. -/
theorem C149_lookup {x : Ctx} {path : Str} (hread : ∀ tr p, x.host.readFails tr p = false) {s : St} (h : (s.trusted.targets.get? b!"targets").isSome) :
    ∃ vs, SearchRun x path s vs (getTargetInfo x path s).1 (getTargetInfo x path s).2 ∧
      ∃ asked ds, downloads (getTargetInfo x path s).2.world.trace = downloads s.world.trace ++ ds ∧ asked.Sublist vs ∧ AskedFor x asked ds := by
  obtain ⟨vs, hr⟩ := getTargetInfo_run (x := x) (path := path) s
  refine ⟨vs, hr, ?_⟩
  cases hr with
  | direct _ h => exact search_asks hread h
  | refreshed hn => rw [hn] at h; cases h
  | notRefreshed hn => rw [hn] at h; cases h

namespace Sample

/-- Two clients one after the other, the second on the files of the first: what the calls return and what is asked for. -/
def runTwice {α : Type} (x y : Ctx) (roles : List Str) (f g : Ctx → M α) : Res α × List Str × Res α × List Str :=
  let first := session x [] (f x)
  let kept := roles.filterMap (fun r => (fileAt first.2 (b!"m/" ++ r ++ b!".json")).map (b!"m/" ++ r ++ b!".json", ·))
  let second := session y kept (g y)
  (first.1, urls first.2, second.1, urls second.2)

end Sample

/-- Cases of C149: the first run downloads all of the metadata, the second asks for the next root and the timestamp. -/
example : runTwice ctx ctx [b!"root", b!"timestamp", b!"snapshot", b!"targets"] refresh refresh =
    (.ok (), [b!"u/2.root.json", b!"u/timestamp.json", b!"u/4.snapshot.json", b!"u/4.targets.json"], .ok (), [b!"u/2.root.json", b!"u/timestamp.json"]) := by decide +kernel

example : (fun r => (r.2.1, r.2.2.2)) (runTwice ctx ctx [b!"root", b!"timestamp", b!"snapshot", b!"targets", b!"d"] (getTargetInfo · b!"d/g") (getTargetInfo · b!"d/g")) =
    ([b!"u/2.root.json", b!"u/timestamp.json", b!"u/4.snapshot.json", b!"u/4.targets.json", b!"u/4.d.json"], [b!"u/2.root.json", b!"u/timestamp.json"]) := by decide +kernel

end Tuf
