import Verif.Props.Sound
import Verif.Props.Cache
import Verif.Props.Progress

/-! # What was refreshed can be used offline (C92) -/

namespace Tuf
open Spec Sample

variable {x : Ctx}

/-- The cached targets file is what the trusted set accepted. -/
theorem loadTargets_cachedAccepted (hd : x.cfg.disableLocalCache = false) {s s' : St} {m : Metadata TargetsType}
    (h : loadTargets x TARGETS ROOT s = (.ok m, s')) (hn : s.trusted.targets.get? TARGETS = none) :
    ∃ d t, s'.world.fs (localPath x.cfg TARGETS) = some d ∧ TargetsAccepted x.env t d TARGETS ROOT m ∧ t = s.trusted ∧ s'.trusted = { t with targets := t.targets.set TARGETS m } := by
  unfold loadTargets at h
  obtain ⟨t, s0, h0, h⟩ := SM.bind_eq_ok.1 h
  cases h0
  rw [hn] at h
  obtain ⟨o, s1, h1, h⟩ := SM.bind_eq_ok.1 h
  cases o with
  | some r =>
    cases h
    obtain ⟨d, h5, h6⟩ := tryLocal_some h1
    obtain ⟨ha, hb⟩ := updateTargets_ok h6
    exact ⟨d, _, by rw [tryLocal_fs h1]; exact h5, ha, rfl, hb⟩
  | none =>
    obtain ⟨t, s2, h2, h⟩ := SM.bind_eq_ok.1 h
    cases h2
    cases hsn : s1.trusted.snapshot with
    | none => rw [hsn] at h; cases h
    | some sn =>
      rw [hsn] at h
      obtain ⟨f, s3, h3, h⟩ := SM.bind_eq_ok.1 h
      obtain ⟨_, rfl⟩ := lift_ok h3
      obtain ⟨data, s4, h4, h⟩ := SM.bind_eq_ok.1 h
      obtain ⟨m', s5, h5, h⟩ := SM.bind_eq_ok.1 h
      obtain ⟨_, s6, h6, h⟩ := SM.bind_eq_ok.1 h
      cases h
      obtain ⟨ha, hb⟩ := updateTargets_ok (onTrusted_ok h5).1
      exact ⟨data, _, persist_local (by decide) hd h6, ha, (onWorld_trusted h4).trans (tryLocal_targets_none h1), by rw [onWorld_trusted h6]; exact hb⟩

/-- A local refresh with files that are accepted one after the other. -/
theorem localRefresh_ok {y : Ctx} (hu : y.cfg.unsafeLocalMode = true) (hread : ∀ tr p, y.host.readFails tr p = false) {r : St} {d1 d2 d3 : Bytes}
    (f1 : r.world.fs (localPath y.cfg TIMESTAMP) = some d1) (f2 : r.world.fs (localPath y.cfg SNAPSHOT) = some d2) (f3 : r.world.fs (localPath y.cfg TARGETS) = some d3)
    {ts : Metadata TimestampType} {sn : Metadata SnapshotType} {tg : Metadata TargetsType} {t1 t2 t3 : Trusted}
    (h1 : r.trusted.updateTimestamp y.env d1 = (.ok ts, t1)) (h2 : t1.updateSnapshot y.env d2 false = (.ok sn, t2))
    (h3 : t2.updateDelegatedTargets y.env d3 TARGETS ROOT = (.ok tg, t3)) : ∃ r', refresh y r = (.ok (), r') ∧ r'.trusted = t3 := by
  have hrd : ∀ (s : St) (role : Str) (d : Bytes), s.world.fs (localPath y.cfg role) = some d →
      onWorld (loadLocalMetadata y role) s = (.ok d, { s with world := s.world.emit (.read (localPath y.cfg role) (some d)) }) := by
    intro s role d hf
    rw [onWorld_apply]
    unfold loadLocalMetadata readFile
    simp [hread, hf]
  unfold refresh
  rw [if_pos hu]
  unfold unsafeLocalRefresh
  have hup : ∀ {α : Type} (s : St) (f : Trusted → Res α × Trusted) (a : α) (t : Trusted), f s.trusted = (.ok a, t) → onTrusted f s = (.ok a, ⟨t, s.world⟩) := by
    intro α s f a t hf
    rw [onTrusted_apply, hf]
  let w1 := r.world.emit (.read (localPath y.cfg TIMESTAMP) (some d1))
  let w2 := w1.emit (.read (localPath y.cfg SNAPSHOT) (some d2))
  have g2 : w1.fs (localPath y.cfg SNAPSHOT) = some d2 := f2
  have g3 : w2.fs (localPath y.cfg TARGETS) = some d3 := f3
  rw [SM.bind_ok (hrd r _ d1 f1), SM.bind_ok (hup _ _ ts t1 h1), SM.bind_ok (hrd ⟨t1, w1⟩ _ d2 g2), SM.bind_ok (hup _ _ sn t2 h2),
    SM.bind_ok (hrd ⟨t2, w2⟩ _ d3 g3), SM.bind_ok (hup _ _ tg t3 h3)]
  exact ⟨_, rfl, rfl⟩

/-- C92, provided the cached snapshot has the length and hashes that the timestamp lists: after `New` and a successful online `Refresh` with caching on, a client that is started
with the cached root in local mode, at any time when the four documents are unexpired, refreshes without the network and trusts exactly the same metadata. -/
theorem C92_offline_partial {x y : Ctx} (he : y.env = x.env) (hdir : y.cfg.localMetadataDir = x.cfg.localMetadataDir) (hux : x.cfg.unsafeLocalMode = false)
    (huy : y.cfg.unsafeLocalMode = true) (hd : x.cfg.disableLocalCache = false) {now now' : Time} {t0 : Trusted} {w w' : World} {s' : St}
    (h0 : Trusted.new x.env now x.cfg.localTrustedRoot = .ok t0) (hroot : w.fs (joinPath x.cfg.localMetadataDir b!"root.json") = some x.cfg.localTrustedRoot)
    (h : refresh x ⟨t0, w⟩ = (.ok (), s')) (hfs : w'.fs = s'.world.fs) (hread : ∀ tr p, y.host.readFails tr p = false)
    {ts : Metadata TimestampType} {sn : Metadata SnapshotType} {tg : Metadata TargetsType}
    (hts : s'.trusted.timestamp = some ts) (hsn : s'.trusted.snapshot = some sn) (htg : s'.trusted.targets.get? b!"targets" = some tg)
    (e1 : ¬ Expired s'.trusted.root.signed.expires now') (e2 : ¬ Expired ts.signed.expires now') (e3 : ¬ Expired sn.signed.expires now') (e4 : ¬ Expired tg.signed.expires now')
    (hmatch : ∀ d, s'.world.fs (joinPath x.cfg.localMetadataDir b!"snapshot.json") = some d → ∀ f, ts.signed.metas.get? b!"snapshot.json" = some (some f) → MetaMatches x.env f d) :
    ∃ d t r', w'.fs (joinPath x.cfg.localMetadataDir b!"root.json") = some d ∧ Trusted.new y.env now' d = .ok t ∧ refresh y ⟨t, w'⟩ = (.ok (), r') ∧
      r'.trusted = { s'.trusted with refTime := now' } := by
  obtain ⟨_, _, _, n1, n2, n3, _⟩ := new_root h0
  obtain ⟨⟨dts, ts', b1, b2, b3⟩, ⟨dsn, sn', b4, b5, b6⟩, _, b7⟩ := C79_cache_mirrors hux hd n1 h
  rw [hts] at b2; cases b2
  rw [hsn] at b5; cases b5
  obtain ⟨droot, b8, b9⟩ := b7 ⟨_, hroot, (new_root h0).1⟩
  obtain ⟨s1, s2, s3, m, p1, p2, p3, p4⟩ := refresh_parts hux h
  have hn : s3.trusted.targets.get? TARGETS = none := by
    obtain ⟨t1, d, b, m, h5, _⟩ := loadSnapshot_ok p3
    obtain ⟨h6, _, h7⟩ := updateSnapshot_ok h5
    rw [h7]; exact h6.early
  obtain ⟨dtg, t3, c1, c2, c4, c3⟩ := loadTargets_cachedAccepted hd p4 hn
  have hsess : Session x ⟨t0, w⟩ s' := by
    have := (Session.refl (x := x) (s := ⟨t0, w⟩)).step .refresh
    simp only [Api.run, h] at this
    exact this
  have hsound := C82_always_sound h0 hsess
  obtain ⟨_, v2⟩ := hsound.timestamp ts hts
  obtain ⟨_, v3⟩ := hsound.snapshot sn hsn
  obtain ⟨sn1, ts1, f1, D1, g1, g2, g3, g4, g5, g6, g7, g8, g9⟩ := c2.snapshot
  have q1 : t3.timestamp = some ts := by rw [c3] at hts; exact hts
  have q2 : t3.snapshot = some sn := by rw [c3] at hsn; exact hsn
  have q3 : t3.root = s'.trusted.root := by rw [c3]
  rw [q2] at g1; cases g1
  rw [q1] at g2; cases g2
  have q4 : m = tg := by
    rw [c3] at htg
    have := (Entries.get?_set_self t3.targets TARGETS m).symm.trans htg
    cases this; rfl
  subst q4
  have hD : D1 = .root s'.trusted.root := by
    cases g8 with
    | root => rw [q3]
    | targets h _ => exact absurd rfl h
  subst hD
  have hmts : ts.signed.type = TIMESTAMP := by
    have k1 := loadRoot_keeps p1
    have k3 := loadSnapshot_keeps (x := x) s2
    have k4 := loadTargets_keeps (x := x) TARGETS ROOT s3
    rw [p3] at k3; rw [p4] at k4
    obtain ⟨_, _, _, i3⟩ := loadTimestamp_cached hd p2 (by rw [k1]; exact n1) (ts := ts) ((k4.2.1.trans k3.2.1).symm.trans hts)
    exact i3
  have hmsn : sn.signed.type = SNAPSHOT := by
    have k4 := loadTargets_keeps (x := x) TARGETS ROOT s3
    rw [p4] at k4
    obtain ⟨_, sn'', j1, _, _, j4⟩ := loadSnapshot_cached hd p3
    have := (k4.2.2.1.trans j1).symm.trans hsn
    cases this
    exact j4
  have htroot : s'.trusted.root.signed.type = b!"root" := by
    have : ∀ {t : Trusted}, History x.env t0 t → t.root.signed.type = b!"root" := by
      intro t ht
      induction ht with
      | refl => exact (new_root h0).2.1
      | @step t' c _ ih =>
        have key := run_change x.env t' c
        revert key
        generalize (c.run x.env t').2 = t''
        intro key
        cases key with
        | none => exact ih
        | root hr => exact hr.type
        | timestamp _ => exact ih
        | snapshot _ => exact ih
        | targets _ => exact ih
    exact this (session_history hsess).history
  have hts0 : s'.trusted.targets = [(b!"targets", m)] := by
    have hx : t3.targets = [] := by
      have k1 := loadRoot_keeps p1
      have k2 := loadTimestamp_keeps (x := x) s1
      have k3 := loadSnapshot_keeps (x := x) s2
      rw [p2] at k2; rw [p3] at k3
      rw [c4]
      refine k3.2.2.1.trans (k2.2.2.1.trans ?_)
      rw [k1]
      exact n3
    rw [c3, hx]; rfl
  obtain ⟨f2, g10, g11⟩ := g4
  let T0 : Trusted := { root := s'.trusted.root, refTime := now' }
  have u1 : TimestampAccepted x.env T0 dts ts := ⟨rfl, e1, b3, hmts, v2, nofun, nofun⟩
  have u2 : SnapshotAccepted x.env { T0 with timestamp := some ts } dsn false sn :=
    ⟨⟨ts, rfl, e2, fun _ => ⟨f2, g10, hmatch _ b4 _ g10⟩⟩, rfl, b6, hmsn, v3, nofun⟩
  have u3 : TargetsAccepted x.env { T0 with timestamp := some ts, snapshot := some sn } dtg TARGETS ROOT m :=
    ⟨⟨sn, ts, f1, .root s'.trusted.root, rfl, rfl, e3, ⟨f2, g10, g11⟩, g5, g6, g7, .root, g9⟩, c2.parsed, c2.type, e4⟩
  have w1 : T0.updateTimestamp x.env dts = (.ok ts, { T0 with timestamp := some ts }) := Prod.ext (C78_timestamp.2 ⟨u1, e2⟩) (updateTimestamp_stores u1)
  have w2 : ({ T0 with timestamp := some ts } : Trusted).updateSnapshot x.env dsn false = (.ok sn, { T0 with timestamp := some ts, snapshot := some sn }) :=
    Prod.ext (C78_snapshot.2 ⟨u2, e3, ts, rfl, f2, g10, g11⟩) (updateSnapshot_stores u2)
  have w3 := updateTargets_accepts u3
  have c := cacheFile x
  have c' := cacheFile y
  rw [hdir] at c'
  obtain ⟨r', z1, z2⟩ := localRefresh_ok (y := y) (r := ⟨T0, w'⟩) huy hread (d1 := dts) (d2 := dsn) (d3 := dtg) (by rw [c'.1, hfs]; exact b1) (by rw [c'.2.1, hfs]; exact b4)
    (by rw [c'.2.2.1, ← c.2.2.1, hfs]; exact c1) (by rw [he]; exact w1) (by rw [he]; exact w2) (by rw [he]; exact w3)
  refine ⟨droot, T0, r', by rw [hfs]; exact b8, C78_new.2 ⟨_, by rw [he]; exact b9, htroot, by rw [he]; exact hsound.root, rfl⟩, z1, ?_⟩
  rw [z2]
  have : s'.trusted = { root := s'.trusted.root, timestamp := some ts, snapshot := some sn, targets := [(b!"targets", m)], refTime := s'.trusted.refTime } := by
    rw [← hts, ← hsn, ← hts0]
  rw [this]
  rfl

namespace Sample

/-- Refresh online, then start again in local mode on the files; versions that are trusted in the end. -/
def onlineThenLocal (x : Ctx) (files : List (Str × Bytes)) : Res Unit × Res Unit × Option (Int × Option Int × Option Int × Option Int) :=
  let first := session x files (refresh x)
  let y : Ctx := { x with cfg := { x.cfg with unsafeLocalMode := true } }
  let kept := [b!"m/root.json", b!"m/timestamp.json", b!"m/snapshot.json", b!"m/targets.json"].filterMap (fun p => (fileAt first.2 p).map (p, ·))
  let second := session y kept (refresh y)
  (first.1, second.1, second.2.map (fun s => versions s.trusted))

end Sample

/-- A case of C92: the sample repository lists no hash of the snapshot. -/
example : (onlineThenLocal ctx []).1 = .ok () ∧ (onlineThenLocal ctx []).2.1 = .ok () ∧ (onlineThenLocal ctx []).2.2 = some (1, some 4, some 4, some 4) := by decide +kernel

namespace Sample

/-- The timestamp lists the hash of the snapshot `[3, 4]`; `[3, 3, 4]` is another document that says the same. -/
def hashedCtx : Ctx :=
  { ctx with env := { repoEnv with parse := fun b => match b with
      | [2, 4] => some (doc TIMESTAMP 4 b!"2030" [(b!"meta", .obj [(b!"snapshot.json",
          .obj [(b!"version", .num 4), (b!"hashes", .obj [(b!"sha256", .str (hexEncode (digest [3, 4])))])])])])
      | [3, 3, 4] => some (snapshotDoc 4)
      | b => repoEnv.parse b } }

end Sample

/-- C92 is false: online, a cached snapshot is accepted without a look at the length and the hashes in the timestamp; in local mode the same file is rejected. -/
theorem C92_false : (onlineThenLocal hashedCtx [(b!"m/snapshot.json", [3, 3, 4])]).1 = .ok () ∧
    (onlineThenLocal hashedCtx [(b!"m/snapshot.json", [3, 3, 4])]).2.1 = .err (.lengthOrHashMismatch "hash") ∧
    (onlineThenLocal hashedCtx []).1 = .ok () ∧ (onlineThenLocal hashedCtx []).2.1 = .ok () := by decide +kernel

end Tuf
