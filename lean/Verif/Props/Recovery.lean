import Verif.Props.Follow
import Verif.Props.Cache
import Verif.Spec.Recovery

/-!
# Recovery from stolen keys (C113)
-/

namespace Tuf
open Spec

theorem verifies_carries {env : Env} {D d : AnyMeta} {role : Str} (h : Verifies env D role d) : ∃ sigs p, Carries d sigs p := by
  obtain ⟨keys, ids, t, _, hne, hdec, _⟩ := h
  cases ids with
  | nil => exact absurd rfl hne
  | cons id ids =>
    obtain ⟨pk, hf, s, p, h1, _⟩ := hdec id (by simp)
    obtain ⟨key, sigs, _, _, h2, _⟩ := h1
    exact ⟨sigs, p, h2⟩

section
variable {env : Env} {t : Trusted} {now : Time} {r : RootType} {new : Files} {d : Bytes}

theorem disowned_refused {T : Type} [RoleType T] {role type : Str} {m : Metadata T} {ss : List Signer} (hroot : t.root.signed = readRoot r)
    (hs : Suffice env (.root { signed := r }) role ss) (h : Disowned env t.root role m type d) : ∃ msg, verifyDelegate env (.root t.root) role (RoleType.any m) = .err (.unsignedMetadata msg) := by
  obtain ⟨old, ho⟩ := h.once
  obtain ⟨sigs, p, hc⟩ := verifies_carries ho
  rcases verifyDelegate_decides (suffice_root (m' := t.root) hroot hs) hc with hv | hv
  · exact absurd (C02_exact_rule.1 hv) h.notNow
  · exact hv

theorem disowned_timestamp {dts : Bytes} {mts m : Metadata TimestampType} (hnew : Released env now r new) (hroot : t.root.signed = readRoot r)
    (h1 : t.timestamp = none) (h2 : t.snapshot = none) (hnow : t.refTime = now) (h : Disowned env t.root b!"timestamp" m m.signed.type d) : HarmlessTimestamp env t dts mts d := by
  obtain ⟨ss', _, hs'⟩ := hnew.timestamp
  obtain ⟨msg, hv⟩ := disowned_refused hroot hs' h
  have hx : isExpired t.root.signed.expires t.refTime = false := isExpired_false.2 (by rw [hroot, hnow]; exact hnew.rootFresh)
  refine .inl ⟨.unsignedMetadata msg, ?_, rfl⟩
  unfold Trusted.updateTimestamp
  have heq : t.checkTimestamp env d = (verifyDelegate env (.root t.root) TIMESTAMP (.timestamp m)).bind (fun _ => .ok m) := by
    unfold Trusted.checkTimestamp
    rw [h2, if_neg (by simp), if_neg (by rw [hx]; simp), h.parsed]
    show (if m.signed.type ≠ TIMESTAMP then _ else _) = _
    rw [if_neg (fun hc => hc h.typed), h1]
    rfl
  change verifyDelegate env (.root t.root) TIMESTAMP (.timestamp m) = _ at hv
  rw [heq, hv]
  rfl

theorem disowned_snapshot {dsn : Bytes} {f : MetaFiles} {msn m : Metadata SnapshotType} (hnew : Released env now r new) (hroot : t.root.signed = readRoot r)
    (h3 : t.targets = []) (hnow : t.refTime = now) {mts : Metadata TimestampType} (hts : mts.signed = viewTimestamp new.ts)
    (h : Disowned env t.root b!"snapshot" m m.signed.type d) : HarmlessSnapshot env { t with timestamp := some mts } f dsn msn d := by
  obtain ⟨ss', _, hs'⟩ := hnew.snapshot
  obtain ⟨msg, hv⟩ := disowned_refused hroot hs' h
  have hx : isExpired mts.signed.expires t.refTime = false := isExpired_false.2 (by rw [hts, hnow]; exact hnew.timestampFresh)
  refine .inl ⟨.unsignedMetadata msg, ?_, rfl⟩
  unfold Trusted.updateSnapshot
  have heq : ({ t with timestamp := some mts } : Trusted).checkSnapshot env d true = .err (.unsignedMetadata msg) := by
    unfold Trusted.checkSnapshot
    dsimp only
    rw [h3, if_neg (by simp [Entries.get?])]
    have hf : ({ root := t.root, snapshot := t.snapshot, timestamp := some mts, targets := [], refTime := t.refTime } : Trusted).checkFinalTimestamp = .ok () := by
      simp [Trusted.checkFinalTimestamp, Res.deref, hx]
    rw [hf, Res.bind_ok, if_neg (by simp), h.parsed]
    show (if m.signed.type ≠ SNAPSHOT then _ else _) = _
    rw [if_neg (fun hc => hc h.typed)]
    change verifyDelegate env (.root t.root) SNAPSHOT (.snapshot m) = _ at hv
    rw [hv]
    rfl
  rw [heq]

theorem disowned_targets (hnew : Released env now r new) (hroot : t.root.signed = readRoot r) (hnow : t.refTime = now) {mts : Metadata TimestampType} {msn : Metadata SnapshotType}
    {m : Metadata TargetsType} (hts : mts.signed = viewTimestamp new.ts) (hsn : msn.signed = viewSnapshot new.sn) (h : Disowned env t.root b!"targets" m m.signed.type d) :
    HarmlessTargets env { t with timestamp := some mts, snapshot := some msn } d ∧
    ∀ m, ¬ TargetsAccepted env { t with timestamp := some mts, snapshot := some msn } d b!"targets" b!"root" m := by
  obtain ⟨ss', _, hs'⟩ := hnew.targets
  obtain ⟨msg, hv⟩ := disowned_refused hroot hs' h
  change verifyDelegate env (.root t.root) TARGETS (.targets m) = _ at hv
  have g2 : msn.signed.metas.get? b!"targets.json" = some (some (viewMeta new.ftg)) := by rw [hsn]; exact mapValues_get? hnew.targetsListed.1
  generalize ht' : ({ t with timestamp := some mts, snapshot := some msn } : Trusted) = t' at *
  have e1 : t'.snapshot = some msn := by rw [← ht']
  have e2 : t'.root = t.root := by rw [← ht']
  have e3 : t'.refTime = t.refTime := by rw [← ht']
  have e4 : t'.timestamp = some mts := by rw [← ht']
  have hfin : t'.checkFinalSnapshot = .ok () := by
    refine checkFinalSnapshot_ok.2 ⟨msn, mts, e1, e4, by rw [hsn, e3, hnow]; exact hnew.snapshotFresh, ?_⟩
    rw [hts, hsn]
    exact lists_view ⟨_, hnew.snapshotListed.1, hnew.snapshotListed.2.1⟩
  have key : ∃ e, t'.checkTargets env d TARGETS ROOT = .err e ∧ e.isRepository = true := by
    unfold Trusted.checkTargets
    rw [e1]
    dsimp only
    rw [hfin, Res.bind_ok]
    have hdel : t'.delegator ROOT = some (.root t.root) := by unfold Trusted.delegator; rw [if_pos rfl, e2]
    rw [hdel]
    dsimp only
    have g2' : msn.signed.metas.get? (jsonName TARGETS) = some (some (viewMeta new.ftg)) := g2
    rw [g2']
    dsimp only [Res.deref]
    rw [Res.bind_ok]
    by_cases hm : (viewMeta new.ftg).verifyLengthHashes env d = .ok ()
    · rw [hm, Res.bind_ok, h.parsed]
      show ∃ e, (if m.signed.type ≠ TARGETS then _ else _) = _ ∧ _
      rw [if_neg (fun hc => hc h.typed), hv]
      exact ⟨_, rfl, rfl⟩
    · obtain ⟨msg, hm⟩ := metaVerify_err (fun hk => hm (metaVerify_ok.2 hk))
      rw [hm]
      exact ⟨_, rfl, rfl⟩
  obtain ⟨e, h1, h2⟩ := key
  constructor
  · refine .inl ⟨e, ?_, h2⟩
    unfold Trusted.updateDelegatedTargets
    change t'.checkTargets env d b!"targets" b!"root" = _ at h1
    rw [h1]
  · intro m' hm'
    have h3 := checkTargets_ok.2 hm'
    change t'.checkTargets env d b!"targets" b!"root" = _ at h1
    rw [h1] at h3
    cases h3

end

section
variable {x : Ctx} {srv : Str → Int → Except Err Bytes} {now : Time} {r : RootType} {new : Files} {t : Trusted}

/-- C113: whatever documents a thief of keys brought into the cache, with whatever versions: once the root that the client is led to disowns them, the client refreshes
successfully to the current release and then trusts exactly what was published. -/
theorem C113_recovers_partial (laws : EnvLaws x.env) (h : Released x.env now r new) (hv : ServingFiles x srv r new) (hu : x.cfg.unsafeLocalMode = false)
    (hs : Serves x.host srv) (hd : x.cfg.disableLocalCache = true ∨ GoodDisk x.host) {s : St} (hw : NoTemps s.world.fs)
    (hm : 0 ≤ x.cfg.maxRootRotations ∧ wrap64 (s.trusted.root.signed.version + 1) + x.cfg.maxRootRotations < 2 ^ 63)
    (hroots : RootsLeadTo x srv x.cfg.maxRootRotations.toNat s.trusted t) (hroot : t.root.signed = readRoot r)
    (hts : s.trusted.timestamp = none) (hsn : s.trusted.snapshot = none) (htg : s.trusted.targets = []) (hnow : s.trusted.refTime = now)
    (hcache : CacheRecoverable x.env x.cfg.localMetadataDir s.world.fs t.root new) :
    ∃ mts msn mtg s', refresh x s = (.ok (), s') ∧ s'.trusted = { t with timestamp := some mts, snapshot := some msn, targets := [(b!"targets", mtg)] } ∧
      mts.signed = viewTimestamp new.ts ∧ msn.signed = viewSnapshot new.sn ∧ mtg.signed = readTargets new.tg := by
  obtain ⟨k1, k2, k3, k4⟩ := rootsLeadTo_keeps hroots
  obtain ⟨mts, msn, mtg, a, b, c, hvu⟩ := release_update laws h hroot (k1.trans hts) (k2.trans hsn) (k3.trans htg) (k4.trans hnow) hv
  obtain ⟨m, s', p1, p2, p3, p4⟩ := refresh_progress hu hs hd hw hts hsn hm hroots hvu
    (by
      intro d hfs
      rcases hcache.timestamp d hfs with ⟨R, q1, q2, q3⟩ | ⟨m, q⟩
      · exact old_timestamp laws q1 q2 h hroot (k1.trans hts) (k2.trans hsn) (k4.trans hnow) a hvu.timestampOk q3
      · exact disowned_timestamp h hroot (k1.trans hts) (k2.trans hsn) (k4.trans hnow) q)
    (by
      intro d hfs
      rcases hcache.snapshot d hfs with ⟨R, q1, q2, q3⟩ | ⟨m, q⟩
      · exact old_snapshot laws q1 q2 h hroot (k2.trans hsn) (k3.trans htg) (k4.trans hnow) a b hvu.snapshotOk q3
      · exact disowned_snapshot h hroot (k3.trans htg) (k4.trans hnow) a q)
    (by
      intro d hfs
      rcases hcache.targets d hfs with ⟨R, q1, q2, q3⟩ | ⟨m, q⟩
      · exact (old_targets laws q1 q2 h hroot (k4.trans hnow) a b hvu.targetsOk q3).1
      · exact (disowned_targets h hroot (k4.trans hnow) a b q).1)
  have hmm : m = mtg := by
    rcases p3 with p3 | ⟨d, hfs, p3⟩
    · exact p3
    · rcases hcache.targets d hfs with ⟨R, q1, q2, q3⟩ | ⟨m', q⟩
      · exact (old_targets laws q1 q2 h hroot (k4.trans hnow) a b hvu.targetsOk q3).2 m p3
      · exact absurd p3 ((disowned_targets h hroot (k4.trans hnow) a b q).2 m)
  refine ⟨mts, msn, mtg, s', p1, ?_, a, b, c⟩
  rw [p2, hmm, k3, htg]
  rfl

/-- C113 after an attack: a client refreshed while keys were stolen, so that its cache has the thief's metadata. If the repository then exchanges the keys of the three roles,
so that the new root disowns these metadata, a later client on the same cache refreshes successfully to the current release. -/
theorem C113_after_attack_partial (laws : EnvLaws x.env) {x0 : Ctx} (henv : x0.env = x.env) (hdir : x0.cfg.localMetadataDir = x.cfg.localMetadataDir)
    (hd0 : x0.cfg.disableLocalCache = false) (hu0 : x0.cfg.unsafeLocalMode = false) {now0 : Time} {w0 : World} {t0 : Trusted} {s0 : St}
    (h0 : Trusted.new x0.env now0 x0.cfg.localTrustedRoot = .ok t0) (hr0 : refresh x0 ⟨t0, w0⟩ = (.ok (), s0))
    (hts0 : ∀ ts, s0.trusted.timestamp = some ts → ¬ Verifies x.env (.root t.root) b!"timestamp" (.timestamp ts))
    (hsn0 : ∀ sn, s0.trusted.snapshot = some sn → ¬ Verifies x.env (.root t.root) b!"snapshot" (.snapshot sn))
    (htg0 : ∀ tg, s0.trusted.targets.get? b!"targets" = some tg → ¬ Verifies x.env (.root t.root) b!"targets" (.targets tg))
    (h : Released x.env now r new) (hv : ServingFiles x srv r new) (hu : x.cfg.unsafeLocalMode = false)
    (hs : Serves x.host srv) (hd : x.cfg.disableLocalCache = true ∨ GoodDisk x.host) {s : St} (hw : NoTemps s.world.fs)
    (hm : 0 ≤ x.cfg.maxRootRotations ∧ wrap64 (s.trusted.root.signed.version + 1) + x.cfg.maxRootRotations < 2 ^ 63)
    (hroots : RootsLeadTo x srv x.cfg.maxRootRotations.toNat s.trusted t) (hroot : t.root.signed = readRoot r)
    (hts : s.trusted.timestamp = none) (hsn : s.trusted.snapshot = none) (htg : s.trusted.targets = []) (hnow : s.trusted.refTime = now)
    (hfs : ∀ name ∈ [b!"timestamp.json", b!"snapshot.json", b!"targets.json"],
      s.world.fs (joinPath x.cfg.localMetadataDir name) = s0.world.fs (joinPath x.cfg.localMetadataDir name)) :
    ∃ mts msn mtg s', refresh x s = (.ok (), s') ∧ s'.trusted = { t with timestamp := some mts, snapshot := some msn, targets := [(b!"targets", mtg)] } ∧
      mts.signed = viewTimestamp new.ts ∧ msn.signed = viewSnapshot new.sn ∧ mtg.signed = readTargets new.tg := by
  obtain ⟨_, _, _, q1, q2, q3, _⟩ := new_root h0
  have hc := C24_refresh_complete h0 (w := w0) .refl hr0
  obtain ⟨ts, sn, tg, c1, c2, c3, _, _, _, c4, c5, c6, _⟩ := hc.roles
  obtain ⟨⟨d1, m1, f1, g1, p1⟩, ⟨d2, m2, f2, g2, p2⟩, ⟨d3, m3, f3, g3, p3⟩, _⟩ := C79_cache_mirrors hu0 hd0 q1 hr0
  have hses := session_history (Session.step .refresh .refl : Session x0 ⟨t0, w0⟩ _)
  have hhist : ClientHistory x0.env t0 s0.trusted := by
    have e : (Api.run x0 ⟨t0, w0⟩ .refresh).2 = s0 := by
      show (refresh x0 ⟨t0, w0⟩).2 = s0
      rw [hr0]
    rw [e] at hses
    exact hses
  obtain ⟨_, y1, y2, y3⟩ := C19_trusted_types h0 hhist.history
  rw [g1] at c1; cases c1
  rw [g2] at c2; cases c2
  rw [g3] at c3; cases c3
  rw [hdir] at f1 f2 f3
  rw [henv] at c4 c5 c6 p1 p2 p3
  refine C113_recovers_partial laws h hv hu hs hd hw hm hroots hroot hts hsn htg hnow ⟨fun d hd => .inr ?_, fun d hd => .inr ?_, fun d hd => .inr ?_⟩
  · rw [hfs _ (by simp), f1] at hd
    cases hd
    exact ⟨_, p1, y1 _ g1, ⟨_, c4⟩, hts0 _ g1⟩
  · rw [hfs _ (by simp), f2] at hd
    cases hd
    exact ⟨_, p2, y2 _ g2, ⟨_, c5⟩, hsn0 _ g2⟩
  · rw [hfs _ (by simp), f3] at hd
    cases hd
    exact ⟨_, p3, y3 _ _ g3, ⟨_, c6⟩, htg0 _ g3⟩

end

end Tuf
