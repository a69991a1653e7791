import Verif.Props.Attack
import Verif.Props.TopLevel

/-!
# Refreshing again after a failed refresh (C145)
-/

namespace Tuf
open Spec

section
variable {x : Ctx} {srv : Str → Int → Except Err Bytes} {now : Time} {r : RootType} {new : Files} {t : Trusted} {env : Env}

/-- The timestamp says what the timestamp of an earlier release says. -/
def SaysEarlier (env : Env) (new : Files) (m : Metadata TimestampType) : Prop :=
  ∃ R, WasReleased env R ∧ MayFollow R new ∧ viewTimestamp m.signed = viewTimestamp R.ts

theorem SaysEarlier.lists {m : Metadata TimestampType} (h : SaysEarlier env new m) : ∃ f, m.signed.metas.get? b!"snapshot.json" = some (some f) ∧ f.version ≤ new.fsn.version := by
  obtain ⟨R, h1, h2, h3⟩ := h
  obtain ⟨f, g1, g2⟩ := view_listed (congrArg TimestampType.metas h3) h1.snapshotListed
  exact ⟨f, g1, by rw [view_version g2]; exact h2.snapshotEntry⟩

theorem rollback_decides {a b : Metadata TimestampType} {f g : MetaFiles} (ha : a.signed.metas.get? b!"snapshot.json" = some (some f)) (hb : b.signed.metas.get? b!"snapshot.json" = some (some g)) :
    checkTimestampRollback a.signed b.signed = .ok () ∨ ∃ e, checkTimestampRollback a.signed b.signed = .err e ∧ e.isRepository = true := by
  unfold checkTimestampRollback
  have e1 : a.signed.metas.ptr (jsonName SNAPSHOT) = some f := by unfold GoMap.ptr; rw [show jsonName SNAPSHOT = b!"snapshot.json" from rfl, ha]; rfl
  have e2 : b.signed.metas.ptr (jsonName SNAPSHOT) = some g := by unfold GoMap.ptr; rw [show jsonName SNAPSHOT = b!"snapshot.json" from rfl, hb]; rfl
  rw [e1, e2]
  split
  · exact .inr ⟨_, rfl, rfl⟩
  · split
    · exact .inr ⟨_, rfl, rfl⟩
    · simp only [Res.deref_some, Res.bind_ok]
      split
      · exact .inr ⟨_, rfl, rfl⟩
      · exact .inl rfl

/-- With a trusted timestamp from an earlier release, a cached one from another earlier release is either refused as invalid or taken. -/
theorem again_local (laws : EnvLaws env) (hnew : Released env now r new) (hroot : t.root.signed = readRoot r) (h2 : t.snapshot = none) (hnow : t.refTime = now)
    {o m : Metadata TimestampType} (ho : t.timestamp = some o) (hso : SaysEarlier env new o) {R : Files} (hold : WasReleased env R) (hfol : MayFollow R new) {d : Bytes} (hp : ParsesTo env d m)
    (he : payload m.signed = payload R.ts) :
    (∃ a, (t.updateTimestamp env d).1 = .ok a ∧ ∃ o', (t.updateTimestamp env d).2 = { t with timestamp := some o' } ∧ SaysEarlier env new o') ∨
    (∃ e, (t.updateTimestamp env d).1 = .err e ∧ e.isRepository = true ∧ ∃ o', (t.updateTimestamp env d).2 = { t with timestamp := some o' } ∧ SaysEarlier env new o') := by
  obtain ⟨⟨sigs, p, a3⟩, a2⟩ := said_timestamp laws hold hp he
  obtain ⟨ss', _, hs'⟩ := hnew.timestamp
  have hx : isExpired t.root.signed.expires t.refTime = false := isExpired_false.2 (by rw [hroot, hnow]; exact hnew.rootFresh)
  have htype : m.signed.type = TIMESTAMP := (congrArg TimestampType.type a2).trans hold.goodTimestamp.type
  have hsm : SaysEarlier env new m := ⟨R, hold, hfol, a2⟩
  have hto : t = { t with timestamp := some o } := by rw [← ho]
  have heq : t.checkTimestamp env d = (verifyDelegate env (.root t.root) TIMESTAMP (.timestamp m)).bind (fun _ => (checkTimestampRollback o.signed m.signed).bind (fun _ => .ok m)) := by
    unfold Trusted.checkTimestamp
    rw [h2, if_neg (by simp), if_neg (by rw [hx]; simp), hp]
    show (if m.signed.type ≠ TIMESTAMP then _ else _) = _
    rw [if_neg (by rw [htype]; simp), ho]
    rfl
  have refused : ∀ e, e.isRepository = true → t.checkTimestamp env d = .err e → ∃ e, (t.updateTimestamp env d).1 = .err e ∧ e.isRepository = true ∧
      ∃ o', (t.updateTimestamp env d).2 = { t with timestamp := some o' } ∧ SaysEarlier env new o' := by
    intro e h1 h3
    unfold Trusted.updateTimestamp
    rw [h3]
    exact ⟨e, rfl, h1, o, hto, hso⟩
  rcases verifyDelegate_decides (suffice_root (m' := t.root) hroot hs') a3 with hv | ⟨msg, hv⟩
  · change verifyDelegate env (.root t.root) TIMESTAMP (.timestamp m) = _ at hv
    obtain ⟨f, g1, _⟩ := hso.lists
    obtain ⟨f', g2, _⟩ := hsm.lists
    rcases rollback_decides g1 g2 with hc | ⟨e, hc, hce⟩
    · rw [hv, hc] at heq
      have hacc := checkTimestamp_ok.1 (show t.checkTimestamp env d = .ok m from heq)
      rcases updateTimestamp_cases env t d with ⟨n, hn, q, ⟨_, hr⟩ | ⟨_, msg, hr⟩⟩ | ⟨e', hr⟩ | hr
      · have : n = m := by have := hn.parsed.symm.trans hp; injection this
        subst this
        exact .inl ⟨n, hr, n, q, hsm⟩
      · have : n = m := by have := hn.parsed.symm.trans hp; injection this
        subst this
        exact .inr ⟨_, hr, rfl, n, q, hsm⟩
      · exfalso
        have k := updateTimestamp_stores hacc
        rw [hr] at k
        unfold Trusted.updateTimestamp at hr
        rw [show t.checkTimestamp env d = .ok m from heq] at hr
        dsimp only at hr
        have k2 := congrArg Trusted.timestamp k
        dsimp only at k2
        rw [ho] at k2
        cases k2
        exact absurd (hacc.newer _ ho) (by omega)
      · exfalso
        have k := updateTimestamp_stores hacc
        rw [hr] at k
        have k2 := congrArg Trusted.timestamp k
        dsimp only at k2
        rw [ho] at k2
        cases k2
        exact absurd (hacc.newer _ ho) (by omega)
    · rw [hv, hc] at heq
      exact .inr (refused e hce heq)
  · change verifyDelegate env (.root t.root) TIMESTAMP (.timestamp m) = _ at hv
    rw [hv] at heq
    exact .inr (refused _ rfl heq)

/-- With a trusted timestamp from an earlier release the timestamp of the current one is loaded. -/
theorem loadTimestamp_again (laws : EnvLaws x.env) (h : Released x.env now r new) (hv : ServingFiles x srv r new) (hs : Serves x.host srv)
    (hd : x.cfg.disableLocalCache = true ∨ GoodDisk x.host) (hroot : t.root.signed = readRoot r) (h2 : t.snapshot = none) (h3 : t.targets = []) (hnow : t.refTime = now)
    {o : Metadata TimestampType} (ho : t.timestamp = some o) (hso : SaysEarlier x.env new o) {s : St} (ht : s.trusted = t) {N : Str → Prop} [TempNames x.host N] (hw : Free N s.world.fs)
    (hc : ∀ d, s.world.fs (joinPath x.cfg.localMetadataDir b!"timestamp.json") = some d →
      ∃ R, WasReleased x.env R ∧ MayFollow R new ∧ ∃ m : Metadata TimestampType, ParsesTo x.env d m ∧ payload m.signed = payload R.ts) :
    ∃ mts s', loadTimestamp x s = (.ok (), s') ∧ s'.trusted = { t with timestamp := some mts } ∧ viewTimestamp mts.signed = viewTimestamp new.ts ∧ Free N s'.world.fs := by
  obtain ⟨ts, sn, tg, a, b, c0, hvu⟩ := release_update (t := { t with timestamp := none }) laws h hroot rfl h2 h3 hnow hv
  have hok := hvu.timestampOk
  unfold loadTimestamp
  obtain ⟨p, s1, k1, ⟨o', k2, k3⟩, k4⟩ := tryLocal_done (x := x) (role := TIMESTAMP) (f := fun d t => t.updateTimestamp x.env d) (s := s)
    (P := fun _ t1 => ∃ o', t1 = { t with timestamp := some o' } ∧ SaysEarlier x.env new o')
    ⟨o, by rw [ht, ← ho], hso⟩ (by
      intro d hfs
      rw [(cacheFile x).1] at hfs
      obtain ⟨R, r1, r2, m, r3, r4⟩ := hc d hfs
      rw [ht]
      exact again_local laws h hroot h2 hnow ho hso r1 r2 r3 r4)
  rw [SM.bind_ok k1]
  obtain ⟨url, u1, u2⟩ := hvu.timestamp
  obtain rfl := plainURL_unique u1 (plainURL _ _)
  obtain ⟨s2, h6, h7, h8⟩ := fetch_progress (s := s1) hs u2
  rw [SM.bind_ok (show onWorld (downloadMetadata x TIMESTAMP x.cfg.timestampMaxLength []) s1 = _ from h6)]
  have hw2 : Free N s2.world.fs := by rw [h8, k4]; exact hw
  have ht2 : s2.trusted = { t with timestamp := some o' } := h7.trans k2
  obtain ⟨R, r1, r2, r3⟩ := k3
  rcases r2.timestamp with hlt | hsame
  · have hacc : TimestampAccepted x.env { t with timestamp := some o' } new.dts ts := by
      refine ⟨h2, hok.rootFresh, hok.parsed, hok.type, hok.signed, ?_, ?_⟩
      · rintro q hq
        cases hq
        rw [show o'.signed.version = R.ts.version from (by have := congrArg TimestampType.version r3; exact this), a]
        exact hlt
      · rintro q hq
        cases hq
        obtain ⟨f', g1, g2⟩ := view_listed (congrArg TimestampType.metas r3) r1.snapshotListed
        refine ⟨_, _, ⟨f', g1, rfl⟩, ?_, by rw [view_version g2]; exact r2.snapshotEntry⟩
        rw [a]; exact lists_view ⟨_, h.snapshotListed.1, rfl⟩
    have : onTrusted (fun t => t.updateTimestamp x.env new.dts) s2 = (.ok ts, { s2 with trusted := { t with timestamp := some ts } }) := by
      rw [onTrusted_apply, ht2, updateTimestamp_fresh hacc hvu.timestampFresh]
    rw [SM.bind_ok (SM.try_ok this)]
    dsimp only
    obtain ⟨s', l1, l2, l3⟩ := persist_progress' hd TIMESTAMP new.dts (s := { s2 with trusted := { t with timestamp := some ts } }) hw2
    exact ⟨ts, s', l1, l2, by rw [a, viewTimestamp_idem], l3⟩
  · have hsay : viewTimestamp o'.signed = viewTimestamp new.ts := by
      obtain ⟨ss, hne, hpub⟩ := r1.timestamp
      obtain ⟨m0, _, _, b1, b2, _⟩ := publishes_carries (fun _ => goodTimestamp_rt laws) C85_payload.2.2.1 C08_all_types.2.2.1 r1.goodTimestamp hne hpub
      have h3 := hok.parsed
      rw [← hsame] at h3
      have := b1.symm.trans h3
      injection this with this
      rw [r3, ← b2, this, a]
    obtain ⟨msg, h10⟩ := C13_equal_version (env := x.env) (t := { t with timestamp := some o' }) (data := new.dts) (new := ts) rfl h2 hok.rootFresh
      hok.parsed hok.type hok.signed (by rw [a]; have := congrArg TimestampType.version hsay; exact this.symm)
    have : onTrusted (fun t => t.updateTimestamp x.env new.dts) s2 = (.err (.equalVersionNumber msg), s2) := by
      rw [onTrusted_apply, ht2, h10, ← ht2]
    rw [SM.bind_ok (SM.try_err this)]
    dsimp only
    rw [if_pos (show (Err.equalVersionNumber msg).isEqualVersion = true by simp [Err.isEqualVersion, Err.is, Err.isMethod])]
    exact ⟨o', s2, rfl, ht2, hsay, hw2⟩

/-- A client that trusts at most a timestamp, which says what an earlier release says, refreshes successfully to the current release. -/
theorem refresh_again (laws : EnvLaws x.env) (h : Released x.env now r new) (hv : ServingFiles x srv r new) (hu : x.cfg.unsafeLocalMode = false)
    (hs : Serves x.host srv) (hd : x.cfg.disableLocalCache = true ∨ GoodDisk x.host) {s : St} {N : Str → Prop} [TempNames x.host N] (hw : Free N s.world.fs)
    (hm : 0 ≤ x.cfg.maxRootRotations ∧ wrap64 (s.trusted.root.signed.version + 1) + x.cfg.maxRootRotations < 2 ^ 63)
    (hroots : RootsLeadTo x srv x.cfg.maxRootRotations.toNat s.trusted t) (hroot : t.root.signed = readRoot r)
    (hts : ∀ m, s.trusted.timestamp = some m → SaysEarlier x.env new m) (hsn : s.trusted.snapshot = none) (htg : s.trusted.targets = []) (hnow : s.trusted.refTime = now)
    (hcache : CacheSays x.env x.cfg.localMetadataDir s.world.fs new) :
    ∃ mts msn mtg s', refresh x s = (.ok (), s') ∧ s'.trusted = { t with timestamp := some mts, snapshot := some msn, targets := [(b!"targets", mtg)] } ∧
      viewTimestamp mts.signed = viewTimestamp new.ts ∧ viewSnapshot msn.signed = viewSnapshot new.sn ∧ viewTargets mtg.signed = viewTargets (readTargets new.tg) ∧
      Free N s'.world.fs := by
  cases hts0 : s.trusted.timestamp with
  | none => exact says_upgrade laws h hv hu hs hd hw hm hroots hroot hts0 hsn htg hnow hcache
  | some o =>
    obtain ⟨k1, k2, k3, k4⟩ := rootsLeadTo_keeps hroots
    have c := cacheFile x
    have hb := wrap64_bounds (s.trusted.root.signed.version + 1)
    have hn : (wrap64 (wrap64 (s.trusted.root.signed.version + 1) + x.cfg.maxRootRotations) - wrap64 (s.trusted.root.signed.version + 1)).toNat =
        x.cfg.maxRootRotations.toNat := by
      rw [wrap64_of_bounds (n := wrap64 (s.trusted.root.signed.version + 1) + x.cfg.maxRootRotations) (by omega) (by omega)]
      omega
    obtain ⟨s1, p1, q1, w1⟩ := rootLoop_progress hs hd hroots (wrap64 (s.trusted.root.signed.version + 1)) s rfl hw rfl (by omega)
    have p1' : loadRoot x s = (.ok (), s1) := by
      rw [← p1, ← hn]
      rfl
    have f1 := fun role hr => loadRoot_files (x := x) s (role := role) hr
    rw [p1'] at f1
    dsimp only at f1
    obtain ⟨mts, s2, p2, q2, vts, w2⟩ := loadTimestamp_again laws h hv hs hd hroot (k2.trans hsn) (k3.trans htg) (k4.trans hnow) (k1.trans hts0) (hts o hts0) q1 w1 (by
      intro d hfs
      rw [← c.1, f1 _ (by decide), c.1] at hfs
      exact hcache.timestamp d hfs)
    have f2 := fun role hr => loadTimestamp_files (x := x) s1 (role := role) hr
    rw [p2] at f2
    dsimp only at f2
    obtain ⟨msn, m, s3, s4, p3, p4, q4, vsn, vtg, w4⟩ := says_rest (t := { t with timestamp := none }) laws h hv hs hd hroot rfl (k2.trans hsn) (k3.trans htg) (k4.trans hnow) vts q2 w2
      (by
        intro d hfs
        rw [← c.2.1, f2 _ (by decide), f1 _ (by decide), c.2.1] at hfs
        exact hcache.snapshot d hfs)
      (by
        intro d hfs
        rw [← c.2.2.1, f2 _ (by decide), f1 _ (by decide), c.2.2.1] at hfs
        exact hcache.targets d hfs)
    refine ⟨mts, msn, m, s4, ?_, q4, vts, vsn, vtg, w4⟩
    unfold refresh
    rw [if_neg (by simp [hu])]
    unfold onlineRefresh
    rw [SM.bind_ok p1', SM.bind_ok p2, SM.bind_ok p3, SM.bind_ok p4]
    rfl

end

section
variable {env : Env} {H : Holders} {dir : Str} {new : Files} {x : Ctx} {t0 : Trusted}

/-- The trusted timestamp of a careful client says what an earlier release says, and without a snapshot no targets are trusted. -/
theorem careful_trusts (laws : EnvLaws env) (hH : Diligent env H) (hc : Careful env H dir new x t0) {t : Trusted} (h : History env t0 t) :
    (∀ m, t.timestamp = some m → SaysEarlier env new m) ∧ (t.snapshot = none → t.targets = []) ∧ t.refTime = t0.refTime := by
  obtain ⟨now, h0⟩ := hc.first
  induction h with
  | refl =>
    obtain ⟨_, _, _, h1, h2, h3, _⟩ := new_root h0
    refine ⟨?_, fun _ => ?_, rfl⟩
    · intro m hm; first | (rw [h1] at hm; cases hm) | (rw [h2] at hm; cases hm) | (rw [h3] at hm; cases hm)
    · first | exact h1 | exact h2 | exact h3
  | @step t' c hh ih =>
    have hroot := (C91_trusted_set laws hH h0 hc.guarded hh).root
    have key := run_change env t' c
    revert key
    generalize (c.run env t').2 = t''
    intro key
    cases key with
    | none => exact ih
    | root hr => exact ih
    | snapshot hr => exact ⟨ih.1, (fun h => by cases h), ih.2.2⟩
    | targets hr =>
      refine ⟨ih.1, fun h => ?_, ih.2.2⟩
      obtain ⟨sn, _, _, _, g, _⟩ := hr.snapshot
      rw [show t'.snapshot = none from h] at g
      cases g
    | timestamp hr =>
      refine ⟨fun m hm => ?_, ih.2.1, ih.2.2⟩
      cases hm
      obtain ⟨d', p, k1, k2, k3, k4⟩ := signedFor_of_verifies hH hc.guarded laws hroot hr.signed (.timestamp hr.parsed) hr.type
      cases k2 with
      | @timestamp d1 _ k2 =>
        obtain ⟨R, r1, r2, r3⟩ := hc.releases.timestamp _ k1
        exact ⟨R, r1, r2, (said_timestamp laws r1 hr.parsed (Eq.trans k4 (Eq.trans k3.symm r3))).2⟩

/-- C145: a client called the API in any way, against any servers (while fewer keys than the thresholds were compromised), and its calls failed before it trusted a snapshot. When disk
and network work, and the server has a release under a root that the client can follow, `Refresh` succeeds, and the client then trusts what the release says. -/
theorem C145_again_partial (laws : EnvLaws env) (hH : Diligent env H) (hc : Careful env H dir new x t0) {w : World} {s : St} (hs : Session x ⟨t0, w⟩ s)
    {fs : FS} (hatt : Attacked (Careful env H dir new) dir fs s.world.fs) (h0 : CacheSays env dir fs new) (hsn : s.trusted.snapshot = none)
    {h : Host} {srv : Str → Int → Except Err Bytes} {r : RootType} {t : Trusted} (hu : x.cfg.unsafeLocalMode = false) (hrel : Released env t0.refTime r new)
    (hv : ServingFiles { x with host := h } srv r new) (hnet : Serves h srv) (hdisk : GoodDisk h) (hw : Free (GivenTemp h) s.world.fs)
    (hm : 0 ≤ x.cfg.maxRootRotations ∧ wrap64 (s.trusted.root.signed.version + 1) + x.cfg.maxRootRotations < 2 ^ 63)
    (hroots : RootsLeadTo { x with host := h } srv x.cfg.maxRootRotations.toNat s.trusted t) (hroot : t.root.signed = readRoot r) :
    ∃ ts sn tg s', refresh { x with host := h } s = (.ok (), s') ∧ s'.trusted.root = t.root ∧ s'.trusted.timestamp = some ts ∧ viewTimestamp ts.signed = viewTimestamp new.ts ∧
      s'.trusted.snapshot = some sn ∧ viewSnapshot sn.signed = viewSnapshot new.sn ∧
      s'.trusted.targets = [(b!"targets", tg)] ∧ viewTargets tg.signed = viewTargets (readTargets new.tg) := by
  obtain ⟨k1, k2, k3⟩ := careful_trusts laws hH hc (hc.sameEnv ▸ (session_history hs).history)
  have hcs := C134_cache laws hH hatt h0
  obtain ⟨mts, msn, mtg, s', r1, r2, r3, r4, r5, _⟩ := refresh_again (x := { x with host := h }) (s := s) (N := GivenTemp h) (by rw [hc.sameEnv]; exact laws)
    (by rw [hc.sameEnv]; exact hrel) hv hu hnet (.inr hdisk) hw hm hroots hroot (by rw [hc.sameEnv]; exact k1) hsn (k2 hsn) k3 (by
      show CacheSays x.env x.cfg.localMetadataDir _ _
      rw [hc.sameEnv, hc.sameDir]; exact hcs)
  exact ⟨mts, msn, mtg, s', r1, by rw [r2], by rw [r2], r3, by rw [r2], r4, by rw [r2], r5⟩

end

/-! ## Clients that cannot refresh any more -/

theorem snapshot_after_timestamp {env : Env} {t0 t : Trusted} (h0 : t0.snapshot = none) (h : History env t0 t) (hs : t.snapshot.isSome) : t.timestamp.isSome := by
  induction h with
  | refl => rw [h0] at hs; cases hs
  | @step t' c hh ih =>
    have key := run_change env t' c
    revert key hs
    generalize (c.run env t').2 = t''
    intro hs key
    cases key with
    | none => exact ih hs
    | root hr => exact ih hs
    | timestamp hr => rfl
    | targets hr => exact ih hs
    | snapshot hr => obtain ⟨ts, h1, _⟩ := hr.timestamp; rw [h1]; rfl

/-- A client that trusts a snapshot but no targets stays as it is. -/
theorem stuck_stays {x : Ctx} {s s' : St} (h1 : s.trusted.timestamp.isSome) (h2 : s.trusted.snapshot.isSome) (h3 : s.trusted.targets.get? b!"targets" = none) (h : Session x s s') :
    s'.trusted = s.trusted := by
  induction h with
  | refl => rfl
  | @step s1 a hs1 ih =>
    have f := refresh_frozen (x := x) (s'' := s1) (by rw [ih]; exact h1) (by rw [ih]; exact h2)
    cases a with
    | refresh => exact f.2.1.trans ih
    | getTargetInfo p =>
      show (getTargetInfo x p s1).2.trusted = _
      unfold getTargetInfo
      rw [SM.bind_ok (getTrusted_apply s1), if_neg (by rw [ih, show TARGETS = b!"targets" from rfl, h3]; simp)]
      obtain ⟨⟨e, k1⟩, k2, _⟩ := f
      rw [SM.bind_err (show refresh x s1 = (.err e, (refresh x s1).2) from Prod.ext k1 rfl)]
      exact k2.trans ih
    | findCachedTarget tf f => exact (C44_reads_only tf f s1).2.1.trans ih
    | downloadTarget tf f u =>
      have : (downloadTarget x tf f u s1).2.trusted = s1.trusted := by
        rcases downloadTarget_run (x := x) tf f u s1 with ⟨e, h1, _⟩ | ⟨_, _, _, _, _, _, _, h1, _⟩ <;> rw [h1]
      exact this.trans ih

/-- C145: when the calls of a client have led to a trusted snapshot, be it an outdated one from the cache, but not to trusted targets, then whatever the servers and the disk do later
(`x'`) and whatever is called in between, `Refresh` and `GetTargetInfo` fail. -/
theorem C145_stuck {x x' : Ctx} {now : Time} {w : World} {t0 : Trusted} {s s' : St} (h0 : Trusted.new x.env now x.cfg.localTrustedRoot = .ok t0) (hs : Session x ⟨t0, w⟩ s)
    (hsn : s.trusted.snapshot.isSome) (htg : s.trusted.targets.get? b!"targets" = none) (hs' : Session x' s s') (path : Str) :
    (∃ e, (refresh x' s').1 = .err e) ∧ (∃ e, (getTargetInfo x' path s').1 = .err e) ∧ s'.trusted = s.trusted := by
  obtain ⟨_, _, _, _, h3, _, _⟩ := new_root h0
  have hts := snapshot_after_timestamp (t0 := t0) h3 (session_history hs).history hsn
  have hk := stuck_stays hts hsn htg hs'
  have f := refresh_frozen (x := x') (s'' := s') (by rw [hk]; exact hts) (by rw [hk]; exact hsn)
  refine ⟨f.1, ?_, hk⟩
  unfold getTargetInfo
  rw [SM.bind_ok (getTrusted_apply s'), if_neg (by rw [hk, show TARGETS = b!"targets" from rfl, htg]; simp)]
  obtain ⟨⟨e, k1⟩, _⟩ := f
  rw [SM.bind_err (show refresh x' s' = (.err e, (refresh x' s').2) from Prod.ext k1 rfl)]
  exact ⟨e, rfl⟩

/-- C145: a client that trusts a timestamp cannot refresh once the server has a newer root, whatever it is. -/
theorem C145_rotated {x : Ctx} {srv : Str → Int → Except Err Bytes} {s : St} {url : Str} {data : Bytes} (hu : x.cfg.unsafeLocalMode = false) (hts : s.trusted.timestamp.isSome)
    (hm : 0 < x.cfg.maxRootRotations ∧ wrap64 (s.trusted.root.signed.version + 1) + x.cfg.maxRootRotations < 2 ^ 63)
    (hs : Serves x.host srv) (hurl : VersionedURL x.cfg.remoteMetadataURL b!"root" (wrap64 (s.trusted.root.signed.version + 1)) url) (hd : srv url x.cfg.rootMaxLength = .ok data) :
    (∃ e, (refresh x s).1 = .err e) ∧ (refresh x s).2.trusted = s.trusted ∧ (refresh x s).2.world.fs = s.world.fs := by
  have hb := wrap64_bounds (s.trusted.root.signed.version + 1)
  obtain ⟨n, hn⟩ : ∃ n, (wrap64 (wrap64 (s.trusted.root.signed.version + 1) + x.cfg.maxRootRotations) - wrap64 (s.trusted.root.signed.version + 1)).toNat = n + 1 := by
    rw [wrap64_of_bounds (n := wrap64 (s.trusted.root.signed.version + 1) + x.cfg.maxRootRotations) (by omega) (by omega)]
    exact ⟨x.cfg.maxRootRotations.toNat - 1, by omega⟩
  obtain rfl := versionedURL_unique hurl (versionedURL _ _ _)
  obtain ⟨s2, h6, h7, h8⟩ := fetch_progress (s := s) hs hd
  have hr : loadRoot x s = (.err (.runtime "cannot update root after timestamp"), s2) := by
    unfold loadRoot
    rw [SM.bind_ok (getTrusted_apply s)]
    rw [hn]
    unfold loadRootLoop
    rw [SM.bind_ok (SM.try_ok (show onWorld (downloadMetadata x ROOT x.cfg.rootMaxLength (formatInt 10 (wrap64 (s.trusted.root.signed.version + 1)))) s = _ from h6))]
    dsimp only
    rw [SM.bind_apply, onTrusted_apply]
    rw [updateRoot_blocked (by rw [h7]; exact hts)]
  unfold refresh
  rw [if_neg (by simp [hu])]
  unfold onlineRefresh
  rw [SM.bind_err hr]
  exact ⟨⟨_, rfl⟩, h7, h8⟩

namespace Sample

/-- The server while the snapshot is not available. -/
def noSnapshot (url : Str) : Except Err Bytes := if url = b!"u/4.snapshot.json" then .error (.downloadHTTP 503 url) else server url

def badCtx : Ctx := { ctx with host := hostOf noSnapshot }

/-- A cache from release 3. -/
def cache3 : List (Str × Bytes) := [(b!"m/timestamp.json", [2, 3]), (b!"m/snapshot.json", [3, 3]), (b!"m/targets.json", [4, 3])]

/-- Refresh against the bad server, and again against the good one. -/
def again : M Unit := do
  let _ ← SM.try' (refresh badCtx)
  refresh ctx

end Sample
open Sample

/-- C145 is false in general: the download of the new snapshot fails, so Refresh fails; when the network works again, Refresh still fails, because the outdated snapshot of the cache
is already trusted. A new client on the same disk succeeds; without the cache the second Refresh succeeds, too. -/
theorem C145_false :
    (session badCtx cache3 (refresh badCtx)).1 = .err (.downloadHTTP 503 b!"u/4.snapshot.json") ∧
    (session badCtx cache3 again).1 = .err (.runtime "cannot update timestamp after snapshot") ∧
    (session badCtx cache3 (do let _ ← SM.try' (refresh badCtx); SM.try' (getTargetInfo ctx b!"f"))).1.map (fun r => r.toOption.isSome) = .ok false ∧
    (session ctx [(b!"m/timestamp.json", [2, 4]), (b!"m/snapshot.json", [3, 3]), (b!"m/targets.json", [4, 3])] (refresh ctx)).1 = .ok () ∧
    fileAt (session badCtx cache3 again).2 b!"m/timestamp.json" = some [2, 4] ∧ fileAt (session badCtx cache3 again).2 b!"m/snapshot.json" = some [3, 3] ∧
    (session badCtx [] again).1 = .ok () := by
  decide +kernel

end Tuf
