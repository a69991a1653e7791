import Verif.Props.Honest
import Verif.Spec.Follow

/-!
# Clients that follow a repository (C93)
-/

namespace Tuf
open Spec

/-- If signers suffice for a role, verification of any document with a payload under that role gives a verdict: yes, or too few signatures. -/
theorem verifyDelegate_decides {env : Env} {D d : AnyMeta} {role : Str} {ss : List Signer} (hs : Suffice env D role ss) {sigs : List Signature} {p : Bytes} (hc : Carries d sigs p) :
    verifyDelegate env D role d = .ok () ∨ ∃ msg, verifyDelegate env D role d = .err (.unsignedMetadata msg) := by
  obtain ⟨keys, ids, t, hd, ht, ⟨S, hS, hle, hin⟩, hk⟩ := hs
  have hne : ids ≠ [] := by
    cases S with
    | nil => simp at hle; omega
    | cons a l => exact List.ne_nil_of_mem (hin a (by simp)).1
  have hdec : ∀ id ∈ ids, Decided env keys d id := by
    intro id hid
    obtain ⟨key, pk, hf, e1, e2, e3, _⟩ := hk id hid
    exact ⟨pk, hf, _, p, ⟨key, _, e1, e2, hc, signatureFor_pick _ _⟩, e3 _ _⟩
  obtain ⟨res, hl⟩ := verifyLoop_total hdec []
  unfold verifyDelegate
  rw [(delegationOf_ok_iff hne).2 hd, Res.bind_ok]
  dsimp only
  rw [if_neg hne, hl, Res.bind_ok]
  split
  · exact .inr ⟨_, rfl⟩
  · exact .inl rfl

/-- A published document is read, and has a payload. -/
theorem publishes_carries {T : Type} [RoleType T] {env : Env} {P : T → Prop} {read : T → T} (hT : ∀ a : T, P a → ∃ s, RoleType.marshal a = .ok (.obj s) ∧
      RT env (RoleType.unmarshal env) (.obj s) (read a) ∧ LastText s b!"_type" (RoleType.typeName T))
    (hpay : ∀ a, payload (read a) = payload a)
    (hany : ∀ m : Metadata T, (RoleType.any m).signatures = m.signatures.elems ∧ (RoleType.any m).payload = payload m.signed)
    {a : T} (ha : P a) {ss : List Signer} (hne : ss ≠ []) {data : Bytes} (h : Publishes env a ss data) :
    ∃ m sigs p, ParsesTo env data m ∧ m.signed = read a ∧ Carries (RoleType.any m) sigs p := by
  obtain ⟨m0, m, pretty, rfl, h0, hf, hs, hb, hpr⟩ := h.written
  obtain ⟨k1, k2, k3⟩ := signedBy_new hs h0 h.distinct
  have hsig := signedBy_signed hs
  obtain ⟨data', h1, h2⟩ := publish hT (m := m) ⟨by rw [hsig]; exact ha, fun s hs => by rw [(k2 s hs).1]; exact goodFields_nil _, k3, by rw [k1]; exact hf⟩ hpr
  rw [hb] at h1
  cases h1
  have hp : ∃ p, payload m0.signed = .ok p := by
    cases hs with
    | nil => exact absurd rfl hne
    | snoc hs' hsn =>
      unfold sign at hsn
      rw [Res.bind_eq_ok] at hsn
      obtain ⟨p, hp, _⟩ := hsn
      rw [signedBy_signed hs'] at hp
      exact ⟨p, hp⟩
  obtain ⟨p, hp⟩ := hp
  exact ⟨_, _, p, h2, by rw [hsig], any_carries hany (by rw [hpay, hsig, hp])⟩

section
variable {env : Env} {t : Trusted} {now : Time} {r : RootType} {old new : Files} {d : Bytes}

/-- A cached timestamp of an earlier release does no harm. -/
theorem old_timestamp (laws : EnvLaws env) (hold : WasReleased env old) (hfol : MayFollow old new) (hnew : Released env now r new) (hroot : t.root.signed = readRoot r)
    (h1 : t.timestamp = none) (h2 : t.snapshot = none) (hnow : t.refTime = now) {mts : Metadata TimestampType} (hts : mts.signed = viewTimestamp new.ts)
    (hacc : TimestampAccepted env t new.dts mts) (hd : SameDocument TimestampType env d old.dts) : HarmlessTimestamp env t new.dts mts d := by
  obtain ⟨ss, hne, hp⟩ := hold.timestamp
  obtain ⟨m, sigs, p, a1, a2, a3⟩ := publishes_carries (fun _ => goodTimestamp_rt laws) C85_payload.2.2.1 C08_all_types.2.2.1 hold.goodTimestamp hne hp
  obtain ⟨ss', _, hs'⟩ := hnew.timestamp
  have hparse : ParsesTo env d m := (hd m).2 a1
  have hx : isExpired t.root.signed.expires t.refTime = false := isExpired_false.2 (by rw [hroot, hnow]; exact hnew.rootFresh)
  have htype : m.signed.type = TIMESTAMP := by rw [a2]; exact hold.goodTimestamp.type
  have heq : t.checkTimestamp env d = (verifyDelegate env (.root t.root) TIMESTAMP (.timestamp m)).bind (fun _ => .ok m) := by
    unfold Trusted.checkTimestamp
    rw [h2, if_neg (by simp), if_neg (by rw [hx]; simp), hparse]
    show (if m.signed.type ≠ TIMESTAMP then _ else _) = _
    rw [if_neg (by rw [htype]; simp), h1]
    rfl
  rcases verifyDelegate_decides (suffice_root (m' := t.root) hroot hs') a3 with hv | ⟨msg, hv⟩
  · have hacc' : TimestampAccepted env t d m := checkTimestamp_ok.1 (by rw [heq]; change verifyDelegate env (.root t.root) TIMESTAMP (.timestamp m) = _ at hv; rw [hv]; rfl)
    refine .inr ⟨m, hacc', ?_⟩
    rcases hfol.timestamp with hlt | hsame
    · refine .inr ⟨h2, hacc.rootFresh, hacc.parsed, hacc.type, hacc.signed, ?_, ?_⟩
      · rintro o ho
        cases ho
        rw [a2, hts]
        exact hlt
      · rintro o ho
        cases ho
        refine ⟨_, _, ?_, ?_, hfol.snapshotEntry⟩
        · rw [a2]; exact lists_view ⟨_, hold.snapshotListed, rfl⟩
        · rw [hts]; exact lists_view ⟨_, hnew.snapshotListed.1, rfl⟩
    · refine .inl ?_
      have h3 := hacc.parsed
      rw [← hsame] at h3
      have := a1.symm.trans h3
      injection this
  · refine .inl ⟨.unsignedMetadata msg, ?_, rfl⟩
    unfold Trusted.updateTimestamp
    change verifyDelegate env (.root t.root) TIMESTAMP (.timestamp m) = _ at hv
    rw [heq, hv]
    rfl

/-- A cached snapshot of an earlier release does no harm. -/
theorem old_snapshot (laws : EnvLaws env) (hold : WasReleased env old) (hfol : MayFollow old new) (hnew : Released env now r new) (hroot : t.root.signed = readRoot r)
    (h2 : t.snapshot = none) (h3 : t.targets = []) (hnow : t.refTime = now) {mts : Metadata TimestampType} {msn : Metadata SnapshotType} (hts : mts.signed = viewTimestamp new.ts)
    (hsn : msn.signed = viewSnapshot new.sn)
    (hacc : SnapshotAccepted env { t with timestamp := some mts } new.dsn false msn) (hd : SameDocument SnapshotType env d old.dsn) :
    HarmlessSnapshot env { t with timestamp := some mts } (viewMeta new.fsn) new.dsn msn d := by
  obtain ⟨ss, hne, hp⟩ := hold.snapshot
  obtain ⟨m, sigs, p, a1, a2, a3⟩ := publishes_carries (fun _ => goodSnapshot_rt laws) C85_payload.2.1 C08_all_types.2.1 hold.goodSnapshot hne hp
  obtain ⟨ss', _, hs'⟩ := hnew.snapshot
  have hparse : ParsesTo env d m := (hd m).2 a1
  have htype : m.signed.type = SNAPSHOT := by rw [a2]; exact hold.goodSnapshot.type
  have hx : isExpired mts.signed.expires t.refTime = false := isExpired_false.2 (by rw [hts, hnow]; exact hnew.timestampFresh)
  have heq : ({ t with timestamp := some mts } : Trusted).checkSnapshot env d true = (verifyDelegate env (.root t.root) SNAPSHOT (.snapshot m)).bind (fun _ => .ok m) := by
    unfold Trusted.checkSnapshot
    dsimp only
    rw [h3, if_neg (by simp [Entries.get?])]
    have hf : ({ root := t.root, snapshot := t.snapshot, timestamp := some mts, targets := [], refTime := t.refTime } : Trusted).checkFinalTimestamp = .ok () := by
      simp [Trusted.checkFinalTimestamp, Res.deref, hx]
    rw [hf, Res.bind_ok, if_neg (by simp), hparse]
    show (if m.signed.type ≠ SNAPSHOT then _ else _) = _
    rw [if_neg (by rw [htype]; simp), h2]
    rfl
  rcases verifyDelegate_decides (suffice_root (m' := t.root) hroot hs') a3 with hv | ⟨msg, hv⟩
  · change verifyDelegate env (.root t.root) SNAPSHOT (.snapshot m) = _ at hv
    have hacc' : SnapshotAccepted env { t with timestamp := some mts } d true m := checkSnapshot_ok.1 (by rw [heq, hv]; rfl)
    refine .inr ⟨m, hacc', ?_⟩
    rcases hfol.snapshot with hne | hsame
    · refine .inr ⟨.inr ?_, hacc.timestamp, hacc.early, hacc.parsed, hacc.type, hacc.signed, ?_⟩
      · rw [a2]
        show old.sn.version ≠ new.fsn.version
        rw [hnew.snapshotListed.2.1]
        exact hne
      · rintro o ho name f hm
        cases ho
        rw [a2] at hm
        have hm' : (name, f) ∈ (mapValues viewMeta old.sn.metas).entries := hm
        rw [mapValues_entries] at hm'
        obtain ⟨e, he, hef⟩ := List.mem_map.1 hm'
        obtain ⟨a, ha, _⟩ := hold.goodSnapshot.metas.values e he
        cases hef
        have hget : old.sn.metas.get? e.1 = some (some a) := by
          rw [← ha]
          exact Entries.get?_of_mem hold.goodSnapshot.metas.sorted.nodup he
        obtain ⟨f', g1, g2⟩ := hfol.listed _ _ hget
        refine ⟨viewMeta a, viewMeta f', by rw [ha]; rfl, ?_, g2⟩
        rw [hsn]
        exact mapValues_get? g1
    · refine .inl ?_
      have h4 := hacc.parsed
      rw [← hsame] at h4
      have := a1.symm.trans h4
      injection this
  · refine .inl ⟨.unsignedMetadata msg, ?_, rfl⟩
    unfold Trusted.updateSnapshot
    change verifyDelegate env (.root t.root) SNAPSHOT (.snapshot m) = _ at hv
    rw [heq, hv]
    rfl

/-- Cached targets of an earlier release do no harm, and are accepted only if they are the current ones. -/
theorem old_targets (laws : EnvLaws env) (hold : WasReleased env old) (hfol : MayFollow old new) (hnew : Released env now r new) (hroot : t.root.signed = readRoot r)
    (hnow : t.refTime = now) {mts : Metadata TimestampType} {msn : Metadata SnapshotType} {mtg : Metadata TargetsType} (hts : mts.signed = viewTimestamp new.ts)
    (hsn : msn.signed = viewSnapshot new.sn)
    (hacc : TargetsAccepted env { t with timestamp := some mts, snapshot := some msn } new.dtg b!"targets" b!"root" mtg) (hd : SameDocument TargetsType env d old.dtg) :
    HarmlessTargets env { t with timestamp := some mts, snapshot := some msn } d ∧
    ∀ m, TargetsAccepted env { t with timestamp := some mts, snapshot := some msn } d b!"targets" b!"root" m → m = mtg := by
  obtain ⟨ss, hne, hp⟩ := hold.targets
  obtain ⟨m, sigs, p, a1, a2, a3⟩ := publishes_carries (fun _ => goodTargets_rt laws) C85_payload.2.2.2 C08_all_types.2.2.2 hold.goodTargets hne hp
  obtain ⟨ss', _, hs'⟩ := hnew.targets
  have hparse : ParsesTo env d m := (hd m).2 a1
  have htype : m.signed.type = TARGETS := by rw [a2]; exact hold.goodTargets.type
  have g2 : msn.signed.metas.get? b!"targets.json" = some (some (viewMeta new.ftg)) := by rw [hsn]; exact mapValues_get? hnew.targetsListed.1
  generalize ht' : ({ t with timestamp := some mts, snapshot := some msn } : Trusted) = t' at *
  have e1 : t'.snapshot = some msn := by rw [← ht']
  have e2 : t'.root = t.root := by rw [← ht']
  have e3 : t'.refTime = t.refTime := by rw [← ht']
  have e4 : t'.timestamp = some mts := by rw [← ht']
  have hfin : t'.checkFinalSnapshot = .ok () := by
    refine checkFinalSnapshot_ok.2 ⟨msn, mts, e1, e4, by rw [hsn, e3, hnow]; exact hnew.snapshotFresh, ?_⟩
    rw [hts, hsn]
    exact lists_view ⟨_, hnew.snapshotListed.1, hnew.snapshotListed.2.1⟩
  constructor
  · have key : (∃ e, t'.checkTargets env d TARGETS ROOT = .err e ∧ e.isRepository = true) ∨ ∃ m, t'.checkTargets env d TARGETS ROOT = .ok m := by
      unfold Trusted.checkTargets
      rw [e1]
      dsimp only
      rw [hfin, Res.bind_ok]
      have hdel : t'.delegator ROOT = some (.root t.root) := by unfold Trusted.delegator; rw [if_pos rfl, e2]
      rw [hdel]
      dsimp only
      have g2' : msn.signed.metas.get? (jsonName TARGETS) = some (some (viewMeta new.ftg)) := g2
      rw [g2']
      dsimp only [Res.deref]
      rw [Res.bind_ok]
      by_cases hm : (viewMeta new.ftg).verifyLengthHashes env d = .ok ()
      · rw [hm, Res.bind_ok, hparse]
        show (∃ e, (if m.signed.type ≠ TARGETS then _ else _) = _ ∧ _) ∨ ∃ m', (if m.signed.type ≠ TARGETS then _ else _) = _
        rw [if_neg (by rw [htype]; simp)]
        rcases verifyDelegate_decides (suffice_root (m' := t.root) hroot hs') a3 with hv | ⟨msg, hv⟩
        · change verifyDelegate env (.root t.root) TARGETS (.targets m) = _ at hv
          rw [hv, Res.bind_ok]
          by_cases hver : m.signed.version ≠ (viewMeta new.ftg).version
          · rw [if_pos hver]; exact .inl ⟨_, rfl, rfl⟩
          · rw [if_neg hver]
            split
            · exact .inl ⟨_, rfl, rfl⟩
            · exact .inr ⟨_, rfl⟩
        · change verifyDelegate env (.root t.root) TARGETS (.targets m) = _ at hv
          rw [hv]
          exact .inl ⟨_, rfl, rfl⟩
      · obtain ⟨msg, hm⟩ := metaVerify_err (fun hk => hm (metaVerify_ok.2 hk))
        rw [hm]
        exact .inl ⟨_, rfl, rfl⟩
    rcases key with ⟨e, h1, h2⟩ | ⟨m', h1⟩
    · refine .inl ⟨e, ?_, h2⟩
      unfold Trusted.updateDelegatedTargets
      change t'.checkTargets env d b!"targets" b!"root" = _ at h1
      rw [h1]
    · exact .inr ⟨m', checkTargets_ok.1 h1⟩
  · intro m' hm'
    obtain ⟨sn', _, f, D, b1, _, _, _, b5, _, b7, _, _⟩ := hm'.snapshot
    rw [e1] at b1
    cases b1
    have b5' : msn.signed.metas.get? b!"targets.json" = some (some f) := b5
    rw [g2] at b5'
    cases b5'
    have hmm : m' = m := by
      have := hm'.parsed.symm.trans hparse
      injection this
    rw [hmm] at b7 ⊢
    rcases hfol.targets with hne | hsame
    · refine absurd ?_ hne
      rw [a2] at b7
      have : old.tg.version = new.ftg.version := b7
      rw [this]
      exact hnew.targetsListed.2.1
    · have h4 := hacc.parsed
      rw [← hsame] at h4
      have := a1.symm.trans h4
      injection this

/-- A cached targets role of an earlier release does no harm, and is accepted only if it is the current one. -/
theorem old_role (laws : EnvLaws env) {p : PubRole} {role parent : Str} (hold : RoleBefore env p d) {D : AnyMeta} {ss' : List Signer} (hdel : t.delegator parent = some D)
    (hs' : Suffice env D role ss') {msn : Metadata SnapshotType} {f : MetaFiles} {m0 : Metadata TargetsType} (e1 : t.snapshot = some msn)
    (hlist : msn.signed.metas.get? (role ++ b!".json") = some (some f)) (hfv : f.version = p.value.version) (hacc : TargetsAccepted env t p.file role parent m0) :
    (∃ e, t.updateDelegatedTargets env d role parent = (.err e, t) ∧ e.isRepository = true) ∨ TargetsAccepted env t d role parent m0 := by
  obtain ⟨v, ss, d', hgood, hne, hp, hd, hsame⟩ := hold
  obtain ⟨m, sigs, pl, a1, a2, a3⟩ := publishes_carries (fun _ => goodTargets_rt laws) C85_payload.2.2.2 C08_all_types.2.2.2 hgood hne hp
  have hparse : ParsesTo env d m := (hd m).2 a1
  have htype : m.signed.type = TARGETS := by rw [a2]; exact hgood.type
  have hfin : t.checkFinalSnapshot = .ok () := by
    obtain ⟨sn', ts', f', D', b1, b2, b3, b4, _⟩ := hacc.snapshot
    exact checkFinalSnapshot_ok.2 ⟨sn', ts', b1, b2, b3, b4⟩
  have key : (∃ e, t.checkTargets env d role parent = .err e ∧ e.isRepository = true) ∨ ∃ m, t.checkTargets env d role parent = .ok m := by
    unfold Trusted.checkTargets
    rw [e1]
    dsimp only
    rw [hfin, Res.bind_ok]
    rw [hdel]
    dsimp only
    have g2' : msn.signed.metas.get? (jsonName role) = some (some f) := hlist
    rw [g2']
    dsimp only [Res.deref]
    rw [Res.bind_ok]
    by_cases hm : f.verifyLengthHashes env d = .ok ()
    · rw [hm, Res.bind_ok, hparse]
      show (∃ e, (if m.signed.type ≠ TARGETS then _ else _) = _ ∧ _) ∨ ∃ m', (if m.signed.type ≠ TARGETS then _ else _) = _
      rw [if_neg (by rw [htype]; simp)]
      rcases verifyDelegate_decides hs' a3 with hv | ⟨msg, hv⟩
      · change verifyDelegate env D role (.targets m) = _ at hv
        rw [hv, Res.bind_ok]
        by_cases hver : m.signed.version ≠ f.version
        · rw [if_pos hver]; exact .inl ⟨_, rfl, rfl⟩
        · rw [if_neg hver]
          split
          · exact .inl ⟨_, rfl, rfl⟩
          · exact .inr ⟨_, rfl⟩
      · change verifyDelegate env D role (.targets m) = _ at hv
        rw [hv]
        exact .inl ⟨_, rfl, rfl⟩
    · obtain ⟨msg, hm⟩ := metaVerify_err (fun hk => hm (metaVerify_ok.2 hk))
      rw [hm]
      exact .inl ⟨_, rfl, rfl⟩
  rcases key with ⟨e, h1, h2⟩ | ⟨m', h1⟩
  · refine .inl ⟨e, ?_, h2⟩
    unfold Trusted.updateDelegatedTargets
    rw [h1]
  · refine .inr ?_
    have hm' := checkTargets_ok.1 h1
    have hmm : m' = m := by
      have := hm'.parsed.symm.trans hparse
      injection this
    subst hmm
    have : m' = m0 := by
      rcases hsame with hne | hsame
      · exfalso
        obtain ⟨sn', _, f', D', b1, _, _, _, b5, _, b7, _, _⟩ := hm'.snapshot
        rw [e1] at b1
        cases b1
        rw [hlist] at b5
        cases b5
        rw [a2, hfv] at b7
        exact hne b7
      · have h4 := hacc.parsed
        rw [← hsame] at h4
        have := a1.symm.trans h4
        injection this
    rw [← this]
    exact hm'

end

section
variable {x : Ctx} {srv : Str → Int → Except Err Bytes} {now : Time} {r : RootType} {new : Files} {t : Trusted}

/-- C93: a client whose cached metadata are from earlier releases (any of them, also signed with keys that are no longer trusted) refreshes successfully to the current
release, and then trusts exactly what was published. -/
theorem C93_upgrade (laws : EnvLaws x.env) (h : Released x.env now r new) (hv : ServingFiles x srv r new) (hu : x.cfg.unsafeLocalMode = false)
    (hs : Serves x.host srv) (hd : x.cfg.disableLocalCache = true ∨ GoodDisk x.host) {s : St} (hw : NoTemps s.world.fs)
    (hm : 0 ≤ x.cfg.maxRootRotations ∧ wrap64 (s.trusted.root.signed.version + 1) + x.cfg.maxRootRotations < 2 ^ 63)
    (hroots : RootsLeadTo x srv x.cfg.maxRootRotations.toNat s.trusted t) (hroot : t.root.signed = readRoot r)
    (hts : s.trusted.timestamp = none) (hsn : s.trusted.snapshot = none) (htg : s.trusted.targets = []) (hnow : s.trusted.refTime = now)
    (hcache : CacheBefore x.env x.cfg.localMetadataDir s.world.fs new) :
    ∃ mts msn mtg s', refresh x s = (.ok (), s') ∧ s'.trusted = { t with timestamp := some mts, snapshot := some msn, targets := [(b!"targets", mtg)] } ∧
      mts.signed = viewTimestamp new.ts ∧ msn.signed = viewSnapshot new.sn ∧ mtg.signed = readTargets new.tg ∧
      ParsesTo x.env new.dts mts ∧ ParsesTo x.env new.dsn msn ∧ ParsesTo x.env new.dtg mtg ∧ NoTemps s'.world.fs := by
  obtain ⟨k1, k2, k3, k4⟩ := rootsLeadTo_keeps hroots
  obtain ⟨mts, msn, mtg, a, b, c, hvu⟩ := release_update laws h hroot (k1.trans hts) (k2.trans hsn) (k3.trans htg) (k4.trans hnow) hv
  have ha := hvu.timestampOk
  obtain ⟨m, s', p1, p2, p3, p4⟩ := refresh_progress hu hs hd hw hts hsn hm hroots hvu
    (by
      intro d hfs
      obtain ⟨R, q1, q2, q3⟩ := hcache.timestamp d hfs
      exact old_timestamp laws q1 q2 h hroot (k1.trans hts) (k2.trans hsn) (k4.trans hnow) a hvu.timestampOk q3)
    (by
      intro d hfs
      obtain ⟨R, q1, q2, q3⟩ := hcache.snapshot d hfs
      exact old_snapshot laws q1 q2 h hroot (k2.trans hsn) (k3.trans htg) (k4.trans hnow) a b hvu.snapshotOk q3)
    (by
      intro d hfs
      obtain ⟨R, q1, q2, q3⟩ := hcache.targets d hfs
      exact (old_targets laws q1 q2 h hroot (k4.trans hnow) a b hvu.targetsOk q3).1)
  have hmm : m = mtg := by
    rcases p3 with p3 | ⟨d, p3, p5⟩
    · exact p3
    · obtain ⟨R, q1, q2, q3⟩ := hcache.targets d p3
      exact (old_targets laws q1 q2 h hroot (k4.trans hnow) a b hvu.targetsOk q3).2 _ p5
  subst hmm
  refine ⟨mts, msn, m, s', p1, ?_, a, b, c, hvu.timestampOk.parsed, hvu.snapshotOk.parsed, hvu.targetsOk.parsed, p4⟩
  rw [p2, k3, htg]
  rfl

end

/-! ## Any number of visits -/

theorem wasReleased_of {env : Env} {now : Time} {r : RootType} {R : Files} (h : Released env now r R) : WasReleased env R := by
  have hne : ∀ {D : AnyMeta} {role : Str} {ss : List Signer}, Suffice env D role ss → ss ≠ [] := by
    rintro D role ss ⟨_, _, _, _, _, ⟨S, _, hle, hin⟩, _⟩ rfl
    cases S with
    | nil => simp at hle; omega
    | cons a l =>
      obtain ⟨_, s, hs, _⟩ := hin a (by simp)
      cases hs
  obtain ⟨ss1, p1, s1⟩ := h.timestamp
  obtain ⟨ss2, p2, s2⟩ := h.snapshot
  obtain ⟨ss3, p3, s3⟩ := h.targets
  exact ⟨h.goodTimestamp, h.goodSnapshot, h.goodTargets, ⟨ss1, hne s1, p1⟩, ⟨ss2, hne s2, p2⟩, ⟨ss3, hne s3, p3⟩, h.snapshotListed.1⟩

/-- `New` succeeds, and touches only root.json. -/
theorem new_progress {env : Env} {dir : Str} {v : ClientRun} (hg : v.Good env dir) {t0 : Trusted} (ht : Trusted.new env v.now v.x.cfg.localTrustedRoot = .ok t0)
    (hne : v.x.cfg.localTrustedRoot ≠ []) {w : World} {N : Str → Prop} [TempNames v.x.host N] (hw : Free N w.fs) :
    ∃ w1, newUpdater v.x w = (.ok t0, w1) ∧ Free N w1.fs ∧ ∀ role, role ≠ ROOT → w1.fs (persistPath v.x.cfg role) = w.fs (persistPath v.x.cfg role) := by
  have hmk : ∀ (w : World) p, p ≠ [] → mkdirAll v.x.host p w = (.ok (), w.emit (.mkdir p true)) := by
    intro w p hp
    unfold mkdirAll
    simp [hp, hg.mkdir]
  have hen : ensurePathsExist v.x w = (.ok (), (w.emit (.mkdir v.x.cfg.localMetadataDir true)).emit (.mkdir v.x.cfg.localTargetsDir true)) := by
    unfold ensurePathsExist
    rw [if_neg (by rw [hg.caching]; simp), SM.bind_ok (hmk _ _ (by rw [hg.sameDir]; exact hg.dirs.1)), hmk _ _ hg.dirs.2]
  have hfs : ((w.emit (.mkdir v.x.cfg.localMetadataDir true)).emit (.mkdir v.x.cfg.localTargetsDir true)).fs = w.fs := rfl
  obtain ⟨w1, p1, p2, p3⟩ := persist_progress (x := v.x) (.inr hg.disk) ROOT v.x.cfg.localTrustedRoot
    (w := (w.emit (.mkdir v.x.cfg.localMetadataDir true)).emit (.mkdir v.x.cfg.localTargetsDir true)) (by rw [hfs]; exact hw)
  refine ⟨w1, ?_, p2, fun role hr => p3 _ (persistPath_not_temp _ _) (fun he => hr (persistPath_inj he))⟩
  unfold newUpdater
  rw [if_neg (by simp [hne, hg.url]), hg.clock, hg.sameEnv, ht]
  dsimp only
  rw [SM.bind_ok hen, SM.bind_ok p1]
  rfl

/-- C93: clients that visit the repository on the same cache, at any times at which its current release is not expired, all refresh successfully, whatever releases they
skipped and whatever keys were exchanged in between, as long as every release may follow the earlier ones. -/
theorem C93_keeps_up {env : Env} (laws : EnvLaws env) {dir : Str} {vs : List ClientRun} (hvs : ∀ v ∈ vs, v.Good env dir) (hord : vs.Pairwise (fun a b => MayFollow a.R b.R))
    {w : World} (hw : NoTemps w.fs) (hcache : ∀ v ∈ vs, CacheBefore env dir w.fs v.R) : AllSucceed w vs := by
  induction vs generalizing w with
  | nil => exact .nil
  | cons v vs ih =>
    have hg := hvs v (by simp)
    obtain ⟨t0, t, hne, h1, h2, h3, h4, h5⟩ := hg.roots
    obtain ⟨w1, n1, n2, n3⟩ := new_progress hg h1 hne hw
    have c := cacheFile v.x
    have l := C48_top_level v.x
    have e1 : w1.fs (joinPath dir b!"timestamp.json") = w.fs (joinPath dir b!"timestamp.json") := by
      have := n3 TIMESTAMP (by decide)
      rw [← l _ (by decide), c.1, hg.sameDir] at this
      exact this
    have e2 : w1.fs (joinPath dir b!"snapshot.json") = w.fs (joinPath dir b!"snapshot.json") := by
      have := n3 SNAPSHOT (by decide)
      rw [← l _ (by decide), c.2.1, hg.sameDir] at this
      exact this
    have e3 : w1.fs (joinPath dir b!"targets.json") = w.fs (joinPath dir b!"targets.json") := by
      have := n3 TARGETS (by decide)
      rw [← l _ (by decide), c.2.2.1, hg.sameDir] at this
      exact this
    obtain ⟨q, hq, hq'⟩ : ∃ m, t0 = { root := m, refTime := v.now } ∧ True := by
      obtain ⟨m, _, _, _, hm⟩ := C78_new.1 h1
      exact ⟨m, hm, trivial⟩
    have hcb := hcache v (by simp)
    have hcb' : CacheBefore v.x.env v.x.cfg.localMetadataDir w1.fs v.R := by
      rw [hg.sameEnv, hg.sameDir]
      exact ⟨by rw [e1]; exact hcb.timestamp, by rw [e2]; exact hcb.snapshot, by rw [e3]; exact hcb.targets⟩
    obtain ⟨mts, msn, mtg, s', r1, r2, r3, r4, r5, r6, r7, r8, r9⟩ := C93_upgrade (x := v.x) (s := ⟨t0, w1⟩) (by rw [hg.sameEnv]; exact laws) (by rw [hg.sameEnv]; exact hg.released)
      hg.served hg.online hg.network (.inr hg.disk) n2 ⟨h2, h3⟩ h4 h5 (by rw [hq]) (by rw [hq]) (by rw [hq]) (by rw [hq]) hcb'
    refine .cons n1 r1 (by rw [r2]; exact h5) (by rw [r2]) r3 (by rw [r2]) r4 (by rw [r2]) r5 ?_
    obtain ⟨⟨d1, m1, f1, g1, i1⟩, ⟨d2, m2, f2, g2, i2⟩, ⟨d3, m3, f3, g3, i3⟩, _⟩ := C79_cache_mirrors hg.online hg.caching (s := ⟨t0, w1⟩) (by rw [hq]) r1
    rw [hg.sameDir] at f1 f2 f3
    rw [hg.sameEnv] at i1 i2 i3 r6 r7 r8
    rw [r2] at g1 g2 g3
    cases g1
    cases g2
    have g3' : m3 = mtg := by
      have : some mtg = some m3 := g3
      injection this with this
      exact this.symm
    subst g3'
    have same : ∀ {T : Type} [RoleType T] {d d' : Bytes} {m : Metadata T}, ParsesTo env d m → ParsesTo env d' m → SameDocument T env d d' := by
      intro T _ d d' m h h' m'
      unfold ParsesTo at *
      rw [h, h']
    refine ih (fun v' hv' => hvs v' (by simp [hv'])) (List.pairwise_cons.1 hord).2 r9 ?_
    intro v' hv'
    have hf := (List.pairwise_cons.1 hord).1 v' hv'
    have hwas := wasReleased_of hg.released
    refine ⟨?_, ?_, ?_⟩
    · intro d hd
      rw [f1] at hd; cases hd
      exact ⟨v.R, hwas, hf, same i1 r6⟩
    · intro d hd
      rw [f2] at hd; cases hd
      exact ⟨v.R, hwas, hf, same i2 r7⟩
    · intro d hd
      rw [f3] at hd; cases hd
      exact ⟨v.R, hwas, hf, same i3 r8⟩

end Tuf
