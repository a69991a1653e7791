import Verif.Props.Follow
import Verif.Props.Forgery
import Verif.Props.Cosign
import Verif.Spec.Attack

/-!
# Clients after attacks (C134)
-/

namespace Tuf
open Spec

/-! ## What attackers can leave in the cache -/

section
variable {env : Env} {H : Holders} {first : Metadata RootType}

/-- A document that verifies under a genuine root has the payload of a document that an honest holder of a key of the role signed. -/
theorem signedFor_of_verifies (hH : Diligent env H) (hfirst : WellGuarded env H (.root first)) {D : Metadata RootType} {role : Str} {d : AnyMeta}
    (laws : EnvLaws env) (hD : Genuine env H first b!"root" (.root D)) (hv : Verifies env (.root D) role d) (hr : ReadFrom env d) (ht : typeField d = kind d) :
    ∃ d' p, SignedFor env H first role d' ∧ SaysSame d' d ∧ payloadOf d' = .ok p ∧ payloadOf d = .ok p := by
  obtain ⟨D', hE, hsame⟩ := hD
  have hguard : WellGuarded env H D' := by
    cases hE with
    | first => exact hfirst
    | signed _ _ _ _ _ h1 h2 => exact hH.guarded _ _ h1 h2
  have hguard' : WellGuarded env H (.root D) := fun role keys ids t h => hguard role keys ids t (saysSame_delegates hsame h)
  obtain ⟨keys, ids, t, id, key, pk, h, sig, p, a1, a2, a3, a4, a5, a6, a7⟩ := verifies_honest hguard' hv
  obtain ⟨d', b1, b2⟩ := hH.unforgeable pk h sig p a5 a6
  obtain ⟨c1, c2⟩ := hH.readable pk d' a5 b1
  have hdel := saysSame_delegates hsame a1
  cases hsame with
  | @root D0 _ _ => exact ⟨d', p, ⟨D0, keys, ids, t, id, key, pk, h, hE, hdel, a2, a3, a4, a5, b1⟩, payload_saysSame laws c1 hr c2 ht b2 a7, b2, a7⟩

/-- The trusted snapshot says what an honest holder of a snapshot key signed. -/
theorem trusted_snapshot (laws : EnvLaws env) (hH : Diligent env H) {t0 t : Trusted} {now : Time} {data : Bytes} (h0 : Trusted.new env now data = .ok t0)
    (hg : WellGuarded env H (.root t0.root)) (h : History env t0 t) :
    ∀ m, t.snapshot = some m → ∃ d, SignedFor env H t0.root b!"snapshot" (.snapshot d) ∧ viewSnapshot d.signed = viewSnapshot m.signed := by
  induction h with
  | refl =>
    obtain ⟨_, _, _, _, h3, _⟩ := new_root h0
    simp [h3]
  | @step t' c hh ih =>
    have hroot := (C91_trusted_set laws hH h0 hg hh).root
    have key := run_change env t' c
    revert key
    generalize (c.run env t').2 = t''
    intro key
    cases key with
    | none => exact ih
    | root hr => exact ih
    | timestamp hr => exact ih
    | targets hr => exact ih
    | snapshot hr =>
      intro m hm
      cases hm
      obtain ⟨d', p, k1, k2, _, _⟩ := signedFor_of_verifies hH hg laws hroot hr.signed (.snapshot hr.parsed) hr.type
      cases k2 with
      | snapshot k2 => exact ⟨_, k1, k2⟩

variable {dir : Str} {new : Files}

/-- A document that a careful client accepts for a top-level role says what is released. -/
theorem accepted_says (laws : EnvLaws env) (hH : Diligent env H) {x : Ctx} {t0 t u : Trusted} {data : Bytes} (hc : Careful env H dir new x t0) (hh : History env t0 t) :
    (JustAccepted env t u b!"timestamp" data → ∃ R, WasReleased env R ∧ MayFollow R new ∧ ∃ m : Metadata TimestampType, ParsesTo env data m ∧ payload m.signed = payload R.ts) ∧
    (JustAccepted env t u b!"snapshot" data → ∃ R, WasReleased env R ∧ MayFollow R new ∧ ∃ m : Metadata SnapshotType, ParsesTo env data m ∧ payload m.signed = payload R.sn) ∧
    (JustAccepted env t u b!"targets" data → ∃ R, WasReleased env R ∧ MayFollow R new ∧ ∃ m : Metadata TargetsType, ParsesTo env data m ∧ payload m.signed = payload R.tg) := by
  obtain ⟨now, h0⟩ := hc.first
  have noTargets : ∀ {before : Trusted} {d : Bytes} {role q : Str}, History env t0 before → role ∈ [b!"timestamp", b!"snapshot"] → (Call.targets d role q).run env before = (.ok (), u) → False := by
    intro before d role q hb hr he
    rcases updateTargets_cases env before d role q with ⟨n, he', ha⟩ | ⟨e, he'⟩ | he'
    · obtain ⟨sn, _, f, _, g1, _, _, _, g2, _⟩ := ha.snapshot
      obtain ⟨d', k1, k2⟩ := trusted_snapshot laws hH h0 hc.guarded hb sn g1
      have e1 := mapValues_get? (f := viewMeta) g2
      have e2 : mapValues viewMeta d'.signed.metas = mapValues viewMeta sn.signed.metas := congrArg SnapshotType.metas k2
      rw [← e2] at e1
      obtain ⟨f', e3, _⟩ := mapValues_get_some e1
      refine hc.releases.names d' k1 (role ++ b!".json") ?_ f' e3
      simp only [List.mem_cons, List.not_mem_nil, or_false] at hr
      rcases hr with rfl | rfl <;> decide
    · rw [Call.run, he'] at he; cases he
    · rw [Call.run, he'] at he; cases he
  refine ⟨?_, ?_, ?_⟩
  · rintro ⟨c, before, ho, hb, _, hr⟩
    have hb' := hh.trans hb.history
    have hroot := (C91_trusted_set laws hH h0 hc.guarded hb').root
    cases c with
    | root d => exact absurd ho.1 (by decide)
    | snapshot d b => exact absurd ho.1 (by decide)
    | targets d r q =>
      obtain ⟨rfl, rfl⟩ := ho
      exact (noTargets hb' (by simp) hr).elim
    | timestamp d =>
      obtain ⟨_, rfl⟩ := ho
      rcases updateTimestamp_cases env before d with ⟨n, ha, _⟩ | ⟨e, he⟩ | he
      · obtain ⟨d', p, k1, k2, k3, k4⟩ := signedFor_of_verifies hH hc.guarded laws hroot ha.signed (.timestamp ha.parsed) ha.type
        cases k2 with
        | timestamp _ =>
          obtain ⟨R, r1, r2, r3⟩ := hc.releases.timestamp _ k1
          exact ⟨R, r1, r2, n, ha.parsed, k4.trans (k3.symm.trans r3)⟩
      · rw [Call.run, he] at hr; cases hr
      · rw [Call.run, he] at hr; cases hr
  · rintro ⟨c, before, ho, hb, _, hr⟩
    have hb' := hh.trans hb.history
    have hroot := (C91_trusted_set laws hH h0 hc.guarded hb').root
    cases c with
    | root d => exact absurd ho.1 (by decide)
    | timestamp d => exact absurd ho.1 (by decide)
    | targets d r q =>
      obtain ⟨rfl, rfl⟩ := ho
      exact (noTargets hb' (by simp) hr).elim
    | snapshot d b =>
      obtain ⟨_, rfl, rfl⟩ := ho
      rcases updateSnapshot_cases env before d false with ⟨n, ha, _⟩ | ⟨e, he⟩ | he
      · obtain ⟨d', p, k1, k2, k3, k4⟩ := signedFor_of_verifies hH hc.guarded laws hroot ha.signed (.snapshot ha.parsed) ha.type
        cases k2 with
        | snapshot _ =>
          obtain ⟨R, r1, r2, r3⟩ := hc.releases.snapshot _ k1
          exact ⟨R, r1, r2, n, ha.parsed, k4.trans (k3.symm.trans r3)⟩
      · rw [Call.run, he] at hr; cases hr
      · rw [Call.run, he] at hr; cases hr
  · rintro ⟨c, before, ho, hb, hu, hr⟩
    have hb' := hh.trans hb.history
    have hroot := (C91_trusted_set laws hH h0 hc.guarded hb').root
    cases c with
    | root d => exact absurd ho.1 (by decide)
    | timestamp d => exact absurd ho.1 (by decide)
    | snapshot d b => exact absurd ho.1 (by decide)
    | targets d r q =>
      obtain ⟨rfl, rfl⟩ := ho
      have hq : q = b!"root" := by
        rcases hu with ⟨h1, ⟨_, h2⟩ | h2⟩
        · exact h2
        · rw [h1] at h2; cases h2
      subst hq
      rcases updateTargets_cases env before d b!"targets" b!"root" with ⟨n, _, ha⟩ | ⟨e, he⟩ | he
      · obtain ⟨_, _, _, D, _, _, _, _, _, _, _, h11, h12⟩ := ha.snapshot
        cases h11 with
        | targets hne _ => exact absurd rfl hne
        | root =>
          obtain ⟨d', p, k1, k2, k3, k4⟩ := signedFor_of_verifies hH hc.guarded laws hroot h12 (.targets ha.parsed) ha.type
          cases k2 with
          | targets _ =>
            obtain ⟨R, r1, r2, r3⟩ := hc.releases.targets _ k1
            exact ⟨R, r1, r2, n, ha.parsed, k4.trans (k3.symm.trans r3)⟩
      · rw [Call.run, he] at hr; cases hr
      · rw [Call.run, he] at hr; cases hr

/-- C134, the cache: whatever servers answer to any clients on this cache, and whenever these are interrupted: while fewer keys than the thresholds are compromised, the
cached top-level documents say what was released. -/
theorem C134_cache (laws : EnvLaws env) (hH : Diligent env H) {fs fs' : FS} (h : Attacked (Careful env H dir new) dir fs fs') (h0 : CacheSays env dir fs new) : CacheSays env dir fs' new := by
  have names : ∀ (x : Ctx), x.cfg.localMetadataDir = dir → persistPath x.cfg TIMESTAMP = joinPath dir b!"timestamp.json" ∧ persistPath x.cfg SNAPSHOT = joinPath dir b!"snapshot.json" ∧
      persistPath x.cfg TARGETS = joinPath dir b!"targets.json" ∧ persistPath x.cfg ROOT = joinPath dir b!"root.json" := by
    intro x hx
    have c := cacheFile x
    have l := C48_top_level x
    rw [← l _ (by decide), ← l _ (by decide), ← l _ (by decide), ← l _ (by decide), c.1, c.2.1, c.2.2.1, c.2.2.2, hx]
    exact ⟨rfl, rfl, rfl, rfl⟩
  induction h with
  | start => exact h0
  | @new x w evs fs' _ hdir ht hc ih =>
    obtain ⟨n1, n2, n3, n4⟩ := names x hdir
    have key : ∀ role, role ≠ ROOT → fs' (persistPath x.cfg role) = w.fs (persistPath x.cfg role) := by
      intro role hr
      rcases C28_new ht hc (persistPath_not_temp x.cfg role) with h | ⟨h, _⟩
      · exact h
      · rw [hdir, ← n4] at h
        exact absurd (persistPath_inj h) hr
    have k1 := key TIMESTAMP (by decide)
    have k2 := key SNAPSHOT (by decide)
    have k3 := key TARGETS (by decide)
    rw [n1] at k1; rw [n2] at k2; rw [n3] at k3
    exact ⟨by rw [k1]; exact ih.timestamp, by rw [k2]; exact ih.snapshot, by rw [k3]; exact ih.targets⟩
  | @call x t0 w s a evs fs' _ hcar hses ht hc hdl ih =>
    obtain ⟨n1, n2, n3, _⟩ := names x hcar.sameDir
    have hhist := (session_history hses).history
    rw [hcar.sameEnv] at hhist
    have says := fun u data => accepted_says (u := u) (data := data) laws hH hcar hhist
    have key : ∀ role, role ∈ [TIMESTAMP, SNAPSHOT, TARGETS] → persistPath x.cfg role = joinPath dir (role ++ b!".json") → fs' (persistPath x.cfg role) = s.world.fs (persistPath x.cfg role) ∨
        ∃ data u, fs' (persistPath x.cfg role) = some data ∧ JustAccepted env s.trusted u role data := by
      intro role hr hn
      rcases C28_crash_atomic a s ht hc (persistPath_not_temp x.cfg role) (fun tf f u ha he => hdl tf f u role ha (by rw [he, hn])) with h | ⟨role', data, u, h1, h2, h3⟩
      · exact .inl h
      · rw [hcar.sameEnv] at h3
        obtain rfl := persistPath_inj (show persistPath x.cfg role = persistPath x.cfg role' from h1)
        exact .inr ⟨data, u, h2, h3⟩
    refine ⟨fun d hd => ?_, fun d hd => ?_, fun d hd => ?_⟩
    · rcases key TIMESTAMP (by simp) n1 with h | ⟨data, u, h1, h2⟩
      · rw [n1] at h
        exact ih.timestamp d (h ▸ hd)
      · rw [n1, hd] at h1
        cases h1
        exact (says u d).1 h2
    · rcases key SNAPSHOT (by simp) n2 with h | ⟨data, u, h1, h2⟩
      · rw [n2] at h
        exact ih.snapshot d (h ▸ hd)
      · rw [n2, hd] at h1
        cases h1
        exact (says u d).2.1 h2
    · rcases key TARGETS (by simp) n3 with h | ⟨data, u, h1, h2⟩
      · rw [n3] at h
        exact ih.targets d (h ▸ hd)
      · rw [n3, hd] at h1
        cases h1
        exact (says u d).2.2 h2

end

/-! ## Refreshing afterwards -/

section
variable {env : Env} {t : Trusted} {now : Time} {r : RootType} {old new : Files} {d : Bytes}

def SameTimestamp (a b : Metadata TimestampType) : Prop := viewTimestamp a.signed = viewTimestamp b.signed
def SameSnapshot (a b : Metadata SnapshotType) : Prop := viewSnapshot a.signed = viewSnapshot b.signed

theorem viewTimestamp_idem (a : TimestampType) : viewTimestamp (viewTimestamp a) = viewTimestamp a := by unfold viewTimestamp; simp only [mapValues_mapValues viewMeta_idem]
theorem viewSnapshot_idem (a : SnapshotType) : viewSnapshot (viewSnapshot a) = viewSnapshot a := by unfold viewSnapshot; simp only [mapValues_mapValues viewMeta_idem]

theorem view_ts_version {a b : Metadata TimestampType} (h : SameTimestamp a b) : a.signed.version = b.signed.version := by
  have := congrArg TimestampType.version (show viewTimestamp a.signed = viewTimestamp b.signed from h)
  exact this
theorem view_sn_version {a b : Metadata SnapshotType} (h : SameSnapshot a b) : a.signed.version = b.signed.version ∧ a.signed.expires = b.signed.expires := by
  have h1 := congrArg SnapshotType.version (show viewSnapshot a.signed = viewSnapshot b.signed from h)
  have h2 := congrArg SnapshotType.expires (show viewSnapshot a.signed = viewSnapshot b.signed from h)
  exact ⟨h1, h2⟩
theorem view_tg_version {a b : TargetsType} (h : viewTargets a = viewTargets (readTargets b)) : a.version = b.version := by
  have := congrArg TargetsType.version h
  exact this

theorem payload_of_carries {T : Type} [RoleType T] (hany : ∀ m : Metadata T, (RoleType.any m).signatures = m.signatures.elems ∧ (RoleType.any m).payload = payload m.signed)
    {m : Metadata T} {sigs : List Signature} {p : Bytes} (h : Carries (RoleType.any m) sigs p) : payload m.signed = .ok p := by
  have := (carries_iff.1 h).2
  rw [(hany m).2] at this
  cases hp : payload m.signed with
  | ok q => rw [hp] at this; cases this; rfl
  | err e => rw [hp] at this; cases this
  | panic => rw [hp] at this; cases this

theorem said_timestamp (laws : EnvLaws env) (hold : WasReleased env old) {m : Metadata TimestampType} (hp : ParsesTo env d m) (he : payload m.signed = payload old.ts) :
    (∃ sigs p, Carries (.timestamp m) sigs p) ∧ viewTimestamp m.signed = viewTimestamp old.ts := by
  obtain ⟨ss, hne, hpub⟩ := hold.timestamp
  obtain ⟨m0, sigs, p, a1, a2, a3⟩ := publishes_carries (fun _ => goodTimestamp_rt laws) C85_payload.2.2.1 C08_all_types.2.2.1 hold.goodTimestamp hne hpub
  have h0 := payload_of_carries C08_all_types.2.2.1 a3
  have h1 : payload m.signed = .ok p := by rw [he, ← C85_payload.2.2.1, ← a2, h0]
  refine ⟨⟨_, _, any_carries C08_all_types.2.2.1 h1⟩, ?_⟩
  rw [C65_timestamp laws hp a1 h1 h0, a2, viewTimestamp_idem]

theorem said_snapshot (laws : EnvLaws env) (hold : WasReleased env old) {m : Metadata SnapshotType} (hp : ParsesTo env d m) (he : payload m.signed = payload old.sn) :
    (∃ sigs p, Carries (.snapshot m) sigs p) ∧ viewSnapshot m.signed = viewSnapshot old.sn := by
  obtain ⟨ss, hne, hpub⟩ := hold.snapshot
  obtain ⟨m0, sigs, p, a1, a2, a3⟩ := publishes_carries (fun _ => goodSnapshot_rt laws) C85_payload.2.1 C08_all_types.2.1 hold.goodSnapshot hne hpub
  have h0 := payload_of_carries C08_all_types.2.1 a3
  have h1 : payload m.signed = .ok p := by rw [he, ← C85_payload.2.1, ← a2, h0]
  refine ⟨⟨_, _, any_carries C08_all_types.2.1 h1⟩, ?_⟩
  rw [C65_snapshot laws hp a1 h1 h0, a2, viewSnapshot_idem]

theorem said_targets (laws : EnvLaws env) (hold : WasReleased env old) {m : Metadata TargetsType} (hp : ParsesTo env d m) (he : payload m.signed = payload old.tg) :
    (∃ sigs p, Carries (.targets m) sigs p) ∧ viewTargets m.signed = viewTargets (readTargets old.tg) := by
  obtain ⟨ss, hne, hpub⟩ := hold.targets
  obtain ⟨m0, sigs, p, a1, a2, a3⟩ := publishes_carries (fun _ => goodTargets_rt laws) C85_payload.2.2.2 C08_all_types.2.2.2 hold.goodTargets hne hpub
  have h0 := payload_of_carries C08_all_types.2.2.2 a3
  have h1 : payload m.signed = .ok p := by rw [he, ← C85_payload.2.2.2, ← a2, h0]
  refine ⟨⟨_, _, any_carries C08_all_types.2.2.2 h1⟩, ?_⟩
  rw [C65_targets laws hp a1 h1 h0, a2]

theorem view_listed {a b : GoMap (Option MetaFiles)} (h : mapValues viewMeta a = mapValues viewMeta b) {name : Str} {f : MetaFiles} (hb : b.get? name = some (some f)) :
    ∃ f', a.get? name = some (some f') ∧ viewMeta f' = viewMeta f := by
  have h1 := mapValues_get? (f := viewMeta) hb
  rw [← h] at h1
  exact mapValues_get_some h1

theorem view_version {a b : MetaFiles} (h : viewMeta a = viewMeta b) : a.version = b.version := (by have := congrArg MetaFiles.version h; exact this)
theorem view_length {a b : MetaFiles} (h : viewMeta a = viewMeta b) : a.length = b.length := (by have := congrArg MetaFiles.length h; exact this)

theorem view_matches {a b : MetaFiles} (h : viewMeta a = viewMeta b) {data : Bytes} (hb : MetaMatches env b data) : MetaMatches env a data := by
  have h1 := metaMatches_view hb
  rw [← h] at h1
  refine ⟨h1.1, ?_⟩
  have h2 := h1.2
  unfold viewMeta at h2
  dsimp only at h2
  split at h2
  · rename_i he
    intro alg d hm
    have : (alg, d) ∈ a.hashes.entries := hm
    rw [he] at this
    cases this
  · exact h2

/-- A cached timestamp that says what an earlier release says does no harm. -/
theorem said_timestamp_harmless (laws : EnvLaws env) (hold : WasReleased env old) (hfol : MayFollow old new) (hnew : Released env now r new) (hroot : t.root.signed = readRoot r)
    (h1 : t.timestamp = none) (h2 : t.snapshot = none) (hnow : t.refTime = now) {mts m : Metadata TimestampType} (hts : mts.signed = viewTimestamp new.ts)
    (hacc : TimestampAccepted env t new.dts mts) (hp : ParsesTo env d m) (he : payload m.signed = payload old.ts) : HarmlessTimestampBy SameTimestamp env t new.dts mts d := by
  obtain ⟨⟨sigs, p, a3⟩, a2⟩ := said_timestamp laws hold hp he
  obtain ⟨ss', _, hs'⟩ := hnew.timestamp
  have hx : isExpired t.root.signed.expires t.refTime = false := isExpired_false.2 (by rw [hroot, hnow]; exact hnew.rootFresh)
  have htype : m.signed.type = TIMESTAMP := (congrArg TimestampType.type a2).trans hold.goodTimestamp.type
  have heq : t.checkTimestamp env d = (verifyDelegate env (.root t.root) TIMESTAMP (.timestamp m)).bind (fun _ => .ok m) := by
    unfold Trusted.checkTimestamp
    rw [h2, if_neg (by simp), if_neg (by rw [hx]; simp), hp]
    show (if m.signed.type ≠ TIMESTAMP then _ else _) = _
    rw [if_neg (by rw [htype]; simp), h1]
    rfl
  rcases verifyDelegate_decides (suffice_root (m' := t.root) hroot hs') a3 with hv | ⟨msg, hv⟩
  · change verifyDelegate env (.root t.root) TIMESTAMP (.timestamp m) = _ at hv
    have hacc' : TimestampAccepted env t d m := checkTimestamp_ok.1 (by rw [heq]; rw [hv]; rfl)
    refine .inr ⟨m, hacc', ?_⟩
    rcases hfol.timestamp with hlt | hsame
    · refine .inr ⟨h2, hacc.rootFresh, hacc.parsed, hacc.type, hacc.signed, ?_, ?_⟩
      · rintro o ho
        cases ho
        rw [show m.signed.version = old.ts.version from (by have := congrArg TimestampType.version a2; exact this), hts]
        exact hlt
      · rintro o ho
        cases ho
        obtain ⟨f', g1, g2⟩ := view_listed (congrArg TimestampType.metas a2) hold.snapshotListed
        refine ⟨_, _, ⟨f', g1, rfl⟩, ?_, by rw [view_version g2]; exact hfol.snapshotEntry⟩
        rw [hts]; exact lists_view ⟨_, hnew.snapshotListed.1, rfl⟩
    · refine .inl ?_
      obtain ⟨ss, hne, hpub⟩ := hold.timestamp
      obtain ⟨m0, _, _, b1, b2, _⟩ := publishes_carries (fun _ => goodTimestamp_rt laws) C85_payload.2.2.1 C08_all_types.2.2.1 hold.goodTimestamp hne hpub
      have h3 := hacc.parsed
      rw [← hsame] at h3
      have := b1.symm.trans h3
      injection this with this
      unfold SameTimestamp
      rw [a2, ← this, b2, viewTimestamp_idem]
  · change verifyDelegate env (.root t.root) TIMESTAMP (.timestamp m) = _ at hv
    refine .inl ⟨.unsignedMetadata msg, ?_, rfl⟩
    unfold Trusted.updateTimestamp
    rw [heq, hv]
    rfl

/-- A cached snapshot that says what an earlier release says does no harm. -/
theorem said_snapshot_harmless (laws : EnvLaws env) (hold : WasReleased env old) (hfol : MayFollow old new) (hnew : Released env now r new) (hroot : t.root.signed = readRoot r)
    (h2 : t.snapshot = none) (h3 : t.targets = []) (hnow : t.refTime = now) {mts : Metadata TimestampType} {msn m : Metadata SnapshotType} (hts : viewTimestamp mts.signed = viewTimestamp new.ts)
    (hsn : msn.signed = viewSnapshot new.sn) {f : MetaFiles} (hf : f.version = new.fsn.version)
    (hacc : SnapshotAccepted env { t with timestamp := some mts } new.dsn false msn) (hp : ParsesTo env d m) (he : payload m.signed = payload old.sn) :
    HarmlessSnapshotBy SameSnapshot env { t with timestamp := some mts } f new.dsn msn d := by
  obtain ⟨⟨sigs, p, a3⟩, a2⟩ := said_snapshot laws hold hp he
  obtain ⟨ss', _, hs'⟩ := hnew.snapshot
  have htype : m.signed.type = SNAPSHOT := (congrArg SnapshotType.type a2).trans hold.goodSnapshot.type
  have hexp : mts.signed.expires = new.ts.expires := (by have := congrArg TimestampType.expires hts; exact this)
  have hx : isExpired mts.signed.expires t.refTime = false := isExpired_false.2 (by rw [hexp, hnow]; exact hnew.timestampFresh)
  have heq : ({ t with timestamp := some mts } : Trusted).checkSnapshot env d true = (verifyDelegate env (.root t.root) SNAPSHOT (.snapshot m)).bind (fun _ => .ok m) := by
    unfold Trusted.checkSnapshot
    dsimp only
    rw [h3, if_neg (by simp [Entries.get?])]
    have hf : ({ root := t.root, snapshot := t.snapshot, timestamp := some mts, targets := [], refTime := t.refTime } : Trusted).checkFinalTimestamp = .ok () := by
      simp [Trusted.checkFinalTimestamp, Res.deref, hx]
    rw [hf, Res.bind_ok, if_neg (by simp), hp]
    show (if m.signed.type ≠ SNAPSHOT then _ else _) = _
    rw [if_neg (by rw [htype]; simp), h2]
    rfl
  have hver : m.signed.version = old.sn.version := (by have := congrArg SnapshotType.version a2; exact this)
  rcases verifyDelegate_decides (suffice_root (m' := t.root) hroot hs') a3 with hv | ⟨msg, hv⟩
  · change verifyDelegate env (.root t.root) SNAPSHOT (.snapshot m) = _ at hv
    have hacc' : SnapshotAccepted env { t with timestamp := some mts } d true m := checkSnapshot_ok.1 (by rw [heq, hv]; rfl)
    refine .inr ⟨m, hacc', ?_⟩
    rcases hfol.snapshot with hne | hsame
    · refine .inr ⟨.inr ?_, hacc.timestamp, hacc.early, hacc.parsed, hacc.type, hacc.signed, ?_⟩
      · rw [hver, hf, hnew.snapshotListed.2.1]
        exact hne
      · rintro o ho name f hm
        cases ho
        have hm1 : (name, f.map viewMeta) ∈ (mapValues viewMeta m.signed.metas).entries := by
          rw [mapValues_entries]
          exact List.mem_map.2 ⟨_, hm, rfl⟩
        rw [show mapValues viewMeta m.signed.metas = mapValues viewMeta old.sn.metas from congrArg SnapshotType.metas a2, mapValues_entries] at hm1
        obtain ⟨e, he, hef⟩ := List.mem_map.1 hm1
        obtain ⟨a, ha, _⟩ := hold.goodSnapshot.metas.values e he
        simp only [Prod.mk.injEq] at hef
        obtain ⟨hef1, hef2⟩ := hef
        rw [ha] at hef2
        obtain ⟨o, ho, hoa⟩ := Option.map_eq_some_iff.1 hef2.symm
        have hget : old.sn.metas.get? e.1 = some (some a) := by
          rw [← ha]
          exact Entries.get?_of_mem hold.goodSnapshot.metas.sorted.nodup he
        obtain ⟨f', g1, g2⟩ := hfol.listed _ _ hget
        refine ⟨o, viewMeta f', ho, ?_, by rw [view_version hoa]; exact g2⟩
        rw [hsn, ← hef1]
        exact mapValues_get? g1
    · refine .inl ?_
      obtain ⟨ss, hne, hpub⟩ := hold.snapshot
      obtain ⟨m0, _, _, b1, b2, _⟩ := publishes_carries (fun _ => goodSnapshot_rt laws) C85_payload.2.1 C08_all_types.2.1 hold.goodSnapshot hne hpub
      have h4 := hacc.parsed
      rw [← hsame] at h4
      have := b1.symm.trans h4
      injection this with this
      unfold SameSnapshot
      rw [a2, ← this, b2, viewSnapshot_idem]
  · change verifyDelegate env (.root t.root) SNAPSHOT (.snapshot m) = _ at hv
    refine .inl ⟨.unsignedMetadata msg, ?_, rfl⟩
    unfold Trusted.updateSnapshot
    rw [heq, hv]
    rfl

/-- Cached targets that say what an earlier release says do no harm, and are accepted only if they say what the current ones say. -/
theorem said_targets_harmless (laws : EnvLaws env) (hold : WasReleased env old) (hfol : MayFollow old new) (hnew : Released env now r new) (hroot : t.root.signed = readRoot r)
    {mts : Metadata TimestampType} {msn : Metadata SnapshotType} {mtg m : Metadata TargetsType}
    (hsn : viewSnapshot msn.signed = viewSnapshot new.sn) (hmtg : mtg.signed = readTargets new.tg)
    (hacc : TargetsAccepted env { t with timestamp := some mts, snapshot := some msn } new.dtg b!"targets" b!"root" mtg) (hp : ParsesTo env d m) (he : payload m.signed = payload old.tg) :
    HarmlessTargets env { t with timestamp := some mts, snapshot := some msn } d ∧
    ∀ m, TargetsAccepted env { t with timestamp := some mts, snapshot := some msn } d b!"targets" b!"root" m → viewTargets m.signed = viewTargets (readTargets new.tg) := by
  obtain ⟨⟨sigs, p, a3⟩, a2⟩ := said_targets laws hold hp he
  obtain ⟨ss', _, hs'⟩ := hnew.targets
  have htype : m.signed.type = TARGETS := (congrArg TargetsType.type a2).trans hold.goodTargets.type
  obtain ⟨ftg, g2, g3⟩ := view_listed (congrArg SnapshotType.metas hsn) hnew.targetsListed.1
  generalize ht' : ({ t with timestamp := some mts, snapshot := some msn } : Trusted) = t' at *
  have e1 : t'.snapshot = some msn := by rw [← ht']
  have e2 : t'.root = t.root := by rw [← ht']
  have e3 : t'.refTime = t.refTime := by rw [← ht']
  have e4 : t'.timestamp = some mts := by rw [← ht']
  have hfin : t'.checkFinalSnapshot = .ok () := by
    obtain ⟨sn', ts', _, _, b1, b2, b3, b4, _⟩ := hacc.snapshot
    exact checkFinalSnapshot_ok.2 ⟨sn', ts', b1, b2, b3, b4⟩
  constructor
  · have key : (∃ e, t'.checkTargets env d TARGETS ROOT = .err e ∧ e.isRepository = true) ∨ ∃ m, t'.checkTargets env d TARGETS ROOT = .ok m := by
      unfold Trusted.checkTargets
      rw [e1]
      dsimp only
      rw [hfin, Res.bind_ok]
      have hdel : t'.delegator ROOT = some (.root t.root) := by unfold Trusted.delegator; rw [if_pos rfl, e2]
      rw [hdel]
      dsimp only
      have g2' : msn.signed.metas.get? (jsonName TARGETS) = some (some ftg) := g2
      rw [g2']
      dsimp only [Res.deref]
      rw [Res.bind_ok]
      by_cases hm : ftg.verifyLengthHashes env d = .ok ()
      · rw [hm, Res.bind_ok, hp]
        show (∃ e, (if m.signed.type ≠ TARGETS then _ else _) = _ ∧ _) ∨ ∃ m', (if m.signed.type ≠ TARGETS then _ else _) = _
        rw [if_neg (by rw [htype]; simp)]
        rcases verifyDelegate_decides (suffice_root (m' := t.root) hroot hs') a3 with hv | ⟨msg, hv⟩
        · rw [show verifyDelegate env (.root t.root) TARGETS (.targets m) = _ from hv, Res.bind_ok]
          by_cases hver : m.signed.version ≠ ftg.version
          · rw [if_pos hver]; exact .inl ⟨_, rfl, rfl⟩
          · rw [if_neg hver]
            split
            · exact .inl ⟨_, rfl, rfl⟩
            · exact .inr ⟨_, rfl⟩
        · rw [show verifyDelegate env (.root t.root) TARGETS (.targets m) = _ from hv]
          exact .inl ⟨_, rfl, rfl⟩
      · obtain ⟨msg, hm⟩ := metaVerify_err (fun hk => hm (metaVerify_ok.2 hk))
        rw [hm]
        exact .inl ⟨_, rfl, rfl⟩
    rcases key with ⟨e, h1, h2⟩ | ⟨m', h1⟩
    · refine .inl ⟨e, ?_, h2⟩
      unfold Trusted.updateDelegatedTargets
      rw [show t'.checkTargets env d b!"targets" b!"root" = _ from h1]
    · exact .inr ⟨m', checkTargets_ok.1 h1⟩
  · intro m' hm'
    obtain ⟨sn', _, f, D, b1, _, _, _, b5, _, b7, _, _⟩ := hm'.snapshot
    rw [e1] at b1
    cases b1
    have b5' : msn.signed.metas.get? b!"targets.json" = some (some f) := b5
    rw [g2] at b5'
    cases b5'
    have hmm : m' = m := by
      have := hm'.parsed.symm.trans hp
      injection this
    rw [hmm] at b7 ⊢
    rcases hfol.targets with hne | hsame
    · refine absurd ?_ hne
      rw [show m.signed.version = old.tg.version from view_tg_version a2, view_version g3] at b7
      rw [b7]
      exact hnew.targetsListed.2.1
    · obtain ⟨ss, hne, hpub⟩ := hold.targets
      obtain ⟨m0, _, _, c1, c2, _⟩ := publishes_carries (fun _ => goodTargets_rt laws) C85_payload.2.2.2 C08_all_types.2.2.2 hold.goodTargets hne hpub
      have h4 := hacc.parsed
      rw [← hsame] at h4
      have := c1.symm.trans h4
      injection this with this
      rw [a2, ← c2, this, hmtg]

end

section
variable {x : Ctx} {srv : Str → Int → Except Err Bytes} {now : Time} {r : RootType} {new : Files} {t : Trusted}

/-- With a timestamp that says what the current release says, and a cache that says what earlier releases say, snapshot and targets of the release are loaded. -/
theorem says_rest (laws : EnvLaws x.env) (h : Released x.env now r new) (hv : ServingFiles x srv r new)
    (hs : Serves x.host srv) (hd : x.cfg.disableLocalCache = true ∨ GoodDisk x.host) (hroot : t.root.signed = readRoot r) (h1 : t.timestamp = none) (h2 : t.snapshot = none)
    (h3 : t.targets = []) (hnow : t.refTime = now) {mts : Metadata TimestampType} (vts : viewTimestamp mts.signed = viewTimestamp new.ts) {s2 : St}
    (q2 : s2.trusted = { t with timestamp := some mts }) {N : Str → Prop} [TempNames x.host N] (w2 : Free N s2.world.fs)
    (hsc : ∀ d, s2.world.fs (joinPath x.cfg.localMetadataDir b!"snapshot.json") = some d →
      ∃ R, WasReleased x.env R ∧ MayFollow R new ∧ ∃ m : Metadata SnapshotType, ParsesTo x.env d m ∧ payload m.signed = payload R.sn)
    (htc : ∀ d, s2.world.fs (joinPath x.cfg.localMetadataDir b!"targets.json") = some d →
      ∃ R, WasReleased x.env R ∧ MayFollow R new ∧ ∃ m : Metadata TargetsType, ParsesTo x.env d m ∧ payload m.signed = payload R.tg) :
    ∃ msn m s3 s4, loadSnapshot x s2 = (.ok (), s3) ∧ loadTargets x TARGETS ROOT s3 = (.ok m, s4) ∧
      s4.trusted = { t with timestamp := some mts, snapshot := some msn, targets := [(b!"targets", m)] } ∧ viewSnapshot msn.signed = viewSnapshot new.sn ∧
      viewTargets m.signed = viewTargets (readTargets new.tg) ∧ Free N s4.world.fs := by
  obtain ⟨ts, sn, tg, a, b, c0, hvu⟩ := release_update laws h hroot h1 h2 h3 hnow hv
  have c := cacheFile x
  obtain ⟨fsn, l1, l2⟩ := view_listed (congrArg TimestampType.metas vts) h.snapshotListed.1
  have hrest : ValidRest x srv t new.dsn mts sn fsn := by
    obtain ⟨ts', e1, e2, e3⟩ := hvu.snapshotOk.timestamp
    cases e1
    obtain ⟨f, e4, e5⟩ := e3 rfl
    have e6 := hvu.snapshotListed
    rw [show ts.signed.metas.get? b!"snapshot.json" = some (some f) from e4] at e6
    cases e6
    refine ⟨l1, ?_, ⟨⟨mts, rfl, ?_, fun _ => ⟨fsn, l1, ?_⟩⟩, hvu.snapshotOk.early, hvu.snapshotOk.parsed, hvu.snapshotOk.type, hvu.snapshotOk.signed, hvu.snapshotOk.noRollback⟩,
      hvu.snapshotFresh, ?_⟩
    · rw [view_version l2, view_length l2]
      exact hvu.snapshot
    · rw [show mts.signed.expires = new.ts.expires from (by have := congrArg TimestampType.expires vts; exact this)]
      rw [a] at e2
      exact e2
    · exact view_matches (l2.trans (viewMeta_idem _).symm) e5
    · rw [view_version l2]
      exact hvu.snapshotVersion
  obtain ⟨msn, s3, p3, q3, o3, w3⟩ := loadSnapshot_progress_by (S := SameSnapshot) (fun _ h => view_sn_version h) hs hd hrest h2 q2 w2 (by
    intro d hfs
    rw [c.2.1] at hfs
    obtain ⟨R, r1, r2, m, r3, r4⟩ := hsc d hfs
    exact said_snapshot_harmless laws r1 r2 h hroot h2 h3 hnow vts b (view_version l2) hrest.snapshotOk r3 r4)
  have f3 := fun role hr => loadSnapshot_files (x := x) s2 (role := role) hr
  rw [p3] at f3
  dsimp only at f3
  have vsn : viewSnapshot msn.signed = viewSnapshot new.sn := by
    rcases o3 with rfl | o3
    · rw [b, viewSnapshot_idem]
    · exact (show viewSnapshot msn.signed = viewSnapshot sn.signed from o3).trans (by rw [b, viewSnapshot_idem])
  obtain ⟨ftg, l3, l4⟩ := view_listed (congrArg SnapshotType.metas vsn) h.targetsListed.1
  have hlast : ValidTargets x srv t new.dtg mts msn tg ftg := by
    obtain ⟨sn', ts', f, D, e1, e2, e3, e4, e5, e6, e7, e8, e9⟩ := hvu.targetsOk.snapshot
    cases e1
    cases e2
    have e10 := hvu.targetsListed
    rw [show sn.signed.metas.get? b!"targets.json" = some (some f) from e5] at e10
    cases e10
    refine ⟨hvu.snapshotOk.early, l3, ?_, ⟨⟨msn, mts, ftg, D, rfl, rfl, ?_, ?_, l3, ?_, ?_, ?_, e9⟩, hvu.targetsOk.parsed, hvu.targetsOk.type, hvu.targetsOk.fresh⟩⟩
    · rw [view_version l4, view_length l4]
      exact hvu.targets
    · rw [show msn.signed.expires = new.sn.expires from (by have := congrArg SnapshotType.expires vsn; exact this)]
      rw [b] at e3
      exact e3
    · refine ⟨fsn, l1, ?_⟩
      rw [view_version l2, show msn.signed.version = new.sn.version from (by have := congrArg SnapshotType.version vsn; exact this)]
      exact h.snapshotListed.2.1
    · exact view_matches (l4.trans (viewMeta_idem _).symm) e6
    · rw [view_version l4]
      exact e7
    · cases e8 with
      | root => exact .root
      | targets hne _ => exact absurd rfl hne
  have said : ∀ d, s2.world.fs (joinPath x.cfg.localMetadataDir b!"targets.json") = some d → HarmlessTargets x.env { t with timestamp := some mts, snapshot := some msn } d ∧
      ∀ m, TargetsAccepted x.env { t with timestamp := some mts, snapshot := some msn } d b!"targets" b!"root" m → viewTargets m.signed = viewTargets (readTargets new.tg) := by
    intro d hfs
    obtain ⟨R, r1, r2, m, r3, r4⟩ := htc d hfs
    exact said_targets_harmless laws r1 r2 h hroot vsn c0 hlast.targetsOk r3 r4
  obtain ⟨m, s4, p4, q4, o4, w4⟩ := loadTargets_progress hs hd hlast q3 w3 (by
    rw [f3 _ (by decide), c.2.2.1]
    exact fun d hfs => (said d hfs).1)
  rw [f3 _ (by decide), c.2.2.1] at o4
  refine ⟨msn, m, s3, s4, p3, p4, ?_, vsn, ?_, w4⟩
  · rw [q4, h3]
    rfl
  · rcases o4 with rfl | ⟨d, o4, o5⟩
    · rw [c0]
    · exact (said d o4).2 m o5

/-- A client whose cached metadata say what earlier releases say refreshes successfully to the current release. -/
theorem says_upgrade (laws : EnvLaws x.env) (h : Released x.env now r new) (hv : ServingFiles x srv r new) (hu : x.cfg.unsafeLocalMode = false)
    (hs : Serves x.host srv) (hd : x.cfg.disableLocalCache = true ∨ GoodDisk x.host) {s : St} {N : Str → Prop} [TempNames x.host N] (hw : Free N s.world.fs)
    (hm : 0 ≤ x.cfg.maxRootRotations ∧ wrap64 (s.trusted.root.signed.version + 1) + x.cfg.maxRootRotations < 2 ^ 63)
    (hroots : RootsLeadTo x srv x.cfg.maxRootRotations.toNat s.trusted t) (hroot : t.root.signed = readRoot r)
    (hts : s.trusted.timestamp = none) (hsn : s.trusted.snapshot = none) (htg : s.trusted.targets = []) (hnow : s.trusted.refTime = now)
    (hcache : CacheSays x.env x.cfg.localMetadataDir s.world.fs new) :
    ∃ mts msn mtg s', refresh x s = (.ok (), s') ∧ s'.trusted = { t with timestamp := some mts, snapshot := some msn, targets := [(b!"targets", mtg)] } ∧
      viewTimestamp mts.signed = viewTimestamp new.ts ∧ viewSnapshot msn.signed = viewSnapshot new.sn ∧ viewTargets mtg.signed = viewTargets (readTargets new.tg) ∧
      Free N s'.world.fs := by
  obtain ⟨k1, k2, k3, k4⟩ := rootsLeadTo_keeps hroots
  obtain ⟨ts, sn, tg, a, b, c0, hvu⟩ := release_update laws h hroot (k1.trans hts) (k2.trans hsn) (k3.trans htg) (k4.trans hnow) hv
  have c := cacheFile x
  have hb := wrap64_bounds (s.trusted.root.signed.version + 1)
  have hn : (wrap64 (wrap64 (s.trusted.root.signed.version + 1) + x.cfg.maxRootRotations) - wrap64 (s.trusted.root.signed.version + 1)).toNat =
      x.cfg.maxRootRotations.toNat := by
    rw [wrap64_of_bounds (n := wrap64 (s.trusted.root.signed.version + 1) + x.cfg.maxRootRotations) (by omega) (by omega)]
    omega
  obtain ⟨s1, p1, q1, w1⟩ := rootLoop_progress hs hd hroots (wrap64 (s.trusted.root.signed.version + 1)) s rfl hw rfl (by omega)
  have p1' : loadRoot x s = (.ok (), s1) := by
    rw [← p1, ← hn]
    rfl
  have f1 := fun role hr => loadRoot_files (x := x) s (role := role) hr
  rw [p1'] at f1
  dsimp only at f1
  obtain ⟨mts, s2, p2, q2, o2, w2⟩ := loadTimestamp_progress_by (S := SameTimestamp) (fun _ h => view_ts_version h) hs hd hvu (k1.trans hts) q1 w1 (by
    intro d hfs
    rw [f1 _ (by decide), c.1] at hfs
    obtain ⟨R, r1, r2, m, r3, r4⟩ := hcache.timestamp d hfs
    exact said_timestamp_harmless laws r1 r2 h hroot (k1.trans hts) (k2.trans hsn) (k4.trans hnow) a hvu.timestampOk r3 r4)
  have f2 := fun role hr => loadTimestamp_files (x := x) s1 (role := role) hr
  rw [p2] at f2
  dsimp only at f2
  have vts : viewTimestamp mts.signed = viewTimestamp new.ts := by
    rcases o2 with rfl | o2
    · rw [a, viewTimestamp_idem]
    · exact (show viewTimestamp mts.signed = viewTimestamp ts.signed from o2).trans (by rw [a, viewTimestamp_idem])
  obtain ⟨msn, m, s3, s4, p3, p4, q4, vsn, vtg, w4⟩ := says_rest laws h hv hs hd hroot (k1.trans hts) (k2.trans hsn) (k3.trans htg) (k4.trans hnow) vts q2 w2
    (by
      intro d hfs
      rw [← c.2.1, f2 _ (by decide), f1 _ (by decide), c.2.1] at hfs
      exact hcache.snapshot d hfs)
    (by
      intro d hfs
      rw [← c.2.2.1, f2 _ (by decide), f1 _ (by decide), c.2.2.1] at hfs
      exact hcache.targets d hfs)
  refine ⟨mts, msn, m, s4, ?_, q4, vts, vsn, vtg, w4⟩
  unfold refresh
  rw [if_neg (by simp [hu])]
  unfold onlineRefresh
  rw [SM.bind_ok p1', SM.bind_ok p2, SM.bind_ok p3, SM.bind_ok p4]
  rfl

end

/-- **C134**: clients ran on this cache, against any servers, and were perhaps interrupted, while fewer keys than the thresholds were compromised. A client that is then
under good conditions refreshes successfully, and trusts what the repository then says. -/
theorem C134_recovers {env : Env} {H : Holders} (laws : EnvLaws env) (hH : Diligent env H) {dir : Str} {v : ClientRun} (hg : v.Good env dir) {fs : FS} {w : World}
    (hatt : Attacked (Careful env H dir v.R) dir fs w.fs) (h0 : CacheSays env dir fs v.R) (hw : Free (GivenTemp v.x.host) w.fs) :
    ∃ t0 w1 s' ts sn tg, newUpdater v.x w = (.ok t0, w1) ∧ refresh v.x ⟨t0, w1⟩ = (.ok (), s') ∧ s'.trusted.root.signed = readRoot v.r ∧
      s'.trusted.timestamp = some ts ∧ viewTimestamp ts.signed = viewTimestamp v.R.ts ∧ s'.trusted.snapshot = some sn ∧ viewSnapshot sn.signed = viewSnapshot v.R.sn ∧
      s'.trusted.targets = [(b!"targets", tg)] ∧ viewTargets tg.signed = viewTargets (readTargets v.R.tg) := by
  have hcs := C134_cache laws hH hatt h0
  obtain ⟨t0, t, hne, h1, h2, h3, h4, h5⟩ := hg.roots
  obtain ⟨w1, n1, n2, n3⟩ := new_progress hg h1 hne hw
  have c := cacheFile v.x
  have l := C48_top_level v.x
  have e1 : w1.fs (joinPath dir b!"timestamp.json") = w.fs (joinPath dir b!"timestamp.json") := by
    have := n3 TIMESTAMP (by decide)
    rw [← l _ (by decide), c.1, hg.sameDir] at this
    exact this
  have e2 : w1.fs (joinPath dir b!"snapshot.json") = w.fs (joinPath dir b!"snapshot.json") := by
    have := n3 SNAPSHOT (by decide)
    rw [← l _ (by decide), c.2.1, hg.sameDir] at this
    exact this
  have e3 : w1.fs (joinPath dir b!"targets.json") = w.fs (joinPath dir b!"targets.json") := by
    have := n3 TARGETS (by decide)
    rw [← l _ (by decide), c.2.2.1, hg.sameDir] at this
    exact this
  obtain ⟨q, hq⟩ : ∃ m, t0 = { root := m, refTime := v.now } := by
    obtain ⟨m, _, _, _, hm⟩ := C78_new.1 h1
    exact ⟨m, hm⟩
  have hcb : CacheSays v.x.env v.x.cfg.localMetadataDir w1.fs v.R := by
    rw [hg.sameEnv, hg.sameDir]
    exact ⟨by rw [e1]; exact hcs.timestamp, by rw [e2]; exact hcs.snapshot, by rw [e3]; exact hcs.targets⟩
  obtain ⟨mts, msn, mtg, s', r1, r2, r3, r4, r5, _⟩ := says_upgrade (x := v.x) (s := ⟨t0, w1⟩) (by rw [hg.sameEnv]; exact laws) (by rw [hg.sameEnv]; exact hg.released)
    hg.served hg.online hg.network (.inr hg.disk) n2 ⟨h2, h3⟩ h4 h5 (by rw [hq]) (by rw [hq]) (by rw [hq]) (by rw [hq]) hcb
  exact ⟨t0, w1, s', mts, msn, mtg, n1, r1, by rw [r2]; exact h5, by rw [r2], r3, by rw [r2], r4, by rw [r2], r5⟩

end Tuf
