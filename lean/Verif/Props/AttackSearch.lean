import Verif.Props.Attack
import Verif.Props.HonestTree
import Verif.Props.TopLevel
import Verif.Spec.AttackSearch

/-!
# Searches of clients after attacks (C135)
-/

namespace Tuf
open Spec

/-! ## What attackers can leave in the cache -/

theorem attacked_mono {P Q : Ctx → Trusted → Prop} {dir : Str} {fs fs' : FS} (hPQ : ∀ x t, P x t → Q x t) (h : Attacked P dir fs fs') : Attacked Q dir fs fs' := by
  induction h with
  | start => exact .start
  | new _ h1 h2 h3 ih => exact .new ih h1 h2 h3
  | call _ h1 h2 h3 h4 h5 ih => exact .call ih (hPQ _ _ h1) h2 h3 h4 h5

section
variable {env : Env} {H : Holders} {dir : Str} {new : Files} {docs : Str → Option PubRole}

/-- A document that a genuine document's delegation verifies has the payload of a document that an honest holder of a key of the role signed. -/
theorem endorsed_of_verifies {first : Metadata RootType} (laws : EnvLaws env) (hH : Diligent env H) (hfirst : WellGuarded env H (.root first)) {parent role : Str} {D d : AnyMeta}
    (hD : Genuine env H first parent D) (hv : Verifies env D role d) (hr : ReadFrom env d) (ht : typeField d = kind d) :
    ∃ d' p, Endorsed env H first role d' ∧ SaysSame d' d ∧ payloadOf d' = .ok p ∧ payloadOf d = .ok p := by
  obtain ⟨D', hE, hsame⟩ := hD
  have hguard : WellGuarded env H D' := by
    cases hE with
    | first => exact hfirst
    | signed _ _ _ _ _ h1 h2 => exact hH.guarded _ _ h1 h2
  have hguard' : WellGuarded env H D := fun role keys ids t h => hguard role keys ids t (saysSame_delegates hsame h)
  obtain ⟨keys, ids, t, id, key, pk, h, sig, p, a1, a2, a3, a4, a5, a6, a7⟩ := verifies_honest hguard' hv
  obtain ⟨d', b1, b2⟩ := hH.unforgeable pk h sig p a5 a6
  obtain ⟨c1, c2⟩ := hH.readable pk d' a5 b1
  exact ⟨d', p, .signed hE (saysSame_delegates hsame a1) a2 a3 a4 a5 b1, payload_saysSame laws c1 hr c2 ht b2 a7, b2, a7⟩

/-- A document that a careful client accepts for a delegated role says what was published. -/
theorem accepted_role_says (laws : EnvLaws env) (hH : Diligent env H) {x : Ctx} {t0 t u : Trusted} {data : Bytes} {role : Str} {p : PubRole} (hc : CarefulSearch env H dir new docs x t0)
    (hh : History env t0 t) (hp : docs role = some p) (hn : role ∉ [b!"root", b!"timestamp", b!"snapshot"]) (hne : role ≠ b!"targets") (hj : JustAccepted env t u role data) :
    ∃ m : Metadata TargetsType, ParsesTo env data m ∧ PublishedBefore env p m.signed := by
  obtain ⟨now, h0⟩ := hc.careful.first
  obtain ⟨c, before, ho, hb, _, hr⟩ := hj
  have hgen := C91_trusted_set laws hH h0 hc.careful.guarded (hh.trans hb.history)
  cases c with
  | root d => exact absurd (by rw [ho.1]; simp) hn
  | timestamp d => exact absurd (by rw [ho.1]; simp) hn
  | snapshot d b => exact absurd (by rw [ho.1]; simp) hn
  | targets d r q =>
    obtain ⟨rfl, rfl⟩ := ho
    rcases updateTargets_cases env before d role q with ⟨n, _, ha⟩ | ⟨e, he⟩ | he
    · obtain ⟨_, _, _, D, _, _, _, _, _, _, _, h11, h12⟩ := ha.snapshot
      have hD : Genuine env H t0.root q D := by
        cases h11 with
        | root => exact hgen.root
        | targets _ h => exact hgen.targets _ _ h
      obtain ⟨d', pl, k1, k2, k3, k4⟩ := endorsed_of_verifies laws hH hc.careful.guarded hD h12 (.targets ha.parsed) ha.type
      cases k2 with
      | targets _ =>
        obtain ⟨v, ss, dd, e1, e2, e3, e4, e5⟩ := hc.published role p _ hp hne k1
        exact ⟨n, ha.parsed, v, ss, dd, e1, e2, e3, k4.trans (k3.symm.trans e4), e5⟩
    · rw [Call.run, he] at hr; cases hr
    · rw [Call.run, he] at hr; cases hr

/-- C135, the cache: whatever servers answer to any clients on this cache, and whenever these are interrupted: while fewer keys than the thresholds are compromised, the
cached documents of delegated roles say what was published. -/
theorem C135_cache (laws : EnvLaws env) (hH : Diligent env H) {fs fs' : FS} (hnamed : ∀ role p, docs role = some p → SafeName role ∧ role ∉ [b!"root", b!"timestamp", b!"snapshot"])
    (h : Attacked (CarefulSearch env H dir new docs) dir fs fs') (h0 : RolesSay env dir fs docs) : RolesSay env dir fs' docs := by
  induction h with
  | start => exact h0
  | @new x w evs fs' _ hdir ht hc ih =>
    intro role p d hp hne hd
    obtain ⟨hs, hn⟩ := hnamed role p hp
    obtain ⟨e1, e2⟩ := safeName_local (cfg := x.cfg) hs
    have hpath : persistPath x.cfg role = joinPath dir (role ++ b!".json") := by rw [← e1, e2, hdir]
    rcases C28_new ht hc (persistPath_not_temp x.cfg role) with h | ⟨h, _⟩
    · rw [hpath] at h
      exact ih role p d hp hne (h ▸ hd)
    · have hroot : persistPath x.cfg ROOT = joinPath x.cfg.localMetadataDir b!"root.json" := by
        rw [← C48_top_level x _ (by decide), (cacheFile x).2.2.2]
      rw [← hroot] at h
      exact absurd (by rw [persistPath_inj h]; decide) hn
  | @call x t0 w s a evs fs' _ hcar hses ht hc hdl ih =>
    intro role p d hp hne hd
    obtain ⟨hs, hn⟩ := hnamed role p hp
    obtain ⟨e1, e2⟩ := safeName_local (cfg := x.cfg) hs
    have hpath : persistPath x.cfg role = joinPath dir (role ++ b!".json") := by rw [← e1, e2, hcar.careful.sameDir]
    have hhist := (session_history hses).history
    rw [hcar.careful.sameEnv] at hhist
    rcases C28_crash_atomic a s ht hc (persistPath_not_temp x.cfg role) (fun tf f u ha he => hdl tf f u role ha (by rw [he, hpath])) with h | ⟨role', data, u, h1, h2, h3⟩
    · rw [hpath] at h
      exact ih role p d hp hne (h ▸ hd)
    · rw [hcar.careful.sameEnv] at h3
      obtain rfl := persistPath_inj (show persistPath x.cfg role = persistPath x.cfg role' from h1)
      rw [hpath, hd] at h2
      cases h2
      exact accepted_role_says laws hH hcar hhist hp hn hne h3

end

/-! ## Views -/

section
variable {env : Env} {path : Str}

/-- The trusted document says what is published. -/
def SaysRole (m : Metadata TargetsType) (v : TargetsType) : Prop := viewTargets m.signed = viewTargets (readTargets v)

theorem suffice_says {m : Metadata TargetsType} {v : TargetsType} (hm : SaysRole m v) {role : Str} {ss : List Signer} (h : Suffice env (.targets { signed := v }) role ss) :
    Suffice env (.targets m) role ss := by
  have h1 : Suffice env (.targets { signed := readTargets v }) role ss := suffice_targets (m := { signed := v }) rfl h
  obtain ⟨keys, ids, t, hd, rest⟩ := h1
  exact ⟨keys, ids, t, saysSame_delegates (.targets (a := m) (b := { signed := readTargets v }) hm) hd, rest⟩

theorem covers_view {a b : Metadata TargetsType} (h : viewTargets a.signed = viewTargets b.signed) {name : Str} {t : Bool} (hc : Covers env a path name t) : Covers env b path name t := by
  have hdel : b.signed.delegations.map viewDelegations = a.signed.delegations.map viewDelegations := (by have := congrArg TargetsType.delegations h; exact this.symm)
  cases hc with
  | @listed d before after r h1 h2 h3 h4 =>
    rw [h1] at hdel
    obtain ⟨d', e1, e2⟩ := Option.map_eq_some_iff.1 hdel
    have hr : (viewDelegations d').roles = (viewDelegations d).roles := congrArg Delegations.roles e2
    simp only [viewDelegations] at hr
    exact .listed e1 (hr.trans h2) h3 h4
  | @bin d sr suffix h1 h2 h3 h4 =>
    rw [h1] at hdel
    obtain ⟨d', e1, e2⟩ := Option.map_eq_some_iff.1 hdel
    have hr : (viewDelegations d').roles = (viewDelegations d).roles := congrArg Delegations.roles e2
    simp only [viewDelegations] at hr
    have hs : (if d'.roles.isSome then none else d'.succinctRoles) = (if d.roles.isSome then none else d.succinctRoles) := congrArg Delegations.succinctRoles e2
    rw [hr, h2] at hs
    exact .bin e1 (hr.trans h2) (by simpa [h3] using hs) h4

theorem covers_says {m : Metadata TargetsType} {v : TargetsType} (hm : SaysRole m v) {name : Str} {t : Bool} : Covers env m path name t ↔ Covers env { signed := v } path name t := by
  have h1 : viewTargets m.signed = viewTargets ({ signed := readTargets v } : Metadata TargetsType).signed := hm
  rw [← covers_read (m := { signed := readTargets v }) rfl]
  exact ⟨covers_view h1, covers_view h1.symm⟩

theorem says_delegations {m : Metadata TargetsType} {v : TargetsType} (hm : SaysRole m v) {d : Delegations} (h : m.signed.delegations = some d) :
    ∃ d0, v.delegations = some d0 ∧ d0.roles = d.roles ∧ (d.roles = none → d0.succinctRoles = d.succinctRoles) := by
  have hdel : m.signed.delegations.map viewDelegations = (readTargets v).delegations.map viewDelegations := (by have := congrArg TargetsType.delegations hm; exact this)
  rw [h] at hdel
  obtain ⟨d1, f1, f2⟩ := Option.map_eq_some_iff.1 hdel.symm
  have hr : (viewDelegations d1).roles = (viewDelegations d).roles := congrArg Delegations.roles f2
  simp only [viewDelegations] at hr
  have hs : (if d1.roles.isSome then none else d1.succinctRoles) = (if d.roles.isSome then none else d.succinctRoles) := congrArg Delegations.succinctRoles f2
  have f1' : v.delegations.map (fun d => { d with keys := mapValues readKey d.keys }) = some d1 := f1
  rw [Option.map_eq_some_iff] at f1'
  obtain ⟨d0, e5, rfl⟩ := f1'
  refine ⟨d0, e5, hr, fun hn => ?_⟩
  rw [hr, hn] at hs
  simpa using hs

theorem mapValues_get_none {α : Type} {f : α → α} {m : GoMap (Option α)} {k : Str} : (mapValues f m).get? k = none ↔ m.get? k = none := by
  cases m with
  | none => simp [mapValues, GoMap.get?, GoMap.entries]
  | some es =>
    show Entries.get? (es.map (fun e => (e.1, e.2.map f))) k = none ↔ Entries.get? es k = none
    induction es with
    | nil => simp
    | cons e es ih =>
      rw [List.map_cons, Entries.get?_cons, Entries.get?_cons]
      split
      · simp
      · exact ih

theorem mapValues_get_map {α : Type} {f : α → α} {m : GoMap (Option α)} {k : Str} {o : Option α} (h : m.get? k = some o) : (mapValues f m).get? k = some (o.map f) := by
  cases m with
  | none => simp [GoMap.get?, GoMap.entries] at h
  | some es =>
    have h' : Entries.get? es k = some o := h
    show Entries.get? (es.map (fun e => (e.1, e.2.map f))) k = _
    clear h
    induction es with
    | nil => cases h'
    | cons e es ih =>
      rw [Entries.get?_cons] at h'
      rw [List.map_cons, Entries.get?_cons]
      split
      · next he => rw [if_pos he] at h'; cases h'; rfl
      · next he => rw [if_neg he] at h'; exact ih h'

theorem says_entry {m : Metadata TargetsType} {v : TargetsType} (hm : SaysRole m v) {o : Option TargetFiles} (h : m.signed.targets.get? path = some o) :
    ∃ f, v.targets.get? path = some f ∧ o.map viewTarget = f.map (fun f => viewTarget { f with path := path }) := by
  have e : mapValues viewTarget m.signed.targets = mapValues viewTarget (readTargetMap v.targets) := (by have := congrArg TargetsType.targets hm; exact this)
  have h1 := mapValues_get_map (f := viewTarget) h
  rw [e] at h1
  cases hf : v.targets.get? path with
  | none => rw [mapValues_get_none.2 (readTargetMap_get_none.2 hf)] at h1; cases h1
  | some f =>
    rw [mapValues_get_map (readTargetMap_get hf)] at h1
    injection h1 with h1
    refine ⟨f, rfl, h1.symm.trans ?_⟩
    rw [Option.map_map]
    rfl

theorem says_no_entry {m : Metadata TargetsType} {v : TargetsType} (hm : SaysRole m v) (h : m.signed.targets.get? path = none) : v.targets.get? path = none := by
  have e : mapValues viewTarget m.signed.targets = mapValues viewTarget (readTargetMap v.targets) := (by have := congrArg TargetsType.targets hm; exact this)
  have h1 := mapValues_get_none (f := viewTarget) |>.2 h
  rw [e] at h1
  exact readTargetMap_get_none.1 (mapValues_get_none.1 h1)

end

/-! ## Cached documents that say what was published -/

section
variable {env : Env} {t : Trusted} {d : Bytes}

/-- A cached targets role that says what was published does no harm, and is accepted only if it says what the current one says. -/
theorem said_role_harmless (laws : EnvLaws env) {p : PubRole} {role parent : Str} {m : Metadata TargetsType} (hparse : ParsesTo env d m) (hsaid : PublishedBefore env p m.signed)
    {D : AnyMeta} {ss' : List Signer} (hdel : t.delegator parent = some D)
    (hs' : Suffice env D role ss') {msn : Metadata SnapshotType} {f : MetaFiles} {m0 : Metadata TargetsType} (e1 : t.snapshot = some msn)
    (hlist : msn.signed.metas.get? (role ++ b!".json") = some (some f)) (hfv : f.version = p.value.version) (hacc : TargetsAccepted env t p.file role parent m0) :
    (∃ e, t.updateDelegatedTargets env d role parent = (.err e, t) ∧ e.isRepository = true) ∨
    ∃ m', TargetsAccepted env t d role parent m' ∧ viewTargets m'.signed = viewTargets m0.signed := by
  obtain ⟨v, ss, d', hgood, hne, hp, hpl, hsame⟩ := hsaid
  obtain ⟨m1, sigs, pl, a1, a2, a3⟩ := publishes_carries (fun _ => goodTargets_rt laws) C85_payload.2.2.2 C08_all_types.2.2.2 hgood hne hp
  have h0 := payload_of_carries C08_all_types.2.2.2 a3
  have h1 : payload m.signed = .ok pl := by rw [hpl, ← C85_payload.2.2.2, ← a2, h0]
  have a3' := any_carries C08_all_types.2.2.2 h1
  have hview : viewTargets m.signed = viewTargets m1.signed := C65_targets laws hparse a1 h1 h0
  have htype : m.signed.type = TARGETS := (congrArg TargetsType.type hview).trans (by show m1.signed.type = _; rw [a2]; exact hgood.type)
  have hfin : t.checkFinalSnapshot = .ok () := by
    obtain ⟨sn', ts', f', D', b1, b2, b3, b4, _⟩ := hacc.snapshot
    exact checkFinalSnapshot_ok.2 ⟨sn', ts', b1, b2, b3, b4⟩
  have key : (∃ e, t.checkTargets env d role parent = .err e ∧ e.isRepository = true) ∨ ∃ m, t.checkTargets env d role parent = .ok m := by
    unfold Trusted.checkTargets
    rw [e1]
    dsimp only
    rw [hfin, Res.bind_ok]
    rw [hdel]
    dsimp only
    have g2' : msn.signed.metas.get? (jsonName role) = some (some f) := hlist
    rw [g2']
    dsimp only [Res.deref]
    rw [Res.bind_ok]
    by_cases hm : f.verifyLengthHashes env d = .ok ()
    · rw [hm, Res.bind_ok, hparse]
      show (∃ e, (if m.signed.type ≠ TARGETS then _ else _) = _ ∧ _) ∨ ∃ m', (if m.signed.type ≠ TARGETS then _ else _) = _
      rw [if_neg (by rw [htype]; simp)]
      rcases verifyDelegate_decides hs' a3' with hv | ⟨msg, hv⟩
      · change verifyDelegate env D role (.targets m) = _ at hv
        rw [hv, Res.bind_ok]
        by_cases hver : m.signed.version ≠ f.version
        · rw [if_pos hver]; exact .inl ⟨_, rfl, rfl⟩
        · rw [if_neg hver]
          split
          · exact .inl ⟨_, rfl, rfl⟩
          · exact .inr ⟨_, rfl⟩
      · change verifyDelegate env D role (.targets m) = _ at hv
        rw [hv]
        exact .inl ⟨_, rfl, rfl⟩
    · obtain ⟨msg, hm⟩ := metaVerify_err (fun hk => hm (metaVerify_ok.2 hk))
      rw [hm]
      exact .inl ⟨_, rfl, rfl⟩
  rcases key with ⟨e, h1, h2⟩ | ⟨m', h1⟩
  · refine .inl ⟨e, ?_, h2⟩
    unfold Trusted.updateDelegatedTargets
    rw [h1]
  · refine .inr ⟨m', checkTargets_ok.1 h1, ?_⟩
    have hm' := checkTargets_ok.1 h1
    have hmm : m' = m := by
      have := hm'.parsed.symm.trans hparse
      injection this
    subst hmm
    rcases hsame with hne | hsame
    · exfalso
      obtain ⟨sn', _, f', D', b1, _, _, _, b5, _, b7, _, _⟩ := hm'.snapshot
      rw [e1] at b1
      cases b1
      rw [hlist] at b5
      cases b5
      have hver : m'.signed.version = v.version := by
        have h3 : m'.signed.version = m1.signed.version := (by have := congrArg TargetsType.version hview; exact this)
        rw [h3, a2]
        rfl
      rw [hver, hfv] at b7
      exact hne b7
    · have h4 := hacc.parsed
      rw [← hsame] at h4
      have := a1.symm.trans h4
      injection this with this
      rw [hview, this]

end

section
variable {x : Ctx} {srv : Str → Int → Except Err Bytes} {now : Time} {r : RootType} {sn : SnapshotType} {tg : TargetsType} {path : Str} {docs : Str → Option PubRole}

/-- A targets role is loaded, if what is cached for it is refused with a repository error or says the same; no other file changes. -/
theorem loadTargets_says (hs : Serves x.host srv) (hd : x.cfg.disableLocalCache = true ∨ GoodDisk x.host) {role parent : Str} {s : St} {sn : Metadata SnapshotType}
    {m : Metadata TargetsType} {f : MetaFiles} {data : Bytes} (hno : s.trusted.targets.get? role = none) (hsn : s.trusted.snapshot = some sn)
    (hlist : sn.signed.metas.get? (role ++ b!".json") = some (some f))
    (hfs : ∀ d, s.world.fs (localPath x.cfg role) = some d → (∃ e, s.trusted.updateDelegatedTargets x.env d role parent = (.err e, s.trusted) ∧ e.isRepository = true) ∨
      ∃ m', TargetsAccepted x.env s.trusted d role parent m' ∧ viewTargets m'.signed = viewTargets m.signed) {N : Str → Prop} [TempNames x.host N] (hw : Free N s.world.fs)
    (hserve : ∃ url n, RoleURL x s.trusted role f.version url ∧ LengthLimit f.length x.cfg.targetsMaxLength n ∧ srv url n = .ok data)
    (ha : TargetsAccepted x.env s.trusted data role parent m) :
    ∃ m' s', loadTargets x role parent s = (.ok m', s') ∧ viewTargets m'.signed = viewTargets m.signed ∧
      s'.trusted = { s.trusted with targets := s.trusted.targets.set role m' } ∧ Free N s'.world.fs ∧
      (∀ q, ¬ TempName q → q ≠ persistPath x.cfg role → s'.world.fs q = s.world.fs q) := by
  unfold loadTargets
  rw [SM.bind_ok (getTrusted_apply s)]
  dsimp only
  rw [hno]
  dsimp only
  obtain ⟨o, s1, h1, h2, h3⟩ := tryLocal_done (x := x) (role := role) (f := fun d t => t.updateDelegatedTargets x.env d role parent) (s := s)
    (P := fun o t1 => (o = none ∧ t1 = s.trusted) ∨ (∃ m', o = some m' ∧ viewTargets m'.signed = viewTargets m.signed ∧ t1 = { s.trusted with targets := s.trusted.targets.set role m' }))
    (.inl ⟨rfl, rfl⟩) (by
      intro d hfs'
      rcases hfs d hfs' with ⟨e, h1, h2⟩ | ⟨m', h1, h2⟩
      · right
        dsimp only
        rw [h1]
        exact ⟨e, rfl, h2, .inl ⟨rfl, rfl⟩⟩
      · left
        dsimp only
        rw [updateTargets_accepts h1]
        exact ⟨m', rfl, .inr ⟨m', rfl, h2, rfl⟩⟩)
  rcases h2 with ⟨rfl, k⟩ | ⟨m', rfl, k0, k⟩
  · rw [SM.bind_ok h1]
    dsimp only
    rw [SM.bind_ok (getTrusted_apply s1), k, hsn]
    dsimp only
    rw [SM.bind_ok (lift_deref (show sn.signed.metas.ptr (jsonName role) = some f from ptr_eq_some.2 hlist) s1)]
    obtain ⟨url, n, h4, h5, h6⟩ := hserve
    obtain rfl := roleURL_unique h4 (roleURL x s.trusted role f)
    obtain rfl := lengthLimit_unique h5 (lengthLimit _ _)
    obtain ⟨s2, h7, h8, h9⟩ := fetch_progress (s := s1) hs h6
    rw [SM.bind_ok h7]
    have hu := updateTargets_accepts ha
    have : onTrusted (fun t => t.updateDelegatedTargets x.env data role parent) s2 = (.ok m, { s2 with trusted := { s.trusted with targets := s.trusted.targets.set role m } }) := by
      rw [onTrusted_apply, h8, k, hu]
    rw [SM.bind_ok this]
    obtain ⟨w', g1, g2, g3⟩ := persist_progress hd role data (w := s2.world) (N := N) (by rw [h9, h3]; exact hw)
    have g1' : onWorld (persistMetadata x role data) { s2 with trusted := { s.trusted with targets := s.trusted.targets.set role m } } =
        (.ok (), ⟨{ s.trusted with targets := s.trusted.targets.set role m }, w'⟩) := by rw [onWorld_apply, g1]
    rw [SM.bind_ok g1']
    exact ⟨m, _, rfl, rfl, by rw [← hsn], g2, fun q hq hne => by rw [g3 q hq hne, h9, h3]⟩
  · rw [SM.bind_ok h1]
    exact ⟨m', s1, rfl, k0, k, by rw [h3]; exact hw, fun q _ _ => by rw [h3]⟩

/-! ## Searching -/

/-- The client trusts what the release says, and what some of its published targets roles say; cache files of the others say what was published. -/
structure OnSaid (x : Ctx) (now : Time) (r : RootType) (sn : SnapshotType) (docs : Str → Option PubRole) (N : Str → Prop) (s : St) : Prop where
  root : s.trusted.root.signed = readRoot r
  time : s.trusted.refTime = now
  snapshot : ∃ msn mts, s.trusted.snapshot = some msn ∧ viewSnapshot msn.signed = viewSnapshot sn ∧ s.trusted.timestamp = some mts ∧ Lists mts.signed.metas b!"snapshot.json" sn.version
  fresh : ¬ Expired sn.expires now
  loaded : ∀ role m, s.trusted.targets.get? role = some m → ∃ p, docs role = some p ∧ SaysRole m p.value
  temps : Free N s.world.fs
  files : ∀ role p d, docs role = some p → s.trusted.targets.get? role = none → s.world.fs (localPath x.cfg role) = some d →
    ∃ m : Metadata TargetsType, ParsesTo x.env d m ∧ PublishedBefore x.env p m.signed

/-- The role is loaded, or a loaded published role delegates the path to it. -/
def OnSaidBranch (env : Env) (path : Str) (docs : Str → Option PubRole) (s : St) (role parent : Str) : Prop :=
  (s.trusted.targets.get? role).isSome ∨
  ∃ pm p b, s.trusted.targets.get? parent = some pm ∧ docs parent = some p ∧ SaysRole pm p.value ∧ Covers env { signed := p.value } path role b

theorem load_said {N : Str → Prop} [TempNames x.host N] (laws : EnvLaws x.env) (hs : Serves x.host srv) (hd : x.cfg.disableLocalCache = true ∨ GoodDisk x.host)
    (hb : Branches x srv now r sn tg path docs) {s : St}
    (hi : OnSaid x now r sn docs N s) {role parent : Str} (ho : OnSaidBranch x.env path docs s role parent) :
    ∃ m s' p, loadTargets x role parent s = (.ok m, s') ∧ docs role = some p ∧ SaysRole m p.value ∧ OnSaid x now r sn docs N s' := by
  cases hl : s.trusted.targets.get? role with
  | some m =>
    obtain ⟨p, h1, h2⟩ := hi.loaded role m hl
    exact ⟨m, s, p, loadTargets_trusted hl, h1, h2, hi⟩
  | none =>
    rcases ho with ho | ⟨pm, p, b, h1, h2, h3, h4⟩
    · rw [hl] at ho; cases ho
    · obtain ⟨q, ss, h5, h6, h7⟩ := hb.closed parent p role b h2 h4
      obtain ⟨g1, g2⟩ := hb.good role q h5
      obtain ⟨l1, l2, l3⟩ := hb.listed role q h5
      obtain ⟨msn, mts, n1, n2, n3, n4⟩ := hi.snapshot
      obtain ⟨m, a1, a2, a3⟩ := publishes_read (fun _ => goodTargets_rt laws) C85_payload.2.2.2 C08_all_types.2.2.2 g1 h6
      obtain ⟨f, hlist, hf⟩ := view_listed (congrArg SnapshotType.metas n2) l1
      have hD : DelegatorIs s.trusted parent (.targets pm) := by
        refine .targets ?_ h1
        rintro rfl
        exact (hb.named _ p h2).2 (by simp)
      have hmm : MetaMatches x.env f q.file := view_matches hf l3
      have hexp : msn.signed.expires = sn.expires := (by have := congrArg SnapshotType.expires n2; exact this)
      have hver : msn.signed.version = sn.version := (by have := congrArg SnapshotType.version n2; exact this)
      have hfv : f.version = q.value.version := (view_version hf).trans l2
      have hacc : TargetsAccepted x.env s.trusted q.file role parent m :=
        ⟨⟨msn, mts, f, .targets pm, n1, n3, by rw [hexp, hi.time]; exact hi.fresh, by rw [hver]; exact n4, hlist, hmm, by rw [a2]; exact hfv.symm, hD,
          a3 _ _ (suffice_says h3 h7)⟩, a1, by rw [a2]; exact g1.type, by rw [a2, hi.time]; exact g2⟩
      obtain ⟨m', s', k1, k0, k2, k3, k4⟩ := loadTargets_says hs hd hl n1 hlist (fun d hd' => by
        obtain ⟨md, e1, e2⟩ := hi.files role q d h5 hl hd'
        exact said_role_harmless laws e1 e2 (delegator_iff.2 hD) (suffice_says h3 h7) n1 hlist hfv hacc) hi.temps (by
        obtain ⟨url, n, e1, e2, e3⟩ := hb.served role q h5
        refine ⟨url, n, ?_, by rw [view_length hf]; exact e2, e3⟩
        rw [view_version hf]
        rcases e1 with ⟨e1, e4⟩ | ⟨e1, e4⟩
        · exact .inl ⟨by rw [hi.root]; exact e1, e4⟩
        · exact .inr ⟨by rw [hi.root]; exact e1, e4⟩) hacc
      have hsays : SaysRole m' q.value := by
        unfold SaysRole
        rw [k0, a2]
      refine ⟨m', s', q, k1, h5, hsays, ?_⟩
      refine ⟨by rw [k2]; exact hi.root, by rw [k2]; exact hi.time, ⟨msn, mts, by rw [k2]; exact n1, n2, by rw [k2]; exact n3, n4⟩, hi.fresh, ?_, k3, ?_⟩
      · intro role' m1 hm'
        rw [k2] at hm'
        dsimp only at hm'
        rw [Entries.get?_set] at hm'
        split at hm'
        · next he => subst he; cases hm'; exact ⟨q, h5, hsays⟩
        · exact hi.loaded role' m1 hm'
      · intro role' p' d hd' hn' hf
        rw [k2] at hn'
        dsimp only at hn'
        rw [Entries.get?_set] at hn'
        split at hn'
        · cases hn'
        · next hne =>
          rw [k4 _ (localPath_not_temp _ _)] at hf
          · exact hi.files role' p' d hd' hn' hf
          · rw [(safeName_local (hb.named role' p' hd').1).1]
            intro he
            exact hne (persistPath_inj he.symm)

theorem onSaidBranch_grows {s s' : St} (hg : Grows s.trusted s'.trusted) {role parent : Str} (h : OnSaidBranch x.env path docs s role parent) : OnSaidBranch x.env path docs s' role parent := by
  rcases h with h | ⟨pm, p, b, h1, h2, h3, h4⟩
  · cases hm : s.trusted.targets.get? role with
    | none => rw [hm] at h; cases h
    | some m => exact .inl (by rw [hg _ _ hm]; rfl)
  · exact .inr ⟨pm, p, b, hg _ _ h1, h2, h3, h4⟩

/-- A search on such roles never fails to load a role, never crashes, and leaves the client on the release. -/
theorem search_onSaid {N : Str → Prop} [TempNames x.host N] (laws : EnvLaws x.env) (hs : Serves x.host srv) (hd : x.cfg.disableLocalCache = true ∨ GoodDisk x.host)
    (hb : Branches x srv now r sn tg path docs)
    {k : Nat} {agenda : List (Str × Str)} {seen : List Str} {s s' : St} {vs : List Visit} {out : Res (Option TargetFiles)} (h : Search x path k agenda seen s vs out s')
    (hi : OnSaid x now r sn docs N s) (ha : ∀ p ∈ agenda, OnSaidBranch x.env path docs s p.1 p.2) :
    out ≠ .panic ∧ (∀ v ∈ vs, ∃ m p, v.found = some m ∧ docs v.role = some p ∧ SaysRole m p.value) ∧ OnSaid x now r sn docs N s' := by
  induction h with
  | limit => exact ⟨by simp, by simp, hi⟩
  | empty => exact ⟨by simp, by simp, hi⟩
  | skip _ _ ih => exact ih hi (fun p hp => ha p (.tail _ hp))
  | failed _ h1 h2 _ =>
    obtain ⟨m, s', p, k1, _⟩ := load_said laws hs hd hb hi (ha _ (.head _))
    rw [h1] at k1
    cases k1
    exact absurd rfl (h2 m)
  | found _ h1 =>
    obtain ⟨m, s', p, k1, k2, k3, k4⟩ := load_said laws hs hd hb hi (ha _ (.head _))
    rw [h1] at k1
    cases k1
    exact ⟨by simp, by intro v hv; rw [List.mem_singleton] at hv; subst hv; exact ⟨_, p, rfl, k2, k3⟩, k4⟩
  | crash _ h1 _ h3 =>
    obtain ⟨m, s', p, k1, k2, k3, _⟩ := load_said laws hs hd hb hi (ha _ (.head _))
    rw [h1] at k1
    cases k1
    obtain ⟨d, sr, e1, e2, e3, e4⟩ := h3
    obtain ⟨d0, f1, f2, f3⟩ := says_delegations k3 e1
    exact absurd (hb.bins _ p d0 sr k2 f1 (f2.trans e2) ((f3 e2).trans e3)) e4
  | @next k role parent agenda seen s s1 s2 s' m children stop vs out hns h1 h2 hn ht hfs _ hsr ih =>
    obtain ⟨m', s1', p, k1, k2, k3, k4⟩ := load_said laws hs hd hb hi (ha _ (.head _))
    rw [h1] at k1
    cases k1
    have hg := loadTargets_grows (x := x) role parent s
    rw [h1] at hg
    have hg2 : Grows s.trusted s2.trusted := by rw [ht]; exact hg
    obtain ⟨i1, i2, i3⟩ := ih ⟨by rw [ht]; exact k4.root, by rw [ht]; exact k4.time, by rw [ht]; exact k4.snapshot, k4.fresh, by rw [ht]; exact k4.loaded, by rw [hfs]; exact k4.temps,
      by rw [ht, hfs]; exact k4.files⟩ (by
        intro q hq
        rcases List.mem_append.1 hq with hq | hq
        · obtain ⟨c, hc, rfl⟩ := List.mem_map.1 hq
          obtain ⟨b, hb⟩ := nextRoles_covers hn c hc
          exact .inr ⟨m, p, b, by rw [ht]; exact loadTargets_ok h1, k2, k3, (covers_says k3).1 hb⟩
        · have : q ∈ agenda := by
            cases stop with
            | true => cases hq
            | false => exact hq
          exact onSaidBranch_grows hg2 (ha q (.tail _ this)))
    refine ⟨i1, ?_, i3⟩
    intro v hv
    rcases List.mem_cons.1 hv with rfl | hv
    · exact ⟨m, p, rfl, k2, k3⟩
    · exact i2 v hv

/-- Such a search only visits roles that the published delegations lead to. -/
theorem search_saidReached {k : Nat} {agenda : List (Str × Str)} {seen : List Str} {s s' : St} {vs : List Visit} {out : Res (Option TargetFiles)}
    (h : Search x path k agenda seen s vs out s') (hp : ∀ v ∈ vs, ∃ m p, v.found = some m ∧ docs v.role = some p ∧ SaysRole m p.value)
    (ha : ∀ p ∈ agenda, PubReached x.env docs path p.1) : ∀ v ∈ vs, PubReached x.env docs path v.role := by
  induction h with
  | limit => simp
  | empty => simp
  | skip _ _ ih => exact ih hp (fun p h => ha p (.tail _ h))
  | failed => intro v hv; rw [List.mem_singleton] at hv; subst hv; exact ha _ (.head _)
  | found => intro v hv; rw [List.mem_singleton] at hv; subst hv; exact ha _ (.head _)
  | crash => intro v hv; rw [List.mem_singleton] at hv; subst hv; exact ha _ (.head _)
  | @next k role parent agenda seen s s1 s2 s' m children stop vs out _ _ _ hn _ _ _ _ ih =>
    have h0 : PubReached x.env docs path role := ha _ (.head _)
    intro v hv
    rcases List.mem_cons.1 hv with rfl | hv
    · exact h0
    · refine ih (fun v hv => hp v (.tail _ hv)) ?_ v hv
      intro q hq
      rcases List.mem_append.1 hq with hq | hq
      · obtain ⟨c, hc, rfl⟩ := List.mem_map.1 hq
        obtain ⟨b, hcov⟩ := nextRoles_covers hn c hc
        obtain ⟨m', p, e1, e2, e3⟩ := hp _ (.head _)
        cases e1
        exact .step h0 e2 ((covers_says e3).1 hcov)
      · have : q ∈ agenda := by
          cases stop with
          | true => cases hq
          | false => exact hq
        exact ha q (.tail _ this)

/-- What such a search from top-level targets finds. -/
theorem search_says {N : Str → Prop} [TempNames x.host N] (laws : EnvLaws x.env) (hs : Serves x.host srv) (hd : x.cfg.disableLocalCache = true ∨ GoodDisk x.host)
    (hb : Branches x srv now r sn tg path docs)
    {s1 s' : St} {vs : List Visit} {out : Res (Option TargetFiles)} (g2 : OnSaid x now r sn docs N s1) (g3 : (s1.trusted.targets.get? b!"targets").isSome)
    (hse : Search x path (x.cfg.maxDelegations + 1).toNat [(b!"targets", b!"root")] [] s1 vs out s') :
    SaysPath x.env docs x.cfg.maxDelegations path out ∧ OnSaid x now r sn docs N s' := by
  obtain ⟨p1, p2, p3⟩ := search_onSaid laws hs hd hb hse g2 (by
    intro p hp
    rw [List.mem_singleton] at hp; subst hp
    exact .inl g3)
  obtain ⟨_, r2, r3⟩ := search_reached (S := (· = b!"targets")) hse (by
    intro p hp
    rw [List.mem_singleton] at hp; subst hp
    exact .start rfl)
  have hpub : ∀ v ∈ vs, PubReached x.env docs path v.role := fun v hv => search_saidReached hse p2 (by
    intro p hp
    rw [List.mem_singleton] at hp; subst hp
    exact .top) v hv
  have hans : ∀ o, out = .ok o → ∃ role p f, PubReached x.env docs path role ∧ docs role = some p ∧ p.value.targets.get? path = some f ∧
      o.map viewTarget = f.map (fun f => viewTarget { f with path := path }) := by
    intro o ho
    obtain ⟨v, m, e1, e2, e3⟩ := r3 o ho
    have hv := List.mem_of_getLast? e1
    obtain ⟨m', p, e4, e5, e6⟩ := p2 v hv
    rw [e2] at e4
    cases e4
    obtain ⟨f, e7, e8⟩ := says_entry e6 e3
    exact ⟨v.role, p, f, hpub v hv, e5, e7, e8⟩
  refine ⟨⟨p1, hans, ?_⟩, p3⟩
  intro names hn1 hn2 hun role p f hreach hdoc hlist
  have hok : ∃ o, out = .ok o := by
    cases out with
    | ok o => exact ⟨o, rfl⟩
    | panic => exact absurd rfl p1
    | err e =>
      exfalso
      have hlen : vs.length ≤ names.length := by
        have := (search_bounded hse).1.length_le_of_subset (l₂ := names) (by
          intro a ha
          obtain ⟨v, hv, rfl⟩ := List.mem_map.1 ha
          obtain ⟨_, p, _, e5, _⟩ := p2 v hv
          exact hn1 _ (by rw [e5]; rfl))
        rwa [List.length_map] at this
      have one : ∀ v ∈ vs, ∀ m, v.found = some m → ∃ p, docs v.role = some p ∧ SaysRole m p.value := by
        intro v hv m hm
        obtain ⟨m', p, e4, e5, e6⟩ := p2 v hv
        rw [hm] at e4
        cases e4
        exact ⟨p, e5, e6⟩
      obtain ⟨c1, c2⟩ := search_complete hse rfl (by omega) (by
        intro v hv he
        obtain ⟨m', p, e4, _⟩ := p2 v hv
        rw [he] at e4
        cases e4) (by
        rcases hun with hun | hun
        · refine .inl ?_
          intro v hv m hm name hc
          obtain ⟨p, e5, e6⟩ := one v hv m hm
          exact hun _ ⟨_, p, e5, rfl⟩ name ((covers_says e6).1 hc)
        · refine .inr ⟨by simp, ?_⟩
          intro v hv m hm n1 b1 n2 b2 hc1 hc2
          obtain ⟨p, e5, e6⟩ := one v hv m hm
          exact hun _ ⟨_, p, e5, rfl⟩ n1 b1 n2 b2 ((covers_says e6).1 hc1) ((covers_says e6).1 hc2))
      have hvis : ∀ role, PubReached x.env docs path role → ∃ v ∈ vs, v.role = role := by
        intro role hr
        induction hr with
        | top =>
          rcases c1 _ (.head _) with h | h
          · cases h
          · exact h
        | @step role child p b _ hd' hc ih =>
          obtain ⟨v, hv, rfl⟩ := ih
          obtain ⟨m, p', e4, e5, e6⟩ := p2 v hv
          rw [hd'] at e5
          cases e5
          rcases (c2 v hv m e4).2 child b ((covers_says e6).2 hc) with h | h
          · cases h
          · exact h
      obtain ⟨v, hv, rfl⟩ := hvis role hreach
      obtain ⟨m, p', e4, e5, e6⟩ := p2 v hv
      rw [hdoc] at e5
      cases e5
      rw [says_no_entry e6 (c2 v hv m e4).1] at hlist
      cases hlist
  obtain ⟨o, ho⟩ := hok
  refine ⟨o, ho, fun huniq => ?_⟩
  obtain ⟨role', p', f', e1, e2, e3, e4⟩ := hans o ho
  have := huniq role' p' e1 e2 (by rw [e3]; rfl)
  subst this
  rw [hdoc] at e2
  cases e2
  rw [hlist] at e3
  cases e3
  exact e4

/-- After the refresh of C134 the client is on the release. -/
theorem onSaid_cached {t : Trusted} {R : Files} {N : Str → Prop} [TempNames x.host N] (laws : EnvLaws x.env) (h : Released x.env now r R) (hv : ServingFiles x srv r R) (hu : x.cfg.unsafeLocalMode = false)
    (hs : Serves x.host srv) (hd : x.cfg.disableLocalCache = true ∨ GoodDisk x.host) {s : St} (hw : Free N s.world.fs)
    (hm : 0 ≤ x.cfg.maxRootRotations ∧ wrap64 (s.trusted.root.signed.version + 1) + x.cfg.maxRootRotations < 2 ^ 63)
    (hroots : RootsLeadTo x srv x.cfg.maxRootRotations.toNat s.trusted t) (hroot : t.root.signed = readRoot r)
    (hts : s.trusted.timestamp = none) (hsn : s.trusted.snapshot = none) (htg : s.trusted.targets = []) (hnow : s.trusted.refTime = now)
    (hcache : CacheSays x.env x.cfg.localMetadataDir s.world.fs R) (htop : ∃ p, docs b!"targets" = some p ∧ p.value = R.tg)
    (hnamed : ∀ role p, docs role = some p → SafeName role ∧ role ∉ [b!"root", b!"timestamp", b!"snapshot"])
    (hroles : RolesSay x.env x.cfg.localMetadataDir s.world.fs docs) :
    ∃ s', refresh x s = (.ok (), s') ∧ OnSaid x now r R.sn docs N s' ∧ (s'.trusted.targets.get? b!"targets").isSome := by
  obtain ⟨mts, msn, mtg, s', h1, h2, h3, h4, h5, h6⟩ := says_upgrade laws h hv hu hs hd hw hm hroots hroot hts hsn htg hnow hcache
  obtain ⟨_, _, _, k4⟩ := rootsLeadTo_keeps hroots
  refine ⟨s', h1, ⟨by rw [h2]; exact hroot, by rw [h2]; exact k4.trans hnow, ⟨msn, mts, by rw [h2], h4, by rw [h2], ?_⟩, h.snapshotFresh, ?_, h6, ?_⟩, by rw [h2]; rfl⟩
  · obtain ⟨l1, l2, _⟩ := h.snapshotListed
    obtain ⟨f, e1, e2⟩ := view_listed (congrArg TimestampType.metas h3) l1
    exact ⟨f, e1, (view_version e2).trans l2⟩
  · intro role m hm'
    rw [h2] at hm'
    have hm' : Entries.get? [(b!"targets", mtg)] role = some m := hm'
    rw [Entries.get?_cons] at hm'
    split at hm'
    · next he =>
      cases hm'
      obtain ⟨p, e1, e2⟩ := htop
      refine ⟨p, ?_, by unfold SaysRole; rw [e2]; exact h5⟩
      rw [← e1]
      exact congrArg docs (by simpa using he.symm)
    · cases hm'
  · intro role p d hr hn hf
    have hsafe := hnamed role p hr
    obtain ⟨e1, e2⟩ := safeName_local (cfg := x.cfg) hsafe.1
    have hne : role ≠ b!"targets" := by
      rintro rfl
      rw [h2] at hn
      cases hn
    have := refresh_files hu s e1 (by
      intro hmem
      refine hsafe.2 ?_
      simp only [List.mem_cons, List.not_mem_nil, or_false] at hmem ⊢
      rcases hmem with h | h | h | h
      · exact .inl h
      · exact .inr (.inl h)
      · exact .inr (.inr h)
      · exact absurd h hne)
    rw [h1] at this
    rw [this, e2] at hf
    exact hroles role p d hr hne hf

theorem getTargetInfo_onSaid {N : Str → Prop} [TempNames x.host N] (laws : EnvLaws x.env) (hs : Serves x.host srv) (hd : x.cfg.disableLocalCache = true ∨ GoodDisk x.host)
    (hb : Branches x srv now r sn tg path docs) {s : St} (g2 : OnSaid x now r sn docs N s) (g3 : (s.trusted.targets.get? b!"targets").isSome) :
    SaysPath x.env docs x.cfg.maxDelegations path (getTargetInfo x path s).1 ∧ OnSaid x now r sn docs N (getTargetInfo x path s).2 := by
  obtain ⟨vs, hr⟩ := getTargetInfo_run (x := x) (path := path) s
  generalize (getTargetInfo x path s).1 = out at hr
  generalize (getTargetInfo x path s).2 = s' at hr
  refine search_says laws hs hd hb g2 g3 (vs := vs) ?_
  cases hr with
  | direct h0 h1 => exact h1
  | refreshed h0 => rw [h0] at g3; cases g3
  | notRefreshed h0 => rw [h0] at g3; cases g3

end

theorem searches_say {x : Ctx} {srv : Str → Int → Except Err Bytes} {now : Time} {r : RootType} {sn : SnapshotType} {tg : TargetsType} {docs : Str → Option PubRole}
    {N : Str → Prop} [TempNames x.host N] (laws : EnvLaws x.env) (hs : Serves x.host srv) (hd : x.cfg.disableLocalCache = true ∨ GoodDisk x.host) :
    ∀ (paths : List Str) {s : St}, (∀ path ∈ paths, Branches x srv now r sn tg path docs) → OnSaid x now r sn docs N s → (s.trusted.targets.get? b!"targets").isSome →
      ∃ s', SearchesSay x docs s paths s'
  | [], s, _, _, _ => ⟨s, .nil⟩
  | path :: paths, s, hb, h1, h2 => by
    obtain ⟨a1, a2⟩ := getTargetInfo_onSaid laws hs hd (hb path (.head _)) h1 h2
    have hg : Grows s.trusted (getTargetInfo x path s).2.trusted := getTargetInfo_grows h2
    cases hm : s.trusted.targets.get? b!"targets" with
    | none => rw [hm] at h2; cases h2
    | some m =>
      obtain ⟨s', h⟩ := searches_say laws hs hd paths (fun p hp => hb p (.tail _ hp)) a2 (by rw [hg _ _ hm]; rfl)
      exact ⟨s', .cons a1 h⟩

/-- **C135**: clients ran on this cache, against any servers, and were perhaps interrupted, while fewer keys than the thresholds were compromised. A client that is then
under good conditions refreshes successfully, and gets for targets in delegated roles the answers that the repository then has; also if it searches without refreshing
first. -/
theorem C135_search {env : Env} {H : Holders} (laws : EnvLaws env) (hH : Diligent env H) {dir : Str} {v : ClientSession} (hg : v.Good env dir) {fs : FS} {w : World}
    (hatt : Attacked (CarefulSearch env H dir v.run.R v.docs) dir fs w.fs) (h0 : CacheSays env dir fs v.run.R) (h0' : RolesSay env dir fs v.docs)
    (hw : Free (GivenTemp v.run.x.host) w.fs) :
    ∃ t0 w1 s1 s', newUpdater v.run.x w = (.ok t0, w1) ∧ refresh v.run.x ⟨t0, w1⟩ = (.ok (), s1) ∧ SearchesSay v.run.x v.docs s1 v.paths s' ∧
      ∀ path ∈ v.paths, SaysPath env v.docs v.run.x.cfg.maxDelegations path (getTargetInfo v.run.x path ⟨t0, w1⟩).1 := by
  have hatt' := attacked_mono (Q := Careful env H dir v.run.R) (fun _ _ h => h.careful) hatt
  cases hps : v.paths with
  | nil =>
    obtain ⟨t0, w1, s', _, _, _, h1, h2, _⟩ := C134_recovers laws hH hg.run hatt' h0 hw
    exact ⟨t0, w1, s', s', h1, h2, .nil, by simp⟩
  | cons path0 rest =>
    rw [← hps]
    have hcs := C134_cache laws hH hatt' h0
    have hrs := C135_cache laws hH hg.named hatt h0'
    have hr := hg.run
    obtain ⟨t0, t, hne, h1, h2, h3, h4, h5⟩ := hr.roots
    obtain ⟨w1, n1, n2, n3⟩ := new_progress hr h1 hne hw
    have c := cacheFile v.run.x
    have l := C48_top_level v.run.x
    have e1 : w1.fs (joinPath dir b!"timestamp.json") = w.fs (joinPath dir b!"timestamp.json") := by
      have := n3 TIMESTAMP (by decide)
      rw [← l _ (by decide), c.1, hr.sameDir] at this
      exact this
    have e2 : w1.fs (joinPath dir b!"snapshot.json") = w.fs (joinPath dir b!"snapshot.json") := by
      have := n3 SNAPSHOT (by decide)
      rw [← l _ (by decide), c.2.1, hr.sameDir] at this
      exact this
    have e3 : w1.fs (joinPath dir b!"targets.json") = w.fs (joinPath dir b!"targets.json") := by
      have := n3 TARGETS (by decide)
      rw [← l _ (by decide), c.2.2.1, hr.sameDir] at this
      exact this
    obtain ⟨q, hq⟩ : ∃ m, t0 = { root := m, refTime := v.run.now } := by
      obtain ⟨m, _, _, _, hm⟩ := C78_new.1 h1
      exact ⟨m, hm⟩
    have hcb : CacheSays v.run.x.env v.run.x.cfg.localMetadataDir w1.fs v.run.R := by
      rw [hr.sameEnv, hr.sameDir]
      exact ⟨by rw [e1]; exact hcs.timestamp, by rw [e2]; exact hcs.snapshot, by rw [e3]; exact hcs.targets⟩
    have hrb : RolesSay v.run.x.env v.run.x.cfg.localMetadataDir w1.fs v.docs := by
      rw [hr.sameEnv, hr.sameDir]
      intro role p d hp hnt hd
      obtain ⟨f1, f2⟩ := safeName_local (cfg := v.run.x.cfg) (hg.named role p hp).1
      have hx := n3 role (by rintro rfl; exact (hg.named _ p hp).2 (by decide))
      rw [← f1, f2, hr.sameDir] at hx
      exact hrs role p d hp hnt (hx ▸ hd)
    have laws' : EnvLaws v.run.x.env := by rw [hr.sameEnv]; exact laws
    obtain ⟨s1, g1, g2, g3⟩ := onSaid_cached (x := v.run.x) (s := ⟨t0, w1⟩) laws' (by rw [hr.sameEnv]; exact hr.released)
      hr.served hr.online hr.network (.inr hr.disk) n2 ⟨h2, h3⟩ h4 h5 (by rw [hq]) (by rw [hq]) (by rw [hq]) (by rw [hq]) hcb (hg.branches path0 (by rw [hps]; simp)).top hg.named hrb
    obtain ⟨s', g4⟩ := searches_say laws' hr.network (.inr hr.disk) v.paths hg.branches g2 g3
    refine ⟨t0, w1, s1, s', n1, g1, g4, ?_⟩
    intro path hp
    rw [← hr.sameEnv]
    obtain ⟨vs, hrun⟩ := getTargetInfo_run (x := v.run.x) (path := path) ⟨t0, w1⟩
    generalize (getTargetInfo v.run.x path ⟨t0, w1⟩).1 = out at hrun
    generalize (getTargetInfo v.run.x path ⟨t0, w1⟩).2 = s2 at hrun
    refine (search_says laws' hr.network (.inr hr.disk) (hg.branches path hp) g2 g3 (vs := vs) (s' := s2) ?_).1
    cases hrun with
    | direct k0 _ => rw [hq] at k0; cases k0
    | refreshed _ k1 k2 => rw [g1] at k1; cases k1; exact k2
    | notRefreshed _ k1 k2 => rw [g1] at k1; cases k1; exact absurd rfl k2

end Tuf
