import Verif.Props.Follow
import Verif.Props.SearchComplete

/-!
# Targets of delegated roles of an honest repository (C90)
-/

namespace Tuf
open Spec

section
variable {x : Ctx} {srv : Str → Int → Except Err Bytes} {now : Time} {r : RootType} {ts : TimestampType} {sn : SnapshotType} {tg : TargetsType} {path : Str}
  {docs : Str → Option PubRole}

/-! ## Names -/

theorem safeName_plain {name : Str} (h : SafeName name) : PlainName name where
  nonempty := h.nonempty
  noSlash := by
    intro hm
    have := h.chars _ hm
    revert this
    decide
  notDot := h.notDot
  notDotDot := h.notDotDot

theorem safeName_escape {name : Str} (h : SafeName name) : queryEscape name = name := by
  refine queryEscape_unreserved fun c hc => ?_
  have := h.chars c hc
  unfold unreserved
  simp only [Bool.or_eq_true, Bool.and_eq_true, decide_eq_true_eq, beq_iff_eq]
  rcases this with h | h | h | h | h | h | h <;> simp [h]

theorem safeName_local {cfg : Cfg} {name : Str} (h : SafeName name) : localPath cfg name = persistPath cfg name ∧ localPath cfg name = joinPath cfg.localMetadataDir (name ++ b!".json") := by
  obtain ⟨D, _, h1, h2⟩ := persistPath_eq cfg
  have h3 : localPath cfg name = persistPath cfg name := by rw [h2 name (safeName_plain h), h1 name, safeName_escape h]
  exact ⟨h3, by rw [h3]; unfold persistPath; rw [safeName_escape h]⟩

/-- A refresh leaves the cache files of delegated roles alone. -/
theorem refresh_files (hu : x.cfg.unsafeLocalMode = false) (s : St) {role : Str} (hr : localPath x.cfg role = persistPath x.cfg role)
    (hn : role ∉ [ROOT, TIMESTAMP, SNAPSHOT, TARGETS]) : (refresh x s).2.world.fs (localPath x.cfg role) = s.world.fs (localPath x.cfg role) := by
  rw [refresh_online hu]
  refine exec_kept_plain (ex := moveExtra) (J := fun _ r _ => r ∈ [ROOT, TIMESTAMP, SNAPSHOT, TARGETS]) ?_ hr (fun _ => id) (by rintro t r d hm rfl; exact hn hm)
  refine exec_bind (exec_loadRoot' (fun _ _ => trivial) (fun _ _ => by simp)) ?_
  intro _ s1 _
  exact exec_afterRoot (fun _ _ _ _ _ => trivial) (fun role hm _ _ => List.mem_cons_of_mem _ hm)

/-! ## What was read delegates as what was written -/

theorem covers_read {env : Env} {m : Metadata TargetsType} {v : TargetsType} (hm : m.signed = readTargets v) {name : Str} {b : Bool} :
    Covers env m path name b ↔ Covers env { signed := v } path name b := by
  have hd : m.signed.delegations = v.delegations.map (fun d => { d with keys := mapValues readKey d.keys }) := by rw [hm]; rfl
  constructor
  · intro h
    cases h with
    | listed h1 h2 h3 h4 =>
      rw [hd, Option.map_eq_some_iff] at h1
      obtain ⟨d, h5, rfl⟩ := h1
      exact .listed h5 h2 h3 h4
    | bin h1 h2 h3 h4 =>
      rw [hd, Option.map_eq_some_iff] at h1
      obtain ⟨d, h5, rfl⟩ := h1
      exact .bin h5 h2 h3 h4
  · intro h
    cases h with
    | @listed d _ _ _ h1 h2 h3 h4 =>
      exact .listed (d := { d with keys := mapValues readKey d.keys }) (by rw [hd, show v.delegations = some d from h1]; rfl) h2 h3 h4
    | @bin d _ _ h1 h2 h3 h4 =>
      exact .bin (d := { d with keys := mapValues readKey d.keys }) (by rw [hd, show v.delegations = some d from h1]; rfl) h2 h3 h4

theorem readTargetMap_get_none {m : GoMap (Option TargetFiles)} {path : Str} : (readTargetMap m).get? path = none ↔ m.get? path = none := by
  constructor
  · intro h
    cases hm : m.get? path with
    | none => rfl
    | some o => rw [readTargetMap_get hm] at h; cases h
  · intro h
    cases m with
    | none => rfl
    | some es =>
      have h' : Entries.get? es path = none := h
      show Entries.get? (es.map (fun e => (e.1, e.2.map (fun t => { t with path := e.1 })))) path = _
      clear h
      induction es with
      | nil => rfl
      | cons e es ih =>
        rw [Entries.get?_cons] at h'
        rw [List.map_cons, Entries.get?_cons]
        split
        · next he => rw [if_pos he] at h'; cases h'
        · next he => rw [if_neg he] at h'; exact ih h'

/-! ## Searching -/

/-- The client trusts the release and some of its published targets roles; cache files of the others are from earlier releases. -/
structure OnRelease (x : Ctx) (now : Time) (r : RootType) (sn : SnapshotType) (docs : Str → Option PubRole) (s : St) : Prop where
  root : s.trusted.root.signed = readRoot r
  time : s.trusted.refTime = now
  snapshot : ∃ msn mts, s.trusted.snapshot = some msn ∧ msn.signed = viewSnapshot sn ∧ s.trusted.timestamp = some mts ∧ Lists mts.signed.metas b!"snapshot.json" sn.version
  fresh : ¬ Expired sn.expires now
  loaded : ∀ role m, s.trusted.targets.get? role = some m → ∃ p, docs role = some p ∧ m.signed = readTargets p.value
  temps : NoTemps s.world.fs
  files : ∀ role p d, docs role = some p → s.trusted.targets.get? role = none → s.world.fs (localPath x.cfg role) = some d → RoleBefore x.env p d

/-- The role is loaded, or a loaded published role delegates the path to it. -/
def OnBranch (env : Env) (path : Str) (docs : Str → Option PubRole) (s : St) (role parent : Str) : Prop :=
  (s.trusted.targets.get? role).isSome ∨
  ∃ pm p b, s.trusted.targets.get? parent = some pm ∧ docs parent = some p ∧ pm.signed = readTargets p.value ∧ Covers env { signed := p.value } path role b

/-- The only cache files that changed are those of published roles that were not trusted before; they now have what is published. -/
def Wrote (x : Ctx) (docs : Str → Option PubRole) (s s' : St) : Prop :=
  ∀ q, ¬ TempName q → s'.world.fs q = s.world.fs q ∨
    ∃ role p ss, docs role = some p ∧ GoodTargets x.env p.value ∧ ss ≠ [] ∧ Publishes x.env p.value ss p.file ∧ s.trusted.targets.get? role = none ∧ q = persistPath x.cfg role ∧ s'.world.fs q = some p.file

theorem Wrote.rfl' {s : St} : Wrote x docs s s := fun _ _ => .inl rfl

theorem Wrote.trans {s s1 s2 : St} (h1 : Wrote x docs s s1) (hg : Grows s.trusted s1.trusted) (h2 : Wrote x docs s1 s2) : Wrote x docs s s2 := by
  intro q hq
  rcases h2 q hq with h | ⟨role, p, ss, e1, e0, e2, e3, e4, e5, e6⟩
  · rw [h]
    exact h1 q hq
  · refine .inr ⟨role, p, ss, e1, e0, e2, e3, ?_, e5, e6⟩
    cases hm : s.trusted.targets.get? role with
    | none => rfl
    | some m => rw [hg _ _ hm] at e4; cases e4

theorem suffice_nonempty {env : Env} {D : AnyMeta} {role : Str} {ss : List Signer} : Suffice env D role ss → ss ≠ [] := by
  rintro ⟨_, _, _, _, _, ⟨S, _, hle, hin⟩, _⟩ rfl
  cases S with
  | nil => simp at hle; omega
  | cons a l =>
    obtain ⟨_, s, hs, _⟩ := hin a (by simp)
    cases hs

theorem load_branch (laws : EnvLaws x.env) (hs : Serves x.host srv) (hd : x.cfg.disableLocalCache = true ∨ GoodDisk x.host) (hb : Branches x srv now r sn tg path docs) {s : St}
    (hi : OnRelease x now r sn docs s) {role parent : Str} (ho : OnBranch x.env path docs s role parent) :
    ∃ m s' p, loadTargets x role parent s = (.ok m, s') ∧ docs role = some p ∧ m.signed = readTargets p.value ∧ OnRelease x now r sn docs s' ∧ Wrote x docs s s' := by
  cases hl : s.trusted.targets.get? role with
  | some m =>
    obtain ⟨p, h1, h2⟩ := hi.loaded role m hl
    exact ⟨m, s, p, loadTargets_trusted hl, h1, h2, hi, .rfl'⟩
  | none =>
    rcases ho with ho | ⟨pm, p, b, h1, h2, h3, h4⟩
    · rw [hl] at ho; cases ho
    · obtain ⟨q, ss, h5, h6, h7⟩ := hb.closed parent p role b h2 h4
      obtain ⟨g1, g2⟩ := hb.good role q h5
      obtain ⟨l1, l2, l3⟩ := hb.listed role q h5
      obtain ⟨msn, mts, n1, n2, n3, n4⟩ := hi.snapshot
      obtain ⟨m, a1, a2, a3⟩ := publishes_read (fun _ => goodTargets_rt laws) C85_payload.2.2.2 C08_all_types.2.2.2 g1 h6
      have hlist : msn.signed.metas.get? (role ++ b!".json") = some (some (viewMeta q.entry)) := by rw [n2]; exact mapValues_get? l1
      have hD : DelegatorIs s.trusted parent (.targets pm) := by
        refine .targets ?_ h1
        rintro rfl
        exact (hb.named _ p h2).2 (by simp)
      have hmm : MetaMatches x.env (viewMeta q.entry) q.file := metaMatches_view l3
      have hacc : TargetsAccepted x.env s.trusted q.file role parent m :=
        ⟨⟨msn, mts, viewMeta q.entry, .targets pm, n1, n3, by rw [n2, hi.time]; exact hi.fresh, by rw [n2]; exact n4, hlist, hmm, by rw [a2]; exact l2.symm, hD,
          a3 _ _ (suffice_targets (m := { signed := p.value }) h3 h7)⟩, a1, by rw [a2]; exact g1.type, by rw [a2, hi.time]; exact g2⟩
      obtain ⟨s', k1, k2, k3, k4, k5⟩ := loadTargets_current hs hd hl n1 hlist (fun d hd' =>
        old_role laws (hi.files role q d h5 hl hd') (delegator_iff.2 hD) (suffice_targets (m := { signed := p.value }) h3 h7) n1 hlist l2 hacc) hi.temps (by
        obtain ⟨url, n, e1, e2, e3⟩ := hb.served role q h5
        refine ⟨url, n, ?_, e2, e3⟩
        rcases e1 with ⟨e1, e4⟩ | ⟨e1, e4⟩
        · exact .inl ⟨by rw [hi.root]; exact e1, e4⟩
        · exact .inr ⟨by rw [hi.root]; exact e1, e4⟩) hacc
      refine ⟨m, s', q, k1, h5, a2, ?_, ?_⟩
      rotate_left
      · intro f hf
        by_cases hq : f = persistPath x.cfg role
        · subst hq
          rcases k5 with k5 | k5
          · exact .inl k5
          · exact .inr ⟨role, q, ss, h5, g1, suffice_nonempty h7, h6, hl, rfl, k5⟩
        · exact .inl (k4 f hf hq)
      refine ⟨by rw [k2]; exact hi.root, by rw [k2]; exact hi.time, ⟨msn, mts, by rw [k2]; exact n1, n2, by rw [k2]; exact n3, n4⟩, hi.fresh, ?_, k3, ?_⟩
      · intro role' m' hm'
        rw [k2] at hm'
        dsimp only at hm'
        rw [Entries.get?_set] at hm'
        split at hm'
        · next he => subst he; cases hm'; exact ⟨q, h5, a2⟩
        · exact hi.loaded role' m' hm'
      · intro role' p' d hd' hn' hf
        rw [k2] at hn'
        dsimp only at hn'
        rw [Entries.get?_set] at hn'
        split at hn'
        · cases hn'
        · next hne =>
          rw [k4 _ (localPath_not_temp _ _)] at hf
          · exact hi.files role' p' d hd' hn' hf
          · rw [(safeName_local (hb.named role' p' hd').1).1]
            intro he
            exact hne (persistPath_inj he.symm)

theorem onBranch_grows {s s' : St} (hg : Grows s.trusted s'.trusted) {role parent : Str} (h : OnBranch x.env path docs s role parent) : OnBranch x.env path docs s' role parent := by
  rcases h with h | ⟨pm, p, b, h1, h2, h3, h4⟩
  · cases hm : s.trusted.targets.get? role with
    | none => rw [hm] at h; cases h
    | some m => exact .inl (by rw [hg _ _ hm]; rfl)
  · exact .inr ⟨pm, p, b, hg _ _ h1, h2, h3, h4⟩

/-- A search on published roles never fails to load a role, never crashes, and leaves the client on the release. -/
theorem search_onRelease (laws : EnvLaws x.env) (hs : Serves x.host srv) (hd : x.cfg.disableLocalCache = true ∨ GoodDisk x.host) (hb : Branches x srv now r sn tg path docs)
    {k : Nat} {agenda : List (Str × Str)} {seen : List Str} {s s' : St} {vs : List Visit} {out : Res (Option TargetFiles)} (h : Search x path k agenda seen s vs out s')
    (hi : OnRelease x now r sn docs s) (ha : ∀ p ∈ agenda, OnBranch x.env path docs s p.1 p.2) :
    out ≠ .panic ∧ (∀ v ∈ vs, ∃ m p, v.found = some m ∧ docs v.role = some p ∧ m.signed = readTargets p.value) ∧ OnRelease x now r sn docs s' ∧ Wrote x docs s s' := by
  induction h with
  | limit => exact ⟨by simp, by simp, hi, .rfl'⟩
  | empty => exact ⟨by simp, by simp, hi, .rfl'⟩
  | skip _ _ ih => exact ih hi (fun p hp => ha p (.tail _ hp))
  | failed _ h1 h2 _ =>
    obtain ⟨m, s', p, k1, _⟩ := load_branch laws hs hd hb hi (ha _ (.head _))
    rw [h1] at k1
    cases k1
    exact absurd rfl (h2 m)
  | found _ h1 =>
    obtain ⟨m, s', p, k1, k2, k3, k4, k5⟩ := load_branch laws hs hd hb hi (ha _ (.head _))
    rw [h1] at k1
    cases k1
    exact ⟨by simp, by intro v hv; rw [List.mem_singleton] at hv; subst hv; exact ⟨_, p, rfl, k2, k3⟩, k4, k5⟩
  | crash _ h1 _ h3 =>
    obtain ⟨m, s', p, k1, k2, k3, _⟩ := load_branch laws hs hd hb hi (ha _ (.head _))
    rw [h1] at k1
    cases k1
    obtain ⟨d, sr, e1, e2, e3, e4⟩ := h3
    rw [k3] at e1
    have e1' : p.value.delegations.map (fun d => { d with keys := mapValues readKey d.keys }) = some d := e1
    rw [Option.map_eq_some_iff] at e1'
    obtain ⟨d0, e5, rfl⟩ := e1'
    exact absurd (hb.bins _ p d0 sr k2 e5 e2 e3) e4
  | @next k role parent agenda seen s s1 s2 s' m children stop vs out hns h1 h2 hn ht hfs _ hsr ih =>
    obtain ⟨m', s1', p, k1, k2, k3, k4, k5⟩ := load_branch laws hs hd hb hi (ha _ (.head _))
    rw [h1] at k1
    cases k1
    have hg := loadTargets_grows (x := x) role parent s
    rw [h1] at hg
    have hg2 : Grows s.trusted s2.trusted := by rw [ht]; exact hg
    obtain ⟨i1, i2, i3, i4⟩ := ih ⟨by rw [ht]; exact k4.root, by rw [ht]; exact k4.time, by rw [ht]; exact k4.snapshot, k4.fresh, by rw [ht]; exact k4.loaded, by rw [hfs]; exact k4.temps,
      by rw [ht, hfs]; exact k4.files⟩ (by
        intro q hq
        rcases List.mem_append.1 hq with hq | hq
        · obtain ⟨c, hc, rfl⟩ := List.mem_map.1 hq
          obtain ⟨b, hb⟩ := nextRoles_covers hn c hc
          exact .inr ⟨m, p, b, by rw [ht]; exact loadTargets_ok h1, k2, k3, (covers_read k3).1 hb⟩
        · have : q ∈ agenda := by
            cases stop with
            | true => cases hq
            | false => exact hq
          exact onBranch_grows hg2 (ha q (.tail _ this)))
    refine ⟨i1, ?_, i3, k5.trans hg ?_⟩
    rotate_left
    · intro q hq
      have := i4 q hq
      rwa [hfs, ht] at this
    intro v hv
    rcases List.mem_cons.1 hv with rfl | hv
    · exact ⟨m, p, rfl, k2, k3⟩
    · exact i2 v hv

theorem search_published (laws : EnvLaws x.env) (hs : Serves x.host srv) (hd : x.cfg.disableLocalCache = true ∨ GoodDisk x.host) (hb : Branches x srv now r sn tg path docs)
    {k : Nat} {agenda : List (Str × Str)} {seen : List Str} {s s' : St} {vs : List Visit} {out : Res (Option TargetFiles)} (h : Search x path k agenda seen s vs out s')
    (hi : OnRelease x now r sn docs s) (ha : ∀ p ∈ agenda, OnBranch x.env path docs s p.1 p.2) :
    out ≠ .panic ∧ ∀ v ∈ vs, ∃ m p, v.found = some m ∧ docs v.role = some p ∧ m.signed = readTargets p.value :=
  ⟨(search_onRelease laws hs hd hb h hi ha).1, (search_onRelease laws hs hd hb h hi ha).2.1⟩

/-- A search on published roles only visits roles that the published delegations lead to. -/
theorem search_pubReached {k : Nat} {agenda : List (Str × Str)} {seen : List Str} {s s' : St} {vs : List Visit} {out : Res (Option TargetFiles)}
    (h : Search x path k agenda seen s vs out s') (hp : ∀ v ∈ vs, ∃ m p, v.found = some m ∧ docs v.role = some p ∧ m.signed = readTargets p.value)
    (ha : ∀ p ∈ agenda, PubReached x.env docs path p.1) : ∀ v ∈ vs, PubReached x.env docs path v.role := by
  induction h with
  | limit => simp
  | empty => simp
  | skip _ _ ih => exact ih hp (fun p h => ha p (.tail _ h))
  | failed => intro v hv; rw [List.mem_singleton] at hv; subst hv; exact ha _ (.head _)
  | found => intro v hv; rw [List.mem_singleton] at hv; subst hv; exact ha _ (.head _)
  | crash => intro v hv; rw [List.mem_singleton] at hv; subst hv; exact ha _ (.head _)
  | @next k role parent agenda seen s s1 s2 s' m children stop vs out _ _ _ hn _ _ _ _ ih =>
    have h0 : PubReached x.env docs path role := ha _ (.head _)
    intro v hv
    rcases List.mem_cons.1 hv with rfl | hv
    · exact h0
    · refine ih (fun v hv => hp v (.tail _ hv)) ?_ v hv
      intro q hq
      rcases List.mem_append.1 hq with hq | hq
      · obtain ⟨c, hc, rfl⟩ := List.mem_map.1 hq
        obtain ⟨b, hcov⟩ := nextRoles_covers hn c hc
        obtain ⟨m', p, e1, e2, e3⟩ := hp _ (.head _)
        cases e1
        exact .step h0 e2 ((covers_read e3).1 hcov)
      · have : q ∈ agenda := by
          cases stop with
          | true => cases hq
          | false => exact hq
        exact ha q (.tail _ this)

/-- After the refresh of C93 the client is on the release. -/
theorem onRelease_cached {t : Trusted} {R : Files} (laws : EnvLaws x.env) (h : Released x.env now r R) (hv : ServingFiles x srv r R) (hu : x.cfg.unsafeLocalMode = false)
    (hs : Serves x.host srv) (hd : x.cfg.disableLocalCache = true ∨ GoodDisk x.host) {s : St} (hw : NoTemps s.world.fs)
    (hm : 0 ≤ x.cfg.maxRootRotations ∧ wrap64 (s.trusted.root.signed.version + 1) + x.cfg.maxRootRotations < 2 ^ 63)
    (hroots : RootsLeadTo x srv x.cfg.maxRootRotations.toNat s.trusted t) (hroot : t.root.signed = readRoot r)
    (hts : s.trusted.timestamp = none) (hsn : s.trusted.snapshot = none) (htg : s.trusted.targets = []) (hnow : s.trusted.refTime = now)
    (hcache : CacheBefore x.env x.cfg.localMetadataDir s.world.fs R) (hb : Branches x srv now r R.sn R.tg path docs)
    (hroles : RolesBefore x.env x.cfg.localMetadataDir s.world.fs docs) :
    ∃ s', refresh x s = (.ok (), s') ∧ OnRelease x now r R.sn docs s' ∧ (s'.trusted.targets.get? b!"targets").isSome := by
  obtain ⟨mts, msn, mtg, s', h1, h2, h3, h4, h5, _, _, _, h6⟩ := C93_upgrade laws h hv hu hs hd hw hm hroots hroot hts hsn htg hnow hcache
  obtain ⟨_, _, _, k4⟩ := rootsLeadTo_keeps hroots
  refine ⟨s', h1, ⟨by rw [h2]; exact hroot, by rw [h2]; exact k4.trans hnow, ⟨msn, mts, by rw [h2], h4, by rw [h2], ?_⟩, h.snapshotFresh, ?_, h6, ?_⟩, by rw [h2]; rfl⟩
  · obtain ⟨l1, l2, _⟩ := h.snapshotListed
    rw [h3]
    exact ⟨_, mapValues_get? l1, l2⟩
  · intro role m hm'
    rw [h2] at hm'
    have hm' : Entries.get? [(b!"targets", mtg)] role = some m := hm'
    rw [Entries.get?_cons] at hm'
    split at hm'
    · next he =>
      cases hm'
      obtain ⟨p, e1, e2⟩ := hb.top
      refine ⟨p, ?_, by rw [e2]; exact h5⟩
      rw [← e1]
      exact congrArg docs (by simpa using he.symm)
    · cases hm'
  · intro role p d hr hn hf
    have hsafe := hb.named role p hr
    obtain ⟨e1, e2⟩ := safeName_local (cfg := x.cfg) hsafe.1
    have hne : role ≠ b!"targets" := by
      rintro rfl
      rw [h2] at hn
      cases hn
    have := refresh_files hu s e1 (by
      intro hmem
      refine hsafe.2 ?_
      simp only [List.mem_cons, List.not_mem_nil, or_false] at hmem ⊢
      rcases hmem with h | h | h | h
      · exact .inl h
      · exact .inr (.inl h)
      · exact .inr (.inr h)
      · exact absurd h hne)
    rw [h1] at this
    rw [this, e2] at hf
    exact hroles role p d hr hne hf

/-- After the refresh of C87 the client is on the release. -/
theorem onRelease {t : Trusted} {dts dsn dtg : Bytes} {fsn ftg : MetaFiles} (laws : EnvLaws x.env) (h : Release x.env now r ts sn tg dts dsn dtg fsn ftg)
    (hv : Serving x srv r dts dsn dtg fsn ftg) (hu : x.cfg.unsafeLocalMode = false)
    (hs : Serves x.host srv) (hd : x.cfg.disableLocalCache = true ∨ GoodDisk x.host) {s : St} (hw : NoTemps s.world.fs)
    (hm : 0 ≤ x.cfg.maxRootRotations ∧ wrap64 (s.trusted.root.signed.version + 1) + x.cfg.maxRootRotations < 2 ^ 63)
    (hroots : RootsLeadTo x srv x.cfg.maxRootRotations.toNat s.trusted t) (hroot : t.root.signed = readRoot r)
    (hts : s.trusted.timestamp = none) (hsn : s.trusted.snapshot = none) (htg : s.trusted.targets = []) (hnow : s.trusted.refTime = now)
    (hempty : ∀ name ∈ [b!"timestamp.json", b!"snapshot.json", b!"targets.json"], s.world.fs (joinPath x.cfg.localMetadataDir name) = none)
    (hb : Branches x srv now r sn tg path docs)
    (hnone : ∀ role, (docs role).isSome → s.world.fs (joinPath x.cfg.localMetadataDir (role ++ b!".json")) = none) :
    ∃ s', refresh x s = (.ok (), s') ∧ OnRelease x now r sn docs s' ∧ (s'.trusted.targets.get? b!"targets").isSome :=
  onRelease_cached (R := ⟨ts, sn, tg, dts, dsn, dtg, fsn, ftg⟩) laws h hv hu hs hd hw hm hroots hroot hts hsn htg hnow
    ⟨fun d hd => (by rw [hempty _ (by simp)] at hd; cases hd), fun d hd => (by rw [hempty _ (by simp)] at hd; cases hd), fun d hd => (by rw [hempty _ (by simp)] at hd; cases hd)⟩ hb
    (fun role p d hr _ hd => by rw [hnone role (by rw [hr]; rfl)] at hd; cases hd)

/-- What a search from top-level targets finds in a published repository. -/
theorem search_answers (laws : EnvLaws x.env) (hs : Serves x.host srv) (hd : x.cfg.disableLocalCache = true ∨ GoodDisk x.host) (hb : Branches x srv now r sn tg path docs)
    {s1 s' : St} {vs : List Visit} {out : Res (Option TargetFiles)} (g2 : OnRelease x now r sn docs s1) (g3 : (s1.trusted.targets.get? b!"targets").isSome)
    (hse : Search x path (x.cfg.maxDelegations + 1).toNat [(b!"targets", b!"root")] [] s1 vs out s') :
    OnRelease x now r sn docs s' ∧ Wrote x docs s1 s' ∧
    out ≠ .panic ∧
    (∀ o, out = .ok o → ∃ role p f, PubReached x.env docs path role ∧ docs role = some p ∧ p.value.targets.get? path = some f ∧
      o = f.map (fun f => { f with path := path })) ∧
    ∀ names : List Str, (∀ role, (docs role).isSome → role ∈ names) → (names.length : Int) ≤ x.cfg.maxDelegations →
      Unhindered x.env path (fun m => ∃ role p, docs role = some p ∧ m = { signed := p.value }) →
      ∀ role p f, PubReached x.env docs path role → docs role = some p → p.value.targets.get? path = some f →
        (∃ o, out = .ok o) ∧
        ((∀ role' p', PubReached x.env docs path role' → docs role' = some p' → (p'.value.targets.get? path).isSome → role' = role) →
          out = .ok (f.map (fun f => { f with path := path }))) := by
  obtain ⟨p1, p2, p3, p4⟩ := search_onRelease laws hs hd hb hse g2 (by
    intro p hp
    rw [List.mem_singleton] at hp; subst hp
    exact .inl g3)
  obtain ⟨_, r2, r3⟩ := search_reached (S := (· = b!"targets")) hse (by
    intro p hp
    rw [List.mem_singleton] at hp; subst hp
    exact .start rfl)
  have hpub : ∀ v ∈ vs, PubReached x.env docs path v.role := fun v hv => search_pubReached hse p2 (by
    intro p hp
    rw [List.mem_singleton] at hp; subst hp
    exact .top) v hv
  have hans : ∀ o, out = .ok o → ∃ role p f, PubReached x.env docs path role ∧ docs role = some p ∧ p.value.targets.get? path = some f ∧
      o = f.map (fun f => { f with path := path }) := by
    intro o ho
    obtain ⟨v, m, e1, e2, e3⟩ := r3 o ho
    have hv := List.mem_of_getLast? e1
    obtain ⟨m', p, e4, e5, e6⟩ := p2 v hv
    rw [e2] at e4
    cases e4
    rw [e6] at e3
    have e3 : (readTargetMap p.value.targets).get? path = some o := e3
    cases hf : p.value.targets.get? path with
    | none => rw [readTargetMap_get_none.2 hf] at e3; cases e3
    | some f =>
      rw [readTargetMap_get hf] at e3
      cases e3
      exact ⟨v.role, p, f, hpub v hv, e5, hf, rfl⟩
  refine ⟨p3, p4, p1, hans, ?_⟩
  intro names hn1 hn2 hun role p f hreach hdoc hlist
  have hok : ∃ o, out = .ok o := by
    cases out with
    | ok o => exact ⟨o, rfl⟩
    | panic => exact absurd rfl p1
    | err e =>
      exfalso
      have hlen : vs.length ≤ names.length := by
        have := (search_bounded hse).1.length_le_of_subset (l₂ := names) (by
          intro a ha
          obtain ⟨v, hv, rfl⟩ := List.mem_map.1 ha
          obtain ⟨_, p, _, e5, _⟩ := p2 v hv
          exact hn1 _ (by rw [e5]; rfl))
        rwa [List.length_map] at this
      have one : ∀ v ∈ vs, ∀ m, v.found = some m → ∃ p, docs v.role = some p ∧ m.signed = readTargets p.value := by
        intro v hv m hm
        obtain ⟨m', p, e4, e5, e6⟩ := p2 v hv
        rw [hm] at e4
        cases e4
        exact ⟨p, e5, e6⟩
      obtain ⟨c1, c2⟩ := search_complete hse rfl (by omega) (by
        intro v hv he
        obtain ⟨m', p, e4, _⟩ := p2 v hv
        rw [he] at e4
        cases e4) (by
        rcases hun with hun | hun
        · refine .inl ?_
          intro v hv m hm name hc
          obtain ⟨p, e5, e6⟩ := one v hv m hm
          exact hun _ ⟨_, p, e5, rfl⟩ name ((covers_read e6).1 hc)
        · refine .inr ⟨by simp, ?_⟩
          intro v hv m hm n1 b1 n2 b2 hc1 hc2
          obtain ⟨p, e5, e6⟩ := one v hv m hm
          exact hun _ ⟨_, p, e5, rfl⟩ n1 b1 n2 b2 ((covers_read e6).1 hc1) ((covers_read e6).1 hc2))
      have hvis : ∀ role, PubReached x.env docs path role → ∃ v ∈ vs, v.role = role := by
        intro role hr
        induction hr with
        | top =>
          rcases c1 _ (.head _) with h | h
          · cases h
          · exact h
        | @step role child p b _ hd' hc ih =>
          obtain ⟨v, hv, rfl⟩ := ih
          obtain ⟨m, p', e4, e5, e6⟩ := p2 v hv
          rw [hd'] at e5
          cases e5
          rcases (c2 v hv m e4).2 child b ((covers_read e6).2 hc) with h | h
          · cases h
          · exact h
      obtain ⟨v, hv, rfl⟩ := hvis role hreach
      obtain ⟨m, p', e4, e5, e6⟩ := p2 v hv
      rw [hdoc] at e5
      cases e5
      have := (c2 v hv m e4).1
      rw [e6] at this
      rw [readTargetMap_get_none.1 this] at hlist
      cases hlist
  refine ⟨hok, fun huniq => ?_⟩
  obtain ⟨o, ho⟩ := hok
  obtain ⟨role', p', f', e1, e2, e3, e4⟩ := hans o ho
  have := huniq role' p' e1 e2 (by rw [e3]; rfl)
  subst this
  rw [hdoc] at e2
  cases e2
  rw [hlist] at e3
  cases e3
  rw [ho, e4]

/-- A client that has refreshed and asks for a target. -/
theorem getTargetInfo_onRelease (laws : EnvLaws x.env) (hs : Serves x.host srv) (hd : x.cfg.disableLocalCache = true ∨ GoodDisk x.host) (hb : Branches x srv now r sn tg path docs)
    {s : St} (g2 : OnRelease x now r sn docs s) (g3 : (s.trusted.targets.get? b!"targets").isSome) :
    OnRelease x now r sn docs (getTargetInfo x path s).2 ∧ Wrote x docs s (getTargetInfo x path s).2 ∧
    (getTargetInfo x path s).1 ≠ .panic ∧
    (∀ o, (getTargetInfo x path s).1 = .ok o → ∃ role p f, PubReached x.env docs path role ∧ docs role = some p ∧ p.value.targets.get? path = some f ∧
      o = f.map (fun f => { f with path := path })) ∧
    ∀ names : List Str, (∀ role, (docs role).isSome → role ∈ names) → (names.length : Int) ≤ x.cfg.maxDelegations →
      Unhindered x.env path (fun m => ∃ role p, docs role = some p ∧ m = { signed := p.value }) →
      ∀ role p f, PubReached x.env docs path role → docs role = some p → p.value.targets.get? path = some f →
        (∃ o, (getTargetInfo x path s).1 = .ok o) ∧
        ((∀ role' p', PubReached x.env docs path role' → docs role' = some p' → (p'.value.targets.get? path).isSome → role' = role) →
          (getTargetInfo x path s).1 = .ok (f.map (fun f => { f with path := path }))) := by
  obtain ⟨vs, hr⟩ := getTargetInfo_run (x := x) (path := path) s
  generalize (getTargetInfo x path s).1 = out at hr
  generalize (getTargetInfo x path s).2 = s' at hr
  refine search_answers laws hs hd hb g2 g3 (vs := vs) ?_
  cases hr with
  | direct h0 h1 => exact h1
  | refreshed h0 => rw [h0] at g3; cases g3
  | notRefreshed h0 => rw [h0] at g3; cases g3

/-- C90: a client whose roots lead to a published root, and whose cached metadata, top-level and delegated, are from earlier releases (any of them, also signed with keys that are no
longer trusted), asks for a target of a published release all of whose roles for the path are published. The call does not crash; an answer is an entry of a role that the
delegations lead to. If the repository has no more roles for the path than the client follows delegations, and no terminating delegation covers the path or none of the roles
delegates the path twice, then there is an answer if such a role has an entry, and the published one if only one such role has an entry. -/
theorem C90_cached {t : Trusted} {R : Files} (laws : EnvLaws x.env) (h : Released x.env now r R) (hv : ServingFiles x srv r R) (hu : x.cfg.unsafeLocalMode = false)
    (hs : Serves x.host srv) (hd : x.cfg.disableLocalCache = true ∨ GoodDisk x.host) {s : St} (hw : NoTemps s.world.fs)
    (hm : 0 ≤ x.cfg.maxRootRotations ∧ wrap64 (s.trusted.root.signed.version + 1) + x.cfg.maxRootRotations < 2 ^ 63)
    (hroots : RootsLeadTo x srv x.cfg.maxRootRotations.toNat s.trusted t) (hroot : t.root.signed = readRoot r)
    (hts : s.trusted.timestamp = none) (hsn : s.trusted.snapshot = none) (htg : s.trusted.targets = []) (hnow : s.trusted.refTime = now)
    (hcache : CacheBefore x.env x.cfg.localMetadataDir s.world.fs R) (hb : Branches x srv now r R.sn R.tg path docs)
    (hroles : RolesBefore x.env x.cfg.localMetadataDir s.world.fs docs) :
    (getTargetInfo x path s).1 ≠ .panic ∧
    (∀ o, (getTargetInfo x path s).1 = .ok o → ∃ role p f, PubReached x.env docs path role ∧ docs role = some p ∧ p.value.targets.get? path = some f ∧
      o = f.map (fun f => { f with path := path })) ∧
    ∀ names : List Str, (∀ role, (docs role).isSome → role ∈ names) → (names.length : Int) ≤ x.cfg.maxDelegations →
      Unhindered x.env path (fun m => ∃ role p, docs role = some p ∧ m = { signed := p.value }) →
      ∀ role p f, PubReached x.env docs path role → docs role = some p → p.value.targets.get? path = some f →
        (∃ o, (getTargetInfo x path s).1 = .ok o) ∧
        ((∀ role' p', PubReached x.env docs path role' → docs role' = some p' → (p'.value.targets.get? path).isSome → role' = role) →
          (getTargetInfo x path s).1 = .ok (f.map (fun f => { f with path := path }))) := by
  obtain ⟨s1, g1, g2, g3⟩ := onRelease_cached (path := path) laws h hv hu hs hd hw hm hroots hroot hts hsn htg hnow hcache hb hroles
  obtain ⟨vs, hr⟩ := getTargetInfo_run (x := x) (path := path) s
  generalize (getTargetInfo x path s).1 = out at hr
  generalize (getTargetInfo x path s).2 = s' at hr
  refine (search_answers laws hs hd hb g2 g3 (vs := vs) (s' := s') ?_).2.2
  cases hr with
  | direct h0 _ => rw [htg] at h0; cases h0
  | refreshed _ h1 h2 => rw [g1] at h1; cases h1; exact h2
  | notRefreshed _ h1 h2 => rw [g1] at h1; cases h1; exact absurd rfl h2

/-- C90: a client without cached metadata, whose roots lead to a published root, asks for a target of a published release all of whose roles for the path are published. The
call does not crash; an answer is an entry of a role that the delegations lead to. If the repository has no more roles for the path than the client follows delegations, and no
terminating delegation covers the path or none of the roles delegates the path twice, then there is an answer if such a role has an entry, and the published one if only one
such role has an entry. -/
theorem C90_delegated {t : Trusted} {dts dsn dtg : Bytes} {fsn ftg : MetaFiles} (laws : EnvLaws x.env) (h : Release x.env now r ts sn tg dts dsn dtg fsn ftg)
    (hv : Serving x srv r dts dsn dtg fsn ftg) (hu : x.cfg.unsafeLocalMode = false)
    (hs : Serves x.host srv) (hd : x.cfg.disableLocalCache = true ∨ GoodDisk x.host) {s : St} (hw : NoTemps s.world.fs)
    (hm : 0 ≤ x.cfg.maxRootRotations ∧ wrap64 (s.trusted.root.signed.version + 1) + x.cfg.maxRootRotations < 2 ^ 63)
    (hroots : RootsLeadTo x srv x.cfg.maxRootRotations.toNat s.trusted t) (hroot : t.root.signed = readRoot r)
    (hts : s.trusted.timestamp = none) (hsn : s.trusted.snapshot = none) (htg : s.trusted.targets = []) (hnow : s.trusted.refTime = now)
    (hempty : ∀ name ∈ [b!"timestamp.json", b!"snapshot.json", b!"targets.json"], s.world.fs (joinPath x.cfg.localMetadataDir name) = none)
    (hb : Branches x srv now r sn tg path docs)
    (hnone : ∀ role, (docs role).isSome → s.world.fs (joinPath x.cfg.localMetadataDir (role ++ b!".json")) = none) :
    (getTargetInfo x path s).1 ≠ .panic ∧
    (∀ o, (getTargetInfo x path s).1 = .ok o → ∃ role p f, PubReached x.env docs path role ∧ docs role = some p ∧ p.value.targets.get? path = some f ∧
      o = f.map (fun f => { f with path := path })) ∧
    ∀ names : List Str, (∀ role, (docs role).isSome → role ∈ names) → (names.length : Int) ≤ x.cfg.maxDelegations →
      Unhindered x.env path (fun m => ∃ role p, docs role = some p ∧ m = { signed := p.value }) →
      ∀ role p f, PubReached x.env docs path role → docs role = some p → p.value.targets.get? path = some f →
        (∃ o, (getTargetInfo x path s).1 = .ok o) ∧
        ((∀ role' p', PubReached x.env docs path role' → docs role' = some p' → (p'.value.targets.get? path).isSome → role' = role) →
          (getTargetInfo x path s).1 = .ok (f.map (fun f => { f with path := path }))) :=
  C90_cached (R := ⟨ts, sn, tg, dts, dsn, dtg, fsn, ftg⟩) laws h hv hu hs hd hw hm hroots hroot hts hsn htg hnow
    ⟨fun d hd => (by rw [hempty _ (by simp)] at hd; cases hd), fun d hd => (by rw [hempty _ (by simp)] at hd; cases hd), fun d hd => (by rw [hempty _ (by simp)] at hd; cases hd)⟩ hb
    (fun role p d hr _ hd => by rw [hnone role (by rw [hr]; rfl)] at hd; cases hd)

end
end Tuf
