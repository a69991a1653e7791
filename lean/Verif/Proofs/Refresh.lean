import Verif.Proofs.Files

/-! # Structure of `Refresh` -/

namespace Tuf
open Spec

section
variable {x : Ctx}

/-! ## Calls that are blocked -/

theorem updateTimestamp_blocked {env : Env} {t : Trusted} (h : t.snapshot.isSome) (data : Bytes) :
    t.updateTimestamp env data = (.err (.runtime "cannot update timestamp after snapshot"), t) := by
  unfold Trusted.updateTimestamp Trusted.checkTimestamp
  rw [if_pos h]

theorem updateRoot_blocked {env : Env} {t : Trusted} (h : t.timestamp.isSome) (data : Bytes) :
    t.updateRoot env data = (.err (.runtime "cannot update root after timestamp"), t) := by
  unfold Trusted.updateRoot Trusted.checkRoot
  rw [if_pos h]

/-! ## Outcomes of the parts -/

theorem updateTimestamp_ok {env : Env} {t t' : Trusted} {data : Bytes} {m : Metadata TimestampType}
    (h : t.updateTimestamp env data = (.ok m, t')) :
    TimestampAccepted env t data m ∧ ¬ Expired m.signed.expires t.refTime ∧ t' = { t with timestamp := some m } := by
  rcases updateTimestamp_cases env t data with ⟨n, ha, hu, ⟨hx, hr⟩ | ⟨hx, msg, hr⟩⟩ | ⟨e, hu⟩ | hu
  · rw [h] at hr hu; cases hr; exact ⟨ha, hx, hu⟩
  · rw [h] at hr; cases hr
  · rw [h] at hu; cases hu
  · rw [h] at hu; cases hu

theorem updateSnapshot_ok {env : Env} {t t' : Trusted} {data : Bytes} {b : Bool} {m : Metadata SnapshotType}
    (h : t.updateSnapshot env data b = (.ok m, t')) :
    SnapshotAccepted env t data b m ∧ ¬ Expired m.signed.expires t.refTime ∧ t' = { t with snapshot := some m } := by
  rcases updateSnapshot_cases env t data b with
    ⟨n, ha, hu, ⟨h1, h2, hr⟩ | ⟨hx, msg, hr⟩ | ⟨_, _, msg, hr⟩ | ⟨_, hr⟩⟩ | ⟨e, hu⟩ | hu
  · rw [h] at hr hu; cases hr; exact ⟨ha, h1, hu⟩
  · rw [h] at hr; cases hr
  · rw [h] at hr; cases hr
  · rw [h] at hr; cases hr
  · rw [h] at hu; cases hu
  · rw [h] at hu; cases hu

theorem updateRoot_ok {env : Env} {t t' : Trusted} {data : Bytes} {m : Metadata RootType}
    (h : t.updateRoot env data = (.ok m, t')) : RootAccepted env t data m ∧ t' = { t with root := m } := by
  rcases updateRoot_cases env t data with ⟨new, h1, h2⟩ | ⟨e, h1⟩ | h1
  · rw [h1] at h; cases h; exact ⟨h2, rfl⟩
  · rw [h1] at h; cases h
  · rw [h1] at h; cases h

/-- Outcome of a read. -/
def readResult : Option Bytes → Res Bytes
  | some b => .ok b
  | none => .err ioErr

/-- Reading a local file. -/
theorem readLocal {x : Ctx} {role : Str} {s : St} {r : Option Bytes}
    (hr : (if x.host.readFails s.world.trace (localPath x.cfg role) then none else s.world.fs (localPath x.cfg role)) = r) :
    onWorld (loadLocalMetadata x role) s = (readResult r,
      { s with world := s.world.emit (.read (localPath x.cfg role) r) }) := by
  rw [onWorld_apply]
  unfold loadLocalMetadata readFile
  dsimp only
  rw [hr]
  cases r <;> rfl

/-- Reads leave everything but the history alone. -/
theorem emit_read_fs (w : World) (p : Str) (r : Option Bytes) : (w.emit (.read p r)).fs = w.fs := rfl

theorem tryLocal_none {α : Type} {s s1 : St} {role : Str} {update : Bytes → Trusted → Res α × Trusted}
    (h : tryLocal x role update s = (.ok none, s1)) :
    s1.world.fs = s.world.fs ∧
    ((s1.trusted = s.trusted ∧ (x.host.readFails s.world.trace (localPath x.cfg role) = true ∨ s.world.fs (localPath x.cfg role) = none)) ∨
     ∃ data e, s.world.fs (localPath x.cfg role) = some data ∧ update data s.trusted = (.err e, s1.trusted) ∧ e.isRepository = true) := by
  unfold tryLocal at h
  obtain ⟨o, s2, h1, h2⟩ := SM.bind_eq_ok.1 h
  by_cases hf : x.host.readFails s.world.trace (localPath x.cfg role) = true
  · have hr := readLocal (x := x) (role := role) (s := s) (if_pos hf)
    rcases SM.try_eq_ok.1 h1 with ⟨v, rfl, h1'⟩ | ⟨e, rfl, h1'⟩
    · rw [hr] at h1'; cases h1'
    · rw [hr] at h1'; cases h1'; cases h2
      exact ⟨rfl, .inl ⟨rfl, .inl hf⟩⟩
  · have hr := readLocal (x := x) (role := role) (s := s) (if_neg hf)
    cases hfs : s.world.fs (localPath x.cfg role) with
    | none =>
      rw [hfs] at hr
      rcases SM.try_eq_ok.1 h1 with ⟨v, rfl, h1'⟩ | ⟨e, rfl, h1'⟩
      · rw [hr] at h1'; cases h1'
      · rw [hr] at h1'; cases h1'; cases h2
        exact ⟨rfl, .inl ⟨rfl, .inr rfl⟩⟩
    | some data =>
      rw [hfs] at hr
      rcases SM.try_eq_ok.1 h1 with ⟨v, rfl, h1'⟩ | ⟨e, rfl, h1'⟩
      · rw [hr] at h1'; cases h1'
        obtain ⟨b, s3, h3, h4⟩ := SM.bind_eq_ok.1 h2
        rcases SM.try_eq_ok.1 h3 with ⟨v, rfl, h3'⟩ | ⟨e, rfl, h3'⟩
        · cases h4
        · dsimp only at h4
          split at h4
          · next he =>
            cases h4
            rw [onTrusted_apply] at h3'
            have e1 := congrArg Prod.fst h3'
            have e2 := congrArg (fun p => p.2.trusted) h3'
            have e3 := congrArg (fun p => p.2.world.fs) h3'
            exact ⟨e3.symm, .inr ⟨data, e, rfl, Prod.ext e1 e2, he⟩⟩
          · cases h4
      · rw [hr] at h1'; cases h1'

/-- A successful load of the timestamp. -/
theorem loadTimestamp_ok {s s' : St} (h : loadTimestamp x s = (.ok (), s')) :
    ∃ o s1 data, tryLocal x TIMESTAMP (fun data t => t.updateTimestamp x.env data) s = (.ok o, s1) ∧
      ((∃ e, s1.trusted.updateTimestamp x.env data = (.err e, s'.trusted) ∧ e.isEqualVersion = true ∧ s'.world.fs = s1.world.fs) ∨
       (∃ m, s1.trusted.updateTimestamp x.env data = (.ok m, s'.trusted) ∧
         ∃ w w', w.fs = s1.world.fs ∧ persistMetadata x TIMESTAMP data w = (.ok (), w') ∧ s'.world = w')) := by
  unfold loadTimestamp at h
  obtain ⟨o, s1, h1, h⟩ := SM.bind_eq_ok.1 h
  obtain ⟨data, s2, h2, h⟩ := SM.bind_eq_ok.1 h
  have ht2 := onWorld_trusted h2
  have hfs2 : s2.world.fs = s1.world.fs := by
    rw [onWorld_apply] at h2
    have := congrArg (fun p => p.2.world) h2
    dsimp only at this
    rw [← this]
    unfold downloadMetadata doFetch
    dsimp only
    cases x.host.fetch s1.world.trace (metadataURL x.cfg.remoteMetadataURL TIMESTAMP []) x.cfg.timestampMaxLength <;> rfl
  obtain ⟨r, s3, h3, h⟩ := SM.bind_eq_ok.1 h
  refine ⟨o, s1, data, h1, ?_⟩
  rcases SM.try_eq_ok.1 h3 with ⟨m, rfl, h3'⟩ | ⟨e, rfl, h3'⟩
  · right
    obtain ⟨h4, h5⟩ := onTrusted_ok h3'
    rw [ht2] at h4
    refine ⟨m, ?_, s2.world, s'.world, hfs2, ?_, rfl⟩
    · rw [h4, onWorld_trusted h]
    · dsimp only at h
      rw [onWorld_apply, h5] at h
      have e1 := congrArg Prod.fst h
      have e2 := congrArg (fun p => p.2.world) h
      exact Prod.ext e1 e2
  · left
    dsimp only at h
    split at h
    · next he =>
      have : s3 = s' := by cases h; rfl
      subst this
      rw [onTrusted_apply, ht2] at h3'
      have e1 := congrArg Prod.fst h3'
      have e2 := congrArg (fun p => p.2.trusted) h3'
      refine ⟨e, Prod.ext e1 e2, he, ?_⟩
      rw [← hfs2]
      exact (congrArg (fun p => p.2.world.fs) h3').symm
    · cases h

theorem loadTimestamp_snapshot {s s' : St} (h : loadTimestamp x s = (.ok (), s')) : s.trusted.snapshot = none := by
  cases hs : s.trusted.snapshot with
  | none => rfl
  | some sn =>
    obtain ⟨o, s1, data, h1, h2⟩ := loadTimestamp_ok h
    have hb := fun d => updateTimestamp_blocked (env := x.env) (t := s.trusted) (by rw [hs]; rfl) d
    have ht : s1.trusted = s.trusted := by
      cases o with
      | some m =>
        obtain ⟨d, _, h3⟩ := tryLocal_some h1
        rw [hb] at h3; cases h3
      | none =>
        obtain ⟨_, ⟨h3, _⟩ | ⟨d, e, _, h3, _⟩⟩ := tryLocal_none h1
        · exact h3
        · rw [hb] at h3
          exact (congrArg Prod.snd h3).symm
    rw [ht, hb] at h2
    rcases h2 with ⟨e, h3, h4, _⟩ | ⟨m, h3, _⟩
    · have h5 := congrArg Prod.fst h3
      cases h5; cases h4
    · cases h3

/-- A successful load of the snapshot: a local or remote document was accepted. -/
theorem loadSnapshot_ok {s s' : St} (h : loadSnapshot x s = (.ok (), s')) :
    ∃ t1 data b m, t1.updateSnapshot x.env data b = (.ok m, s'.trusted) ∧ History x.env s.trusted t1 := by
  unfold loadSnapshot at h
  obtain ⟨o, s1, h1, h⟩ := SM.bind_eq_ok.1 h
  cases o with
  | some m =>
    cases h
    obtain ⟨d, _, h3⟩ := tryLocal_some h1
    exact ⟨_, _, _, _, h3, .refl⟩
  | none =>
    have hh : History x.env s.trusted s1.trusted := by
      obtain ⟨_, ⟨h3, _⟩ | ⟨d, e, _, h3, _⟩⟩ := tryLocal_none h1
      · rw [h3]; exact .refl
      · have := History.step (env := x.env) (.snapshot d true) (.refl (t := s.trusted))
        rw [Call.run] at this
        rwa [h3] at this
    obtain ⟨t, s1', h1', h⟩ := SM.bind_eq_ok.1 h
    cases h1'
    cases hts : s1.trusted.timestamp with
    | none => rw [hts] at h; cases h
    | some ts =>
      rw [hts] at h
      obtain ⟨f, s2, h2, h⟩ := SM.bind_eq_ok.1 h
      obtain ⟨_, rfl⟩ := lift_ok h2
      obtain ⟨data, s3, h3, h⟩ := SM.bind_eq_ok.1 h
      obtain ⟨m, s4, h4, h⟩ := SM.bind_eq_ok.1 h
      have h5 := (onTrusted_ok h4).1
      rw [onWorld_trusted h3] at h5
      exact ⟨_, data, false, m, by rw [h5, onWorld_trusted h], hh⟩

/-- A role loaded for the first time was accepted under the given parent in that call. -/
theorem loadTargets_accepted {s s' : St} {role parent : Str} {m : Metadata TargetsType} (h : loadTargets x role parent s = (.ok m, s'))
    (hn : s.trusted.targets.get? role = none) :
    ∃ data, TargetsAccepted x.env s.trusted data role parent m ∧ s'.trusted = { s.trusted with targets := s.trusted.targets.set role m } := by
  unfold loadTargets at h
  obtain ⟨t, s0, h0, h⟩ := SM.bind_eq_ok.1 h
  cases h0
  rw [hn] at h
  obtain ⟨o, s1, h1, h⟩ := SM.bind_eq_ok.1 h
  cases o with
  | some r =>
    cases h
    obtain ⟨data, _, h2⟩ := tryLocal_some h1
    obtain ⟨h3, h4⟩ := updateTargets_ok h2
    exact ⟨data, h3, h4⟩
  | none =>
    have ht1 : s1.trusted = s.trusted := by
      obtain ⟨_, ⟨h3, _⟩ | ⟨d, e, _, h3, _⟩⟩ := tryLocal_none h1
      · exact h3
      · rcases updateTargets_cases x.env s.trusted d role parent with ⟨new, h4, _⟩ | ⟨e, h4⟩ | h4
        · rw [h4] at h3; cases h3
        · rw [h4] at h3; exact (congrArg Prod.snd h3).symm
        · rw [h4] at h3; cases h3
    obtain ⟨t, s2, h2, h⟩ := SM.bind_eq_ok.1 h
    cases h2
    cases hsn : s1.trusted.snapshot with
    | none => rw [hsn] at h; cases h
    | some sn =>
      rw [hsn] at h
      obtain ⟨f, s3, h3, h⟩ := SM.bind_eq_ok.1 h
      obtain ⟨_, rfl⟩ := lift_ok h3
      obtain ⟨data, s4, h4, h⟩ := SM.bind_eq_ok.1 h
      obtain ⟨m', s5, h5, h⟩ := SM.bind_eq_ok.1 h
      obtain ⟨_, s6, h6, h⟩ := SM.bind_eq_ok.1 h
      have h8 := onWorld_trusted h4
      cases h
      obtain ⟨h7, h9⟩ := updateTargets_ok (onTrusted_ok h5).1
      rw [h8, ht1] at h7 h9
      exact ⟨data, h7, by rw [onWorld_trusted h6, h9]⟩

/-- A successful refresh: its last step accepted top-level targets under the root. -/
theorem refresh_accepted {s s' : St} (h : refresh x s = (.ok (), s')) :
    s.trusted.snapshot = none ∧
    ∃ t1 data m, ClientHistory x.env s.trusted t1 ∧ TargetsAccepted x.env t1 data TARGETS ROOT m ∧
      s'.trusted = { t1 with targets := t1.targets.set TARGETS m } := by
  unfold refresh at h
  split at h
  · unfold unsafeLocalRefresh at h
    obtain ⟨d1, s1, h1, h⟩ := SM.bind_eq_ok.1 h
    obtain ⟨m1, s2, h2, h⟩ := SM.bind_eq_ok.1 h
    obtain ⟨d2, s3, h3, h⟩ := SM.bind_eq_ok.1 h
    obtain ⟨m2, s4, h4, h⟩ := SM.bind_eq_ok.1 h
    obtain ⟨d3, s5, h5, h⟩ := SM.bind_eq_ok.1 h
    obtain ⟨m3, s6, h6, h⟩ := SM.bind_eq_ok.1 h
    cases h
    have e2 := (onTrusted_ok h2).1
    have e4 := (onTrusted_ok h4).1
    have e6 := (onTrusted_ok h6).1
    rw [onWorld_trusted h1] at e2
    rw [onWorld_trusted h3] at e4
    rw [onWorld_trusted h5] at e6
    obtain ⟨ha, hb⟩ := updateTargets_ok e6
    refine ⟨(updateTimestamp_ok e2).1.early, s4.trusted, d3, m3, ?_, ha, hb⟩
    have c1 : ClientHistory x.env s.trusted s2.trusted := by
      have := ClientHistory.step (env := x.env) (.timestamp d1) (.refl (t := s.trusted)) trivial
      rw [Call.run] at this
      rwa [e2] at this
    have c2 := ClientHistory.step (env := x.env) (.snapshot d2 false) c1 trivial
    rw [Call.run] at c2
    rwa [e4] at c2
  · next hu =>
    have hu : x.cfg.unsafeLocalMode = false := by simpa using hu
    unfold onlineRefresh at h
    obtain ⟨_, s1, h1, h⟩ := SM.bind_eq_ok.1 h
    obtain ⟨_, s2, h2, h⟩ := SM.bind_eq_ok.1 h
    obtain ⟨_, s3, h3, h⟩ := SM.bind_eq_ok.1 h
    obtain ⟨m, s4, h4, h⟩ := SM.bind_eq_ok.1 h
    cases h
    have c1 := history_of_exec (.refl (t := s.trusted)) (exec_loadRoot (ex := Extra.none) trivial hu .refl) h1
    have c2 := history_of_exec c1 (exec_loadTimestamp (ex := Extra.none) trivial hu c1) h2
    have c3 := history_of_exec c2 (exec_loadSnapshot (ex := Extra.none) trivial hu c2) h3
    have hn : s3.trusted.targets.get? TARGETS = none := by
      obtain ⟨t1, d, b, m, h5, _⟩ := loadSnapshot_ok h3
      obtain ⟨h6, _, h7⟩ := updateSnapshot_ok h5
      rw [h7]; exact h6.early
    obtain ⟨data, h5, h6⟩ := loadTargets_accepted h4 hn
    refine ⟨?_, s3.trusted, data, m, c3, h5, h6⟩
    have h8 := loadTimestamp_snapshot h2
    cases hs : s.trusted.snapshot with
    | none => rfl
    | some sn =>
      have : s1.trusted.snapshot.isSome := by
        have hmono : ∀ {t t' : Trusted}, ClientHistory x.env t t' → t.snapshot.isSome → t'.snapshot.isSome := by
          intro t t' hh h0
          induction hh with
          | refl => exact h0
          | @step t' c _ _ ih =>
            have hch := run_change x.env t' c
            generalize (c.run x.env t').2 = t2 at hch
            cases hch with
            | none => exact ih
            | root _ => exact ih
            | timestamp _ => exact ih
            | snapshot _ => rfl
            | targets _ => exact ih
        exact hmono c1 (by rw [hs]; rfl)
      rw [h8] at this; cases this

/-! ## Admissible events of the parts, with other justifications -/

variable {ex : Extra} {J : Trusted → Str → Bytes → Prop}

theorem exec_tryLocal' {α : Type} {s : St} {role : Str} {update : Bytes → Trusted → Res α × Trusted}
    (hc : ∀ data t, ∃ c : Call, (c.run x.env t).2 = (update data t).2 ∧ (t = s.trusted → UpdaterCall t c)) :
    Exec x (EventOk x ex J) s (tryLocal x role update s).2 := by
  unfold tryLocal
  refine exec_bind (exec_try (exec_onWorld exec_read)) ?_
  intro a s1 h
  have hs : s1.trusted = s.trusted := try_trusted h rfl
  cases a with
  | error e => exact .refl
  | ok data =>
    refine exec_bind (exec_try ?_) ?_
    · obtain ⟨c, h1, h2⟩ := hc data s1.trusted
      exact exec_call c (h2 hs) h1
    · intro b s2 _
      cases b with
      | ok a => exact .refl
      | error e =>
        dsimp only
        split <;> exact .refl

theorem exec_loadTimestamp' {s : St} (hf : ∀ n, ex.fetch (metadataURL x.cfg.remoteMetadataURL TIMESTAMP []) n)
    (hj : ∀ t data, J t TIMESTAMP data) : Exec x (EventOk x ex J) s (loadTimestamp x s).2 := by
  unfold loadTimestamp
  refine exec_bind (exec_tryLocal' (fun data t => ⟨.timestamp data, rfl, fun _ => trivial⟩)) ?_
  intro o s1 _
  refine exec_bind (exec_onWorld (exec_fetch (.inr (hf _)))) ?_
  intro data s2 _
  refine exec_bind (exec_try (exec_call (.timestamp data) trivial rfl)) ?_
  intro r s3 _
  cases r with
  | error e => dsimp only; split <;> exact .refl
  | ok m => exact exec_onWorld (exec_persist (hj _ _))

theorem exec_loadSnapshot' {s : St} (hf : ∀ t m n, ex.fetch (metadataURL x.cfg.remoteMetadataURL SNAPSHOT (metaVersion t m)) n)
    (hj : ∀ t data, J t SNAPSHOT data) : Exec x (EventOk x ex J) s (loadSnapshot x s).2 := by
  unfold loadSnapshot
  refine exec_bind (exec_tryLocal' (fun data t => ⟨.snapshot data true, rfl, fun _ => trivial⟩)) ?_
  intro o s1 _
  cases o with
  | some m => exact .refl
  | none =>
    refine exec_bind exec_getTrusted ?_
    intro t s1' _
    cases t.timestamp with
    | none => exact .refl
    | some ts =>
      refine exec_bind exec_lift ?_
      intro f s2 _
      refine exec_bind (exec_onWorld (exec_fetch (.inr (hf _ _ _)))) ?_
      intro data s3 _
      refine exec_bind (exec_call (.snapshot data false) trivial rfl) ?_
      intro m s4 _
      exact exec_onWorld (exec_persist (hj _ _))

theorem exec_loadTopTargets' {s : St} (hf : ∀ t m n, ex.fetch (metadataURL x.cfg.remoteMetadataURL TARGETS (metaVersion t m)) n)
    (hj : ∀ t data, J t TARGETS data) : Exec x (EventOk x ex J) s (loadTargets x TARGETS ROOT s).2 := by
  unfold loadTargets
  refine exec_bind exec_getTrusted ?_
  intro t s0 h0
  cases h0
  cases hg : s.trusted.targets.get? TARGETS with
  | some m => exact .refl
  | none =>
    refine exec_bind (exec_tryLocal' (fun data t => ⟨.targets data TARGETS ROOT, rfl, fun ht => ⟨by rw [ht]; exact hg, .inl ⟨rfl, rfl⟩⟩⟩)) ?_
    intro o s1 h1
    cases o with
    | some m => exact .refl
    | none =>
      refine exec_bind exec_getTrusted ?_
      intro t s1' h1'
      cases h1'
      cases s1.trusted.snapshot with
      | none => exact .refl
      | some sn =>
        refine exec_bind exec_lift ?_
        intro f s2 hl
        have h2 := (lift_ok hl).2
        refine exec_bind (exec_onWorld (exec_fetch (.inr (hf _ _ _)))) ?_
        intro data s3 h3
        refine exec_bind (exec_call (.targets data TARGETS ROOT) ⟨by rw [onWorld_trusted h3, h2, tryLocal_targets_none h1]; exact hg, .inl ⟨rfl, rfl⟩⟩ rfl) ?_
        intro m s4 _
        refine exec_bind (exec_onWorld (exec_persist (hj _ _))) ?_
        intro _ _ _
        exact .refl

end

end Tuf
