import Verif.Proofs.Trusted
import Verif.Proofs.Decode
import Verif.Props.Sample

/-!
# Histories of the trusted metadata set (C11-C18, C20, C23)

All theorems quantify over all environments, all starting sets and all sequences of `Update*` calls with arbitrary bytes, successful or not.
-/

namespace Tuf
open Spec Sample

namespace Sample
/-- Run a list of calls from a fresh trusted set; the outcomes and the versions of root, timestamp, snapshot and targets at the end. -/
def runAll (t : Trusted) : List Call → List (Res Unit) × Trusted
  | [] => ([], t)
  | c :: cs =>
    let (r, t') := c.run repoEnv t
    let (rs, t'') := runAll t' cs
    (r :: rs, t'')
def versions (t : Trusted) : Int × Option Int × Option Int × Option Int :=
  (t.root.signed.version, t.timestamp.map (·.signed.version), t.snapshot.map (·.signed.version),
    (t.targets.get? TARGETS).map (·.signed.version))
def scenario (root : Bytes) (cs : List Call) : Res (List (Res Unit) × Int × Option Int × Option Int × Option Int) :=
  (start root).map (fun t => ((runAll t cs).1, versions (runAll t cs).2))
end Sample

/-- A complete update: two root rotations, timestamp, snapshot, targets, delegated targets; then a refused root. -/
example : scenario [1, 1] [.root [1, 2], .root [1, 3], .timestamp [2, 4], .snapshot [3, 4] false, .targets [4, 4] TARGETS ROOT,
      .targets [5, 4] b!"d" TARGETS, .root [1, 4]] =
    .ok ([.ok (), .ok (), .ok (), .ok (), .ok (), .ok (), .err (.runtime "cannot update root after timestamp")], 3, some 4, some 4, some 4) := by
  decide +kernel

theorem History.trans {env : Env} {a b c : Trusted} (h1 : History env a b) (h2 : History env b c) : History env a c := by
  induction h2 with
  | refl => exact h1
  | step call _ ih => exact .step call ih

theorem ClientHistory.history {env : Env} {a b : Trusted} (h : ClientHistory env a b) : History env a b := by
  induction h with
  | refl => exact .refl
  | step c _ _ ih => exact .step c ih

/-- Induction over the changes in a history. -/
theorem history_change {env : Env} {t : Trusted} {P : Trusted → Prop} (h0 : P t) (hstep : ∀ a c b, P a → Change env a c b → P b)
    {t' : Trusted} (h : History env t t') : P t' := by
  induction h with
  | refl => exact h0
  | step c _ ih => exact hstep _ _ _ ih (run_change env _ c)

/-! ## C11 -/

/-- One root rotation: signed under the old and the new root, and the version is one more. -/
structure Spec.Rotation (env : Env) (old new : Metadata RootType) : Prop where
  byOld : Verifies env (.root old) b!"root" (.root new)
  byNew : Verifies env (.root new) b!"root" (.root new)
  version : new.signed.version = old.signed.version + 1 ∨ (old.signed.version = 2 ^ 63 - 1 ∧ new.signed.version = -(2 ^ 63))

/-- A chain of rotations. -/
inductive Spec.RootChain (env : Env) (a : Metadata RootType) : Metadata RootType → Prop
  | refl : RootChain env a a
  | step {b c : Metadata RootType} : RootChain env a b → Rotation env b c → RootChain env a c

theorem new_root {env : Env} {now : Time} {data : Bytes} {t : Trusted} (h : Trusted.new env now data = .ok t) :
    ParsesTo env data t.root ∧ t.root.signed.type = b!"root" ∧ Verifies env (.root t.root) b!"root" (.root t.root) ∧
      t.timestamp = none ∧ t.snapshot = none ∧ t.targets = [] ∧ t.refTime = now := by
  unfold Trusted.new loadTrustedRoot at h
  obtain ⟨r, hr, h⟩ := Res.bind_eq_ok.1 h
  obtain ⟨r', hp, hr⟩ := Res.bind_eq_ok.1 hr
  split at hr
  · cases hr
  · next ht =>
    obtain ⟨_, hv, hr⟩ := Res.bind_eq_ok.1 hr
    cases hr
    cases h
    exact ⟨hp, Classical.byContradiction ht, verifyDelegate_ok_iff.1 hv, rfl, rfl, rfl, rfl⟩

theorem rotation_of_accepted {env : Env} {t : Trusted} {data : Bytes} {new : Metadata RootType}
    (hr : inInt64 t.root.signed.version = true) (h : RootAccepted env t data new) : Rotation env t.root new := by
  refine ⟨h.byOld, h.byNew, ?_⟩
  have hv := h.version
  have hr' := hr
  simp [inInt64] at hr'
  by_cases hm : t.root.signed.version = 2 ^ 63 - 1
  · right
    refine ⟨hm, ?_⟩
    rw [hv, hm]
    exact wrap64_max
  · left
    rw [hv, wrap64_of_range]
    simp [inInt64]
    omega

/-- C11: whatever the calls, the trusted root is reached from the initial root by consecutive, doubly signed rotations. The version is
exactly one more except after the largest 64-bit version (`C11_version_wraps` shows that this happens). -/
theorem C11_root_rotations_partial {env : Env} {now : Time} {data : Bytes} {t t' : Trusted} (h0 : Trusted.new env now data = .ok t)
    (h : History env t t') : RootChain env t.root t'.root := by
  have : RootChain env t.root t'.root ∧ inInt64 t'.root.signed.version = true := by
    refine history_change (P := fun x => RootChain env t.root x.root ∧ inInt64 x.root.signed.version = true)
      ⟨.refl, root_version_range (new_root h0).1⟩ ?_ h
    rintro a c b ⟨hc, hr⟩ hch
    cases hch with
    | none => exact ⟨hc, hr⟩
    | root ha => exact ⟨.step hc (rotation_of_accepted hr ha), root_version_range ha.parsed⟩
    | timestamp => exact ⟨hc, hr⟩
    | snapshot => exact ⟨hc, hr⟩
    | targets => exact ⟨hc, hr⟩
  exact this.1

/-- C11 for one call: if the root changes at all, it changes by one rotation, in every trusted set whose root version is below the maximum. -/
theorem C11_one_call_partial {env : Env} {t : Trusted} (c : Call) (hr : -(2 ^ 63) ≤ t.root.signed.version ∧ t.root.signed.version < 2 ^ 63 - 1) :
    (c.run env t).2.root = t.root ∨
    ((c.run env t).2.root.signed.version = t.root.signed.version + 1 ∧
      Trusts env (.root t.root) b!"root" (.root (c.run env t).2.root) ∧
      Trusts env (.root (c.run env t).2.root) b!"root" (.root (c.run env t).2.root)) := by
  have key : ∀ t', Change env t c t' → t'.root = t.root ∨ (t'.root.signed.version = t.root.signed.version + 1 ∧
      Trusts env (.root t.root) b!"root" (.root t'.root) ∧ Trusts env (.root t'.root) b!"root" (.root t'.root)) := by
    intro t' h
    cases h with
    | root ha =>
      right
      refine ⟨?_, ha.byOld.trusts, ha.byNew.trusts⟩
      have := ha.version
      rw [this, wrap64_of_range]
      simp [inInt64]
      omega
    | none => exact .inl rfl
    | timestamp => exact .inl rfl
    | snapshot => exact .inl rfl
    | targets => exact .inl rfl
  exact key _ (run_change env t c)

/-- The exception of C11 occurs: after root version 2^63-1 the only acceptable version is -2^63, because Go's addition wraps around. -/
theorem C11_version_wraps :
    scenario [8, 0] [.root [8, 1]] = .ok ([.ok ()], -(2 ^ 63), none, none, none) := by decide +kernel

/-! ## C12 -/

/-- C12: a loaded level freezes the level above, in every history. -/
theorem C12_frozen {env : Env} {t t' : Trusted} (h : History env t t') :
    (t.timestamp.isSome → t'.root = t.root ∧ t'.timestamp.isSome) ∧
    (t.snapshot.isSome → t'.timestamp = t.timestamp ∧ t'.snapshot.isSome) ∧
    ((t.targets.get? b!"targets").isSome → t'.snapshot = t.snapshot ∧ (t'.targets.get? b!"targets").isSome) := by
  refine history_change (P := fun x => (t.timestamp.isSome → x.root = t.root ∧ x.timestamp.isSome) ∧
    (t.snapshot.isSome → x.timestamp = t.timestamp ∧ x.snapshot.isSome) ∧
    ((t.targets.get? b!"targets").isSome → x.snapshot = t.snapshot ∧ (x.targets.get? b!"targets").isSome))
    ⟨fun h => ⟨rfl, h⟩, fun h => ⟨rfl, h⟩, fun h => ⟨rfl, h⟩⟩ ?_ h
  rintro a c b ⟨h1, h2, h3⟩ hch
  cases hch with
  | none => exact ⟨h1, h2, h3⟩
  | root ha =>
    refine ⟨fun h => ?_, h2, h3⟩
    have := (h1 h).2
    rw [ha.early] at this
    cases this
  | timestamp ha =>
    refine ⟨fun h => ⟨(h1 h).1, rfl⟩, fun h => ?_, h3⟩
    have := (h2 h).2
    rw [ha.early] at this
    cases this
  | snapshot ha =>
    refine ⟨h1, fun h => ⟨(h2 h).1, rfl⟩, fun h => ?_⟩
    have := (h3 h).2
    rw [ha.early] at this
    cases this
  | @targets data role p new ha =>
    refine ⟨h1, h2, fun h => ⟨(h3 h).1, ?_⟩⟩
    show ((a.targets.set role new).get? b!"targets").isSome = true
    rw [Entries.get?_set]
    split
    · rfl
    · exact (h3 h).2

/-- Once loaded, a level stays loaded (hypotheses of C12 persist). -/
example : scenario [1, 1] [.timestamp [2, 4], .root [1, 2], .snapshot [3, 4] false, .timestamp [2, 5], .targets [4, 4] TARGETS ROOT, .snapshot [3, 4] false] =
    .ok ([.ok (), .err (.runtime "cannot update root after timestamp"), .ok (), .err (.runtime "cannot update timestamp after snapshot"),
      .ok (), .err (.runtime "cannot update snapshot after targets")], 1, some 4, some 4, some 4) := by
  decide +kernel

/-! ## C13 -/

/-- C13: the timestamp version never decreases, and a timestamp is only replaced by one of higher version. -/
theorem C13_no_timestamp_rollback {env : Env} {t t' : Trusted} (h : History env t t') {old : Metadata TimestampType}
    (ho : t.timestamp = some old) :
    ∃ new, t'.timestamp = some new ∧ (new = old ∨ old.signed.version < new.signed.version) := by
  refine history_change (P := fun x => ∃ new, x.timestamp = some new ∧ (new = old ∨ old.signed.version < new.signed.version))
    ⟨old, ho, .inl rfl⟩ ?_ h
  rintro a c b ⟨m, hm, hv⟩ hch
  cases hch with
  | none => exact ⟨m, hm, hv⟩
  | root => exact ⟨m, hm, hv⟩
  | @timestamp data new ha =>
    refine ⟨new, rfl, .inr ?_⟩
    have := ha.newer m hm
    rcases hv with rfl | hv
    · exact this
    · omega
  | snapshot => exact ⟨m, hm, hv⟩
  | targets => exact ⟨m, hm, hv⟩

/-- C13, equal version: a correctly signed timestamp of the same version is reported as `ErrEqualVersionNumber` and discarded. -/
theorem C13_equal_version {env : Env} {t : Trusted} {data : Bytes} {old new : Metadata TimestampType} (ho : t.timestamp = some old)
    (hs : t.snapshot = none) (hroot : ¬ Expired t.root.signed.expires t.refTime) (hp : ParsesTo env data new)
    (ht : new.signed.type = b!"timestamp") (hv : Verifies env (.root t.root) b!"timestamp" (.timestamp new))
    (heq : new.signed.version = old.signed.version) :
    ∃ msg, t.updateTimestamp env data = (.err (.equalVersionNumber msg), t) := by
  have hp' : fromBytes (T := TimestampType) env data = .ok new := hp
  have ht' : new.signed.type = TIMESTAMP := ht
  have hv' : verifyDelegate env (.root t.root) TIMESTAMP (.timestamp new) = .ok () := verifyDelegate_ok_iff.2 hv
  refine ⟨"timestamp", ?_⟩
  have : t.checkTimestamp env data = .err (.equalVersionNumber "timestamp") := by
    unfold Trusted.checkTimestamp
    rw [if_neg (by simp [hs]), if_neg (by rw [isExpired_iff]; exact hroot), hp']
    simp only [Res.bind_ok]
    rw [if_neg (fun h => h ht'), hv', ho]
    simp [checkTimestampRollback, heq]
  unfold Trusted.updateTimestamp
  rw [this]

example : scenario [1, 1] [.timestamp [2, 4], .timestamp [2, 3], .timestamp [2, 4], .timestamp [2, 5]] =
    .ok ([.ok (), .err (.badVersionNumber "timestamp"), .err (.equalVersionNumber "timestamp"), .ok ()], 1, some 5, none, none) := by
  decide +kernel

/-! ## C14 -/

/-- C14: the snapshot version that the trusted timestamp lists never decreases. -/
theorem C14_no_snapshot_rollback {env : Env} {t t' : Trusted} (h : History env t t') {old : Metadata TimestampType} {v : Int}
    (ho : t.timestamp = some old) (hl : Lists old.signed.metas b!"snapshot.json" v) :
    ∃ new v', t'.timestamp = some new ∧ Lists new.signed.metas b!"snapshot.json" v' ∧ v ≤ v' := by
  refine history_change (P := fun x => ∃ new v', x.timestamp = some new ∧ Lists new.signed.metas b!"snapshot.json" v' ∧ v ≤ v')
    ⟨old, v, ho, hl, Int.le_refl v⟩ ?_ h
  rintro a c b ⟨m, w, hm, hw, hle⟩ hch
  cases hch with
  | none => exact ⟨m, w, hm, hw, hle⟩
  | root => exact ⟨m, w, hm, hw, hle⟩
  | @timestamp data new ha =>
    obtain ⟨w1, w2, ⟨f, hf, hf'⟩, h2, h3⟩ := ha.snapshotVersion m hm
    obtain ⟨g, hg, hg'⟩ := hw
    rw [hf] at hg
    cases hg
    exact ⟨new, w2, rfl, h2, by omega⟩
  | snapshot => exact ⟨m, w, hm, hw, hle⟩
  | targets => exact ⟨m, w, hm, hw, hle⟩

/-! ## C15 -/

/-- C15: every role listed in a trusted snapshot stays listed in later trusted snapshots, with a version that is not lower. -/
theorem C15_no_targets_rollback {env : Env} {t t' : Trusted} (h : History env t t') {old : Metadata SnapshotType} {name : Str} {v : Int}
    (ho : t.snapshot = some old) (hl : Lists old.signed.metas name v) :
    ∃ new v', t'.snapshot = some new ∧ Lists new.signed.metas name v' ∧ v ≤ v' := by
  refine history_change (P := fun x => ∃ new v', x.snapshot = some new ∧ Lists new.signed.metas name v' ∧ v ≤ v')
    ⟨old, v, ho, hl, Int.le_refl v⟩ ?_ h
  rintro a c b ⟨m, w, hm, ⟨f, hf, hw⟩, hle⟩ hch
  cases hch with
  | none => exact ⟨m, w, hm, ⟨f, hf, hw⟩, hle⟩
  | root => exact ⟨m, w, hm, ⟨f, hf, hw⟩, hle⟩
  | timestamp => exact ⟨m, w, hm, ⟨f, hf, hw⟩, hle⟩
  | @snapshot data b new ha =>
    obtain ⟨o, n, h1, h2, h3⟩ := ha.noRollback m hm name (some f) (Entries.mem_of_get? hf)
    cases h1
    exact ⟨new, n.version, rfl, ⟨n, h2, rfl⟩, by omega⟩
  | targets => exact ⟨m, w, hm, ⟨f, hf, hw⟩, hle⟩

/-- A cached snapshot of version 3 under a timestamp of version 4 (kept, reported as bad version), an older one (refused), the right one. -/
example : scenario [1, 1] [.timestamp [2, 4], .snapshot [3, 3] true, .snapshot [3, 2] true, .snapshot [3, 4] false] =
    .ok ([.ok (), .err (.badVersionNumber "snapshot"), .err (.badVersionNumber "snapshot meta"), .ok ()], 1, some 4, some 4, none) := by
  decide +kernel

/-! ## C16 -/

/-- What C16 says about one trusted targets role. -/
structure Spec.TargetsConsistent (env : Env) (t0 t : Trusted) (role : Str) (m : Metadata TargetsType) : Prop where
  fresh : ¬ Expired m.signed.expires t.refTime
  listed : ∃ sn f data, t.snapshot = some sn ∧ sn.signed.metas.get? (role ++ b!".json") = some (some f) ∧
    m.signed.version = f.version ∧ ParsesTo env data m ∧ MetaMatches env f data
  signed : ∃ t1 delegator D, ClientHistory env t0 t1 ∧ t1.root = t.root ∧ t1.snapshot = t.snapshot ∧ DelegatorIs t1 delegator D ∧
    Trusts env D role (.targets m)

/-- C16: in every history of client calls from a fresh set, all trusted targets roles are consistent with the trusted snapshot, unexpired, and met
the threshold of the delegator (root or a targets role trusted at that time) they were loaded under. -/
theorem C16_targets_match_snapshot {env : Env} {t0 t : Trusted} (hfresh : t0.targets = []) (h : ClientHistory env t0 t)
    {role : Str} {m : Metadata TargetsType} (hm : t.targets.get? role = some m) : TargetsConsistent env t0 t role m := by
  have inv : (∀ role m, t.targets.get? role = some m → TargetsConsistent env t0 t role m) ∧
      (t.targets ≠ [] → (t.targets.get? b!"targets").isSome) ∧ (t.targets ≠ [] → t.timestamp.isSome ∧ t.snapshot.isSome) := by
    clear hm
    induction h with
    | refl => rw [hfresh]; simp
    | @step t' c hh hc ih =>
      obtain ⟨i1, i2, i3⟩ := ih
      have hch := run_change env t' c
      have keep : ∀ t'' : Trusted, t''.targets = t'.targets → t''.refTime = t'.refTime →
          (t'.targets ≠ [] → t''.root = t'.root ∧ t''.snapshot = t'.snapshot ∧ t''.timestamp = t'.timestamp) →
          (∀ role m, t''.targets.get? role = some m → TargetsConsistent env t0 t'' role m) ∧
          (t''.targets ≠ [] → (t''.targets.get? b!"targets").isSome) ∧ (t''.targets ≠ [] → t''.timestamp.isSome ∧ t''.snapshot.isSome) := by
        intro t'' e1 e2 e3
        refine ⟨?_, by rw [e1]; exact i2, ?_⟩
        · intro role m hm
          rw [e1] at hm
          have hne : t'.targets ≠ [] := by intro h0; rw [h0] at hm; simp at hm
          obtain ⟨f1, f2, f3⟩ := e3 hne
          obtain ⟨a1, a2, t1, d, D, b1, b2, b3, b4⟩ := i1 role m hm
          exact ⟨e2 ▸ a1, f2 ▸ a2, t1, d, D, b1, f1 ▸ b2, f2 ▸ b3, b4⟩
        · rw [e1]
          intro hne
          obtain ⟨f1, f2, f3⟩ := e3 hne
          rw [f2, f3]
          exact i3 hne
      generalize (c.run env t').2 = tn at hch ⊢
      cases hch with
      | none => exact ⟨i1, i2, i3⟩
      | root ha =>
        refine keep _ rfl rfl (fun hne => ?_)
        have := (i3 hne).1
        rw [ha.early] at this
        cases this
      | timestamp ha =>
        refine keep _ rfl rfl (fun hne => ?_)
        have := (i3 hne).2
        rw [ha.early] at this
        cases this
      | snapshot ha =>
        refine keep _ rfl rfl (fun hne => ?_)
        have := i2 hne
        rw [ha.early] at this
        cases this
      | @targets data role p new ha =>
        obtain ⟨sn, ts, f, D, s1, s2, s3, s4, s5, s6, s7, s8, s9⟩ := ha.snapshot
        have hsome : (t'.targets.set role new).get? b!"targets" = if role = b!"targets" then some new else t'.targets.get? b!"targets" :=
          Entries.get?_set _ _ _ _
        refine ⟨?_, ?_, ?_⟩
        · intro r m hm
          have hm' : (t'.targets.set role new).get? r = some m := hm
          rw [Entries.get?_set] at hm'
          split at hm'
          · next hr =>
            cases hm'
            cases hr
            exact ⟨ha.fresh, ⟨sn, f, data, s1, s5, s7, ha.parsed, s6⟩, t', p, D, hh, rfl, rfl, s8, s9.trusts⟩
          · obtain ⟨a1, a2, a3⟩ := i1 r m hm'
            exact ⟨a1, a2, a3⟩
        · intro _
          show ((t'.targets.set role new).get? b!"targets").isSome = true
          rw [hsome]
          split
          · rfl
          · next hne =>
            exact hc.resolve_left hne
        · intro _
          show t'.timestamp.isSome = true ∧ t'.snapshot.isSome = true
          rw [s1, s2]
          exact ⟨rfl, rfl⟩
  exact inv.1 role m hm

/-- The hypotheses of C16 are met by the complete update at the top, with `d` delegated by `targets`. -/
example : ((start [1, 1]).map fun t => ((runAll t [.timestamp [2, 4], .snapshot [3, 4] false, .targets [4, 4] TARGETS ROOT,
      .targets [5, 4] b!"d" TARGETS]).2.targets.map fun e => (e.1, e.2.signed.version))) = .ok [(b!"d", 4), (TARGETS, 4)] := by
  decide +kernel

/-! ## C17 -/

/-- C17, timestamp: while the root is expired, no timestamp is stored. -/
theorem C17_root_fresh {env : Env} {t : Trusted} (hx : Expired t.root.signed.expires t.refTime) (data : Bytes) :
    (t.updateTimestamp env data).2 = t ∧ ∀ m, (t.updateTimestamp env data).1 ≠ .ok m := by
  rcases updateTimestamp_cases env t data with ⟨n, ha, _⟩ | ⟨e, h⟩ | h
  · exact absurd hx ha.rootFresh
  · simp [h]
  · simp [h]

/-- C17, snapshot: while the timestamp is missing or expired, no snapshot is stored. -/
theorem C17_timestamp_fresh {env : Env} {t : Trusted} (hx : ∀ ts, t.timestamp = some ts → Expired ts.signed.expires t.refTime)
    (data : Bytes) (isTrusted : Bool) :
    (t.updateSnapshot env data isTrusted).2 = t ∧ ∀ m, (t.updateSnapshot env data isTrusted).1 ≠ .ok m := by
  rcases updateSnapshot_cases env t data isTrusted with ⟨n, ha, _⟩ | ⟨e, h⟩ | h
  · obtain ⟨ts, h1, h2, _⟩ := ha.timestamp
    exact absurd (hx ts h1) h2
  · simp [h]
  · simp [h]

/-- C17, targets: while the snapshot is missing, expired or not the one listed in the timestamp, no targets are stored. -/
theorem C17_snapshot_fresh {env : Env} {t : Trusted}
    (hx : ∀ sn ts, t.snapshot = some sn → t.timestamp = some ts →
      Expired sn.signed.expires t.refTime ∨ ¬ Lists ts.signed.metas b!"snapshot.json" sn.signed.version)
    (data : Bytes) (role delegator : Str) :
    (t.updateDelegatedTargets env data role delegator).2 = t ∧ ∀ m, (t.updateDelegatedTargets env data role delegator).1 ≠ .ok m := by
  rcases updateTargets_cases env t data role delegator with ⟨n, h, ha⟩ | ⟨e, h⟩ | h
  · obtain ⟨sn, ts, f, D, h1, h2, h3, h4, _⟩ := ha.snapshot
    rcases hx sn ts h1 h2 with hx | hx
    · exact absurd hx h3
    · exact absurd h4 hx
  · simp [h]
  · simp [h]

/-- An expired timestamp blocks the snapshot, an expired snapshot blocks targets, a snapshot of another version blocks targets. -/
example : scenario [1, 1] [.timestamp [6, 4], .snapshot [3, 4] false] =
    .ok ([.err (.expiredMetadata "timestamp.json is expired"), .err (.expiredMetadata "timestamp.json is expired")], 1, some 4, none, none) := by
  decide +kernel
example : scenario [1, 1] [.timestamp [2, 4], .snapshot [7, 4] false, .targets [4, 4] TARGETS ROOT] =
    .ok ([.ok (), .err (.expiredMetadata "snapshot.json is expired"), .err (.expiredMetadata "snapshot.json is expired")],
      1, some 4, some 4, none) := by
  decide +kernel
example : scenario [1, 1] [.timestamp [2, 4], .snapshot [3, 3] true, .targets [4, 3] TARGETS ROOT] =
    .ok ([.ok (), .err (.badVersionNumber "snapshot"), .err (.badVersionNumber "snapshot")], 1, some 4, some 3, none) := by
  decide +kernel

/-! ## C18 -/

/-- C18: after an error the set is unchanged, except for the two documented cases. -/
theorem C18_failed_update {env : Env} {t : Trusted} {c : Call} {e : Err} (h : (c.run env t).1 = .err e) :
    (c.run env t).2 = t ∨
    (∃ data new, c = .timestamp data ∧ TimestampAccepted env t data new ∧ Expired new.signed.expires t.refTime ∧
      (∃ msg, e = .expiredMetadata msg) ∧ (c.run env t).2 = { t with timestamp := some new }) ∨
    (∃ data b new ts v, c = .snapshot data b ∧ SnapshotAccepted env t data b new ∧ t.timestamp = some ts ∧
      (Expired new.signed.expires t.refTime ∧ (∃ msg, e = .expiredMetadata msg) ∨
        Lists ts.signed.metas b!"snapshot.json" v ∧ v ≠ new.signed.version ∧ ∃ msg, e = .badVersionNumber msg) ∧
      (c.run env t).2 = { t with snapshot := some new }) := by
  cases c with
  | root d =>
    rcases updateRoot_cases env t d with ⟨n, hu, ha⟩ | ⟨e, hu⟩ | hu
    · simp [Call.run, hu, outcome] at h
    · simp [Call.run, hu]
    · simp [Call.run, hu]
  | timestamp d =>
    rcases updateTimestamp_cases env t d with ⟨n, ha, hu, ⟨_, hr⟩ | ⟨hx, msg, hr⟩⟩ | ⟨e, hu⟩ | hu
    · simp [Call.run, hr, outcome] at h
    · simp [Call.run, hr, outcome] at h
      exact .inr (.inl ⟨d, n, rfl, ha, hx, ⟨msg, h.symm⟩, hu⟩)
    · simp [Call.run, hu]
    · simp [Call.run, hu]
  | snapshot d b =>
    rcases updateSnapshot_cases env t d b with
      ⟨n, ha, hu, ⟨_, _, hr⟩ | ⟨hx, msg, hr⟩ | ⟨_, ⟨ts, v, h1, h2, h3⟩, msg, hr⟩ | ⟨_, hr⟩⟩ | ⟨e, hu⟩ | hu
    · simp [Call.run, hr, outcome] at h
    · simp [Call.run, hr, outcome] at h
      obtain ⟨ts, h1, _⟩ := ha.timestamp
      exact .inr (.inr ⟨d, b, n, ts, 0, rfl, ha, h1, .inl ⟨hx, msg, h.symm⟩, hu⟩)
    · simp [Call.run, hr, outcome] at h
      exact .inr (.inr ⟨d, b, n, ts, v, rfl, ha, h1, .inr ⟨h2, h3, msg, h.symm⟩, hu⟩)
    · simp [Call.run, hr, outcome] at h
    · simp [Call.run, hu]
    · simp [Call.run, hu]
  | targets d r p =>
    rcases updateTargets_cases env t d r p with ⟨n, hu, ha⟩ | ⟨e, hu⟩ | hu
    · simp [Call.run, hu, outcome] at h
    · simp [Call.run, hu]
    · simp [Call.run, hu]

/-! ## C19 -/

/-- C19 for the trusted set: in every history from `New`, everything trusted has its own type. -/
theorem C19_trusted_types {env : Env} {now : Time} {data : Bytes} {t0 t : Trusted} (h0 : Trusted.new env now data = .ok t0)
    (h : History env t0 t) :
    t.root.signed.type = b!"root" ∧ (∀ m, t.timestamp = some m → m.signed.type = b!"timestamp") ∧
    (∀ m, t.snapshot = some m → m.signed.type = b!"snapshot") ∧
    (∀ role m, t.targets.get? role = some m → m.signed.type = b!"targets") := by
  obtain ⟨-, h1, -, h2, h3, h4, -⟩ := new_root h0
  refine history_change (P := fun t => t.root.signed.type = b!"root" ∧ (∀ m, t.timestamp = some m → m.signed.type = b!"timestamp") ∧
    (∀ m, t.snapshot = some m → m.signed.type = b!"snapshot") ∧
    (∀ role m, t.targets.get? role = some m → m.signed.type = b!"targets"))
    ⟨h1, by simp [h2], by simp [h3], by simp [h4]⟩ ?_ h
  rintro a c b ⟨i1, i2, i3, i4⟩ hch
  cases hch with
  | none => exact ⟨i1, i2, i3, i4⟩
  | root ha => exact ⟨ha.type, i2, i3, i4⟩
  | timestamp ha => exact ⟨i1, fun m hm => by cases hm; exact ha.type, i3, i4⟩
  | snapshot ha => exact ⟨i1, i2, fun m hm => by cases hm; exact ha.type, i4⟩
  | @targets data role p new ha =>
    refine ⟨i1, i2, i3, fun r m hm => ?_⟩
    have hm' : (a.targets.set role new).get? r = some m := hm
    rw [Entries.get?_set] at hm'
    split at hm'
    · cases hm'; exact ha.type
    · exact i4 r m hm'

/-! ## C20 -/

/-- C20: `IsExpired(t)` is true exactly if `t` is strictly after `Expires`. -/
theorem C20_expiry_exact (expires t : Time) : isExpired expires t = true ↔ expires.instant < t.instant := isExpired_iff

/-- C20: no call changes the reference time; it stays the one given to `New`. -/
theorem C20_reference_time {env : Env} {now : Time} {data : Bytes} {t0 t : Trusted} (h0 : Trusted.new env now data = .ok t0)
    (h : History env t0 t) : t.refTime = now := by
  obtain ⟨-, -, -, -, -, -, h1⟩ := new_root h0
  refine history_change (P := fun t => t.refTime = now) h1 ?_ h
  intro a c b ha hch
  cases hch <;> exact ha

/-! ## C23 -/

/-- C23 for snapshots loaded as untrusted: stored (whether or not the call then reports an error) only with the length and hashes
that the trusted timestamp lists. -/
theorem C23_untrusted_snapshot_partial {env : Env} {t : Trusted} {data : Bytes}
    (h : (t.updateSnapshot env data false).2 ≠ t ∨ ∃ m, (t.updateSnapshot env data false).1 = .ok m) :
    ∃ ts f, t.timestamp = some ts ∧ ts.signed.metas.get? b!"snapshot.json" = some (some f) ∧ MetaMatches env f data := by
  rcases updateSnapshot_cases env t data false with ⟨n, ha, _⟩ | ⟨e, hu⟩ | hu
  · obtain ⟨ts, h1, _, h2⟩ := ha.timestamp
    obtain ⟨f, h3, h4⟩ := h2 rfl
    exact ⟨ts, f, h1, h3, h4⟩
  · simp [hu] at h
  · simp [hu] at h

/-- Timestamp that lists snapshot version 4 with length 9. -/
def Sample.strictEnv : Env :=
  { repoEnv with
    parse := fun b => match b with
      | [2, 4] => some (doc TIMESTAMP 4 b!"2030" [(b!"meta", .obj [(b!"snapshot.json", .obj [(b!"version", .num 4), (b!"length", .num 9)])])])
      | b => repoEnv.parse b }

/-- C23 is false for snapshots loaded as trusted (the locally cached file): bytes of another length than the timestamp lists are stored and the call
succeeds, while the same bytes are refused as untrusted data. -/
theorem C23_cached_snapshot_unchecked :
    (do let t ← Trusted.new strictEnv now [1, 1]
        let t1 := (Call.run strictEnv t (.timestamp [2, 4])).2
        .ok ((Call.run strictEnv t1 (.snapshot [3, 4] false)).1, (Call.run strictEnv t1 (.snapshot [3, 4] true)).1)) =
      .ok (.err (.lengthOrHashMismatch "length"), .ok ()) := by decide +kernel

/-! ## C78 -/

/-- C78: the exact acceptance rule of every call. A call reports success exactly if its document meets the stated conditions. -/
theorem C78_root {env : Env} {t : Trusted} {data : Bytes} {new : Metadata RootType} :
    (t.updateRoot env data).1 = .ok new ↔ RootAccepted env t data new := by
  rw [← checkRoot_ok]
  unfold Trusted.updateRoot
  cases t.checkRoot env data <;> simp

theorem C78_timestamp {env : Env} {t : Trusted} {data : Bytes} {new : Metadata TimestampType} :
    (t.updateTimestamp env data).1 = .ok new ↔ TimestampAccepted env t data new ∧ ¬ Expired new.signed.expires t.refTime := by
  constructor
  · intro h
    rcases updateTimestamp_cases env t data with ⟨n, ha, hu, ⟨hx, hr⟩ | ⟨hx, msg, hr⟩⟩ | ⟨e, hu⟩ | hu
    · rw [hr] at h; cases h; exact ⟨ha, hx⟩
    · rw [hr] at h; cases h
    · rw [hu] at h; cases h
    · rw [hu] at h; cases h
  · rintro ⟨ha, hx⟩
    have := checkTimestamp_ok.2 ha
    unfold Trusted.updateTimestamp
    rw [this]
    simp [Trusted.checkFinalTimestamp, Res.deref, isExpired_false.2 hx]

theorem C78_snapshot {env : Env} {t : Trusted} {data : Bytes} {isTrusted : Bool} {new : Metadata SnapshotType} :
    (t.updateSnapshot env data isTrusted).1 = .ok new ↔ SnapshotAccepted env t data isTrusted new ∧
      ¬ Expired new.signed.expires t.refTime ∧ ∃ ts, t.timestamp = some ts ∧ Lists ts.signed.metas b!"snapshot.json" new.signed.version := by
  constructor
  · intro h
    rcases updateSnapshot_cases env t data isTrusted with
      ⟨n, ha, hu, ⟨h1, h2, hr⟩ | ⟨hx, msg, hr⟩ | ⟨_, _, msg, hr⟩ | ⟨_, hr⟩⟩ | ⟨e, hu⟩ | hu
    · rw [hr] at h; cases h; exact ⟨ha, h1, h2⟩
    · rw [hr] at h; cases h
    · rw [hr] at h; cases h
    · rw [hr] at h; cases h
    · rw [hu] at h; cases h
    · rw [hu] at h; cases h
  · rintro ⟨ha, hx, ts, h1, h2⟩
    have := checkSnapshot_ok.2 ha
    unfold Trusted.updateSnapshot
    rw [this]
    have hf : ({ t with snapshot := some new } : Trusted).checkFinalSnapshot = .ok () :=
      checkFinalSnapshot_ok.2 ⟨new, ts, rfl, h1, hx, h2⟩
    simp [hf]

theorem C78_targets {env : Env} {t : Trusted} {data : Bytes} {role delegator : Str} {new : Metadata TargetsType} :
    (t.updateDelegatedTargets env data role delegator).1 = .ok new ↔ TargetsAccepted env t data role delegator new := by
  rw [← checkTargets_ok]
  unfold Trusted.updateDelegatedTargets
  cases t.checkTargets env data role delegator <;> simp

theorem C78_new {env : Env} {now : Time} {data : Bytes} {t : Trusted} :
    Trusted.new env now data = .ok t ↔ ∃ root, ParsesTo env data root ∧ root.signed.type = b!"root" ∧
      Verifies env (.root root) b!"root" (.root root) ∧ t = { root := root, refTime := now } := by
  constructor
  · intro h
    obtain ⟨h1, h2, h3, h4, h5, h6, h7⟩ := new_root h
    refine ⟨t.root, h1, h2, h3, ?_⟩
    obtain ⟨r, s, ts, tg, rt⟩ := t
    simp_all
  · rintro ⟨root, h1, h2, h3, rfl⟩
    have h1' : fromBytes (T := RootType) env data = .ok root := h1
    have h2' : root.signed.type = ROOT := h2
    have h3' : verifyDelegate env (.root root) ROOT (.root root) = .ok () := verifyDelegate_ok_iff.2 h3
    unfold Trusted.new loadTrustedRoot
    rw [h1']
    simp only [Res.bind_ok]
    rw [if_neg (fun h => h h2'), h3']
    rfl

end Tuf
