import Verif.Spec.Trusted
import Verif.Proofs.Verify
import Verif.Proofs.Hashes

/-! The checks of the trusted set are exactly the `Accepted` conditions. -/

namespace Tuf
open Spec

theorem isExpired_iff {e r : Time} : isExpired e r = true ↔ Expired e r := by simp [isExpired, Expired]
theorem isExpired_false {e r : Time} : isExpired e r = false ↔ ¬ Expired e r := by
  rw [← isExpired_iff]; simp

theorem ptr_eq_some {α : Type} {m : GoMap (Option α)} {k : Str} {a : α} : m.ptr k = some a ↔ m.get? k = some (some a) := by
  unfold GoMap.ptr
  cases m.get? k with
  | none => simp
  | some o => simp

theorem checkRoot_ok {env : Env} {t : Trusted} {data : Bytes} {new : Metadata RootType} :
    t.checkRoot env data = .ok new ↔ RootAccepted env t data new := by
  unfold Trusted.checkRoot
  constructor
  · intro h
    split at h
    · cases h
    · next h0 =>
      obtain ⟨m, hp, h⟩ := Res.bind_eq_ok.1 h
      split at h
      · cases h
      · next ht =>
        obtain ⟨_, hv, h⟩ := Res.bind_eq_ok.1 h
        split at h
        · cases h
        · next hver =>
          obtain ⟨_, hv2, h⟩ := Res.bind_eq_ok.1 h
          cases h
          exact ⟨Option.not_isSome_iff_eq_none.1 h0, hp, Classical.byContradiction ht, verifyDelegate_ok_iff.1 hv,
            Classical.byContradiction hver, verifyDelegate_ok_iff.1 hv2⟩
  · rintro ⟨h1, h2, h3, h4, h5, h6⟩
    have h4' := verifyDelegate_ok_iff.2 h4
    have h6' := verifyDelegate_ok_iff.2 h6
    have h3' : new.signed.type = ROOT := h3
    simp only [ROOT] at *
    have h2' : fromBytes (T := RootType) env data = .ok new := h2
    simp [h1, h2', h3, h4', h5, h6']

theorem updateRoot_cases (env : Env) (t : Trusted) (data : Bytes) :
    (∃ new, t.updateRoot env data = (.ok new, { t with root := new }) ∧ RootAccepted env t data new) ∨
    (∃ e, t.updateRoot env data = (.err e, t)) ∨ t.updateRoot env data = (.panic, t) := by
  unfold Trusted.updateRoot
  cases h : t.checkRoot env data with
  | ok new => exact .inl ⟨new, rfl, checkRoot_ok.1 h⟩
  | err e => exact .inr (.inl ⟨e, rfl⟩)
  | panic => exact .inr (.inr rfl)

theorem checkTimestampRollback_ok {old new : TimestampType} :
    checkTimestampRollback old new = .ok () ↔ old.version < new.version ∧
      ∃ v v', Lists old.metas b!"snapshot.json" v ∧ Lists new.metas b!"snapshot.json" v' ∧ v ≤ v' := by
  unfold checkTimestampRollback
  constructor
  · intro h
    split at h
    · cases h
    · split at h
      · cases h
      · obtain ⟨n, hn, h⟩ := Res.bind_eq_ok.1 h
        obtain ⟨o, ho, h⟩ := Res.bind_eq_ok.1 h
        rw [Res.deref_eq_ok, ptr_eq_some] at hn ho
        split at h
        · cases h
        · exact ⟨by omega, o.version, n.version, ⟨o, ho, rfl⟩, ⟨n, hn, rfl⟩, by omega⟩
  · rintro ⟨h1, v, v', ⟨o, ho, rfl⟩, ⟨n, hn, rfl⟩, h2⟩
    rw [if_neg (by omega), if_neg (by omega)]
    have ho' : old.metas.ptr (jsonName SNAPSHOT) = some o := ptr_eq_some.2 ho
    have hn' : new.metas.ptr (jsonName SNAPSHOT) = some n := ptr_eq_some.2 hn
    rw [ho', hn']
    simp only [Res.deref_some, Res.bind_ok]
    rw [if_neg (by omega)]

theorem checkTimestamp_ok {env : Env} {t : Trusted} {data : Bytes} {new : Metadata TimestampType} :
    t.checkTimestamp env data = .ok new ↔ TimestampAccepted env t data new := by
  unfold Trusted.checkTimestamp
  constructor
  · intro h
    split at h
    · cases h
    · next h0 =>
      split at h
      · cases h
      · next hexp =>
        obtain ⟨m, hp, h⟩ := Res.bind_eq_ok.1 h
        split at h
        · cases h
        · next ht =>
          obtain ⟨_, hv, h⟩ := Res.bind_eq_ok.1 h
          have key : new = m ∧ ∀ old, t.timestamp = some old → checkTimestampRollback old.signed m.signed = .ok () := by
            split at h
            · next hts => cases h; exact ⟨rfl, fun old ho => by rw [hts] at ho; cases ho⟩
            · next old hts =>
              obtain ⟨_, hr, h⟩ := Res.bind_eq_ok.1 h
              cases h
              refine ⟨rfl, fun o ho => ?_⟩
              rw [hts] at ho
              cases ho
              exact hr
          obtain ⟨rfl, hroll⟩ := key
          refine ⟨by simpa using h0, isExpired_false.1 (by simpa using hexp), hp, Classical.byContradiction ht,
            verifyDelegate_ok_iff.1 hv, fun old ho => (checkTimestampRollback_ok.1 (hroll old ho)).1,
            fun old ho => (checkTimestampRollback_ok.1 (hroll old ho)).2⟩
  · rintro ⟨h1, h2, h3, h4, h5, h6, h7⟩
    have h5' := verifyDelegate_ok_iff.2 h5
    have h3' : fromBytes (T := TimestampType) env data = .ok new := h3
    have h4' : new.signed.type = TIMESTAMP := h4
    have h5'' : verifyDelegate env (.root t.root) TIMESTAMP (.timestamp new) = .ok () := h5'
    rw [if_neg (by simp [h1]), if_neg (by rw [isExpired_iff]; exact h2), h3']
    simp only [Res.bind_ok]
    rw [if_neg (fun h => h h4'), h5'']
    simp only [Res.bind_ok]
    cases hts : t.timestamp with
    | none => rfl
    | some old =>
      simp only
      rw [checkTimestampRollback_ok.2 ⟨h6 old hts, h7 old hts⟩]
      rfl

theorem updateTimestamp_cases (env : Env) (t : Trusted) (data : Bytes) :
    (∃ new, TimestampAccepted env t data new ∧ (t.updateTimestamp env data).2 = { t with timestamp := some new } ∧
      ((¬ Expired new.signed.expires t.refTime ∧ (t.updateTimestamp env data).1 = .ok new) ∨
       (Expired new.signed.expires t.refTime ∧ ∃ msg, (t.updateTimestamp env data).1 = .err (.expiredMetadata msg)))) ∨
    (∃ e, t.updateTimestamp env data = (.err e, t)) ∨ t.updateTimestamp env data = (.panic, t) := by
  unfold Trusted.updateTimestamp
  cases h : t.checkTimestamp env data with
  | ok new =>
    left
    refine ⟨new, checkTimestamp_ok.1 h, ?_⟩
    simp only [Trusted.checkFinalTimestamp, Res.deref_some, Res.bind_ok]
    by_cases he : Expired new.signed.expires t.refTime
    · simp only [isExpired_iff.2 he, if_true]
      exact ⟨by trivial, .inr ⟨he, _, rfl⟩⟩
    · simp only [isExpired_false.2 he]
      exact ⟨by trivial, .inl ⟨he, rfl⟩⟩
  | err e => exact .inr (.inl ⟨e, rfl⟩)
  | panic => exact .inr (.inr rfl)

theorem checkFinalTimestamp_ok {t : Trusted} :
    t.checkFinalTimestamp = .ok () ↔ ∃ ts, t.timestamp = some ts ∧ ¬ Expired ts.signed.expires t.refTime := by
  unfold Trusted.checkFinalTimestamp
  rw [Res.bind_eq_ok]
  constructor
  · rintro ⟨ts, h1, h2⟩
    rw [Res.deref_eq_ok] at h1
    split at h2
    · cases h2
    · next h => exact ⟨ts, h1, isExpired_false.1 (by simpa using h)⟩
  · rintro ⟨ts, h1, h2⟩
    refine ⟨ts, Res.deref_eq_ok.2 h1, ?_⟩
    rw [if_neg (by rw [isExpired_iff]; exact h2)]

theorem checkSnapshotRollback_ok {new : GoMap (Option MetaFiles)} {es : Entries (Option MetaFiles)} :
    checkSnapshotRollback new es = .ok () ↔ ∀ name f, (name, f) ∈ es →
      ∃ o n, f = some o ∧ new.get? name = some (some n) ∧ o.version ≤ n.version := by
  induction es with
  | nil => simp [checkSnapshotRollback]
  | cons e r ih =>
    obtain ⟨name, f⟩ := e
    simp only [checkSnapshotRollback]
    constructor
    · intro h
      split at h
      · cases h
      · next nf hn =>
        obtain ⟨n, hnf, h⟩ := Res.bind_eq_ok.1 h
        obtain ⟨o, ho, h⟩ := Res.bind_eq_ok.1 h
        rw [Res.deref_eq_ok] at hnf ho
        split at h
        · cases h
        · next hlt =>
          intro name' f' hm
          rcases List.mem_cons.1 hm with hm | hm
          · cases hm
            exact ⟨o, n, ho, hnf ▸ hn, by omega⟩
          · exact ih.1 h name' f' hm
    · intro h
      obtain ⟨o, n, h1, h2, h3⟩ := h name f (by simp)
      subst h1
      rw [h2]
      simp only [Res.deref_some, Res.bind_ok]
      rw [if_neg (by omega)]
      exact ih.2 (fun name' f' hm => h name' f' (by simp [hm]))

theorem checkSnapshot_ok {env : Env} {t : Trusted} {data : Bytes} {b : Bool} {new : Metadata SnapshotType} :
    t.checkSnapshot env data b = .ok new ↔ SnapshotAccepted env t data b new := by
  unfold Trusted.checkSnapshot
  have tail : ∀ m : Metadata SnapshotType,
      (match t.snapshot with
        | none => Res.ok m
        | some old => do
          checkSnapshotRollback m.signed.metas old.signed.metas.entries
          .ok m) = .ok new ↔ new = m ∧ ∀ old, t.snapshot = some old → checkSnapshotRollback m.signed.metas old.signed.metas.entries = .ok () := by
    intro m
    cases hsn : t.snapshot with
    | none =>
      constructor
      · intro h; cases h; exact ⟨rfl, by simp⟩
      · rintro ⟨rfl, _⟩; rfl
    | some old =>
      constructor
      · intro h
        obtain ⟨_, hr, h⟩ := Res.bind_eq_ok.1 h
        cases h
        exact ⟨rfl, fun o ho => by cases ho; exact hr⟩
      · rintro ⟨rfl, h⟩
        simp [h old rfl]
  constructor
  · intro h
    split at h
    · cases h
    · next ts hts =>
      split at h
      · cases h
      · next h0 =>
        obtain ⟨_, hfin, h⟩ := Res.bind_eq_ok.1 h
        obtain ⟨ts', hts', hexp⟩ := checkFinalTimestamp_ok.1 hfin
        rw [hts] at hts'
        cases hts'
        have key : (b = false → ∃ f, ts.signed.metas.get? b!"snapshot.json" = some (some f) ∧ MetaMatches env f data) ∧
            (fromBytes (T := SnapshotType) env data >>= fun new =>
              if new.signed.type ≠ SNAPSHOT then .err (.repository "expected snapshot")
              else do
                verifyDelegate env (.root t.root) SNAPSHOT (.snapshot new)
                match t.snapshot with
                | none => .ok new
                | some old => do
                  checkSnapshotRollback new.signed.metas old.signed.metas.entries
                  .ok new) = .ok new := by
          cases b with
          | true => exact ⟨(fun h => by cases h), h⟩
          | false =>
            simp only [if_true] at h
            obtain ⟨f, hf, h⟩ := Res.bind_eq_ok.1 h
            obtain ⟨_, hm, h⟩ := Res.bind_eq_ok.1 h
            rw [Res.deref_eq_ok, ptr_eq_some] at hf
            exact ⟨fun _ => ⟨f, hf, metaVerify_ok.1 hm⟩, h⟩
        obtain ⟨hmatch, h⟩ := key
        obtain ⟨m, hp, h⟩ := Res.bind_eq_ok.1 h
        split at h
        · cases h
        · next ht =>
          obtain ⟨_, hv, h⟩ := Res.bind_eq_ok.1 h
          obtain ⟨rfl, hroll⟩ := (tail m).1 h
          exact ⟨⟨ts, hts, hexp, hmatch⟩, Option.not_isSome_iff_eq_none.1 h0, hp, Classical.byContradiction ht, verifyDelegate_ok_iff.1 hv,
            fun old ho => checkSnapshotRollback_ok.1 (hroll old ho)⟩
  · rintro ⟨⟨ts, hts, hexp, hmatch⟩, h0, hp, ht, hv, hroll⟩
    have hp' : fromBytes (T := SnapshotType) env data = .ok new := hp
    have ht' : new.signed.type = SNAPSHOT := ht
    have hv' : verifyDelegate env (.root t.root) SNAPSHOT (.snapshot new) = .ok () := verifyDelegate_ok_iff.2 hv
    have h0' : t.targets.get? TARGETS = none := h0
    rw [hts]
    simp only
    rw [if_neg (by rw [h0']; simp), checkFinalTimestamp_ok.2 ⟨ts, hts, hexp⟩]
    simp only [Res.bind_ok]
    have rest : (fromBytes (T := SnapshotType) env data >>= fun new =>
              if new.signed.type ≠ SNAPSHOT then .err (.repository "expected snapshot")
              else do
                verifyDelegate env (.root t.root) SNAPSHOT (.snapshot new)
                match t.snapshot with
                | none => .ok new
                | some old => do
                  checkSnapshotRollback new.signed.metas old.signed.metas.entries
                  .ok new) = .ok new := by
      rw [hp']
      simp only [Res.bind_ok]
      rw [if_neg (fun h => h ht'), hv']
      exact (tail new).2 ⟨rfl, fun old ho => checkSnapshotRollback_ok.2 (hroll old ho)⟩
    cases b with
    | true => exact rest
    | false =>
      obtain ⟨f, hf, hm⟩ := hmatch rfl
      have hf' : ts.signed.metas.ptr (jsonName SNAPSHOT) = some f := ptr_eq_some.2 hf
      simp only [if_true, hf', Res.deref_some, Res.bind_ok, metaVerify_ok.2 hm]
      exact rest

/-- What `checkFinalSnapshot` demands. -/
theorem checkFinalSnapshot_ok {t : Trusted} :
    t.checkFinalSnapshot = .ok () ↔ ∃ sn ts, t.snapshot = some sn ∧ t.timestamp = some ts ∧ ¬ Expired sn.signed.expires t.refTime ∧
      Lists ts.signed.metas b!"snapshot.json" sn.signed.version := by
  unfold Trusted.checkFinalSnapshot
  rw [Res.bind_eq_ok]
  constructor
  · rintro ⟨sn, h1, h2⟩
    rw [Res.deref_eq_ok] at h1
    split at h2
    · cases h2
    · next he =>
      obtain ⟨ts, h3, h2⟩ := Res.bind_eq_ok.1 h2
      obtain ⟨f, h4, h2⟩ := Res.bind_eq_ok.1 h2
      rw [Res.deref_eq_ok] at h3 h4
      rw [ptr_eq_some] at h4
      split at h2
      · cases h2
      · next hv => exact ⟨sn, ts, h1, h3, isExpired_false.1 (by simpa using he), f, h4, (Classical.byContradiction hv).symm⟩
  · rintro ⟨sn, ts, h1, h2, h3, f, h4, h5⟩
    refine ⟨sn, Res.deref_eq_ok.2 h1, ?_⟩
    have hf' : ts.signed.metas.ptr (jsonName SNAPSHOT) = some f := ptr_eq_some.2 h4
    rw [if_neg (by rw [isExpired_iff]; exact h3), h2]
    simp [hf', h5]

theorem updateSnapshot_cases (env : Env) (t : Trusted) (data : Bytes) (b : Bool) :
    (∃ new, SnapshotAccepted env t data b new ∧ (t.updateSnapshot env data b).2 = { t with snapshot := some new } ∧
      ((¬ Expired new.signed.expires t.refTime ∧ (∃ ts, t.timestamp = some ts ∧ Lists ts.signed.metas b!"snapshot.json" new.signed.version) ∧
          (t.updateSnapshot env data b).1 = .ok new) ∨
       (Expired new.signed.expires t.refTime ∧ ∃ msg, (t.updateSnapshot env data b).1 = .err (.expiredMetadata msg)) ∨
       (¬ Expired new.signed.expires t.refTime ∧
          (∃ ts v, t.timestamp = some ts ∧ Lists ts.signed.metas b!"snapshot.json" v ∧ v ≠ new.signed.version) ∧
          ∃ msg, (t.updateSnapshot env data b).1 = .err (.badVersionNumber msg)) ∨
       ((∃ ts, t.timestamp = some ts ∧ ∀ v, ¬ Lists ts.signed.metas b!"snapshot.json" v) ∧
          (t.updateSnapshot env data b).1 = .panic))) ∨
    (∃ e, t.updateSnapshot env data b = (.err e, t)) ∨ t.updateSnapshot env data b = (.panic, t) := by
  unfold Trusted.updateSnapshot
  cases h : t.checkSnapshot env data b with
  | ok new =>
    left
    have hacc := checkSnapshot_ok.1 h
    obtain ⟨ts, hts, _, _⟩ := hacc.timestamp
    refine ⟨new, hacc, ?_⟩
    simp only [Trusted.checkFinalSnapshot, Res.deref_some, Res.bind_ok, hts]
    by_cases he : Expired new.signed.expires t.refTime
    · simp only [isExpired_iff.2 he, if_true]
      exact ⟨by trivial, .inr (.inl ⟨he, _, rfl⟩)⟩
    · simp only [isExpired_false.2 he]
      cases hf : ts.signed.metas.ptr (jsonName SNAPSHOT) with
      | none =>
        refine ⟨by trivial, .inr (.inr (.inr ⟨⟨ts, rfl, ?_⟩, rfl⟩))⟩
        rintro v ⟨f, hf', _⟩
        rw [← ptr_eq_some] at hf'
        have : ts.signed.metas.ptr (jsonName SNAPSHOT) = some f := hf'
        rw [hf] at this
        cases this
      | some f =>
        have hl : ts.signed.metas.get? b!"snapshot.json" = some (some f) := ptr_eq_some.1 hf
        by_cases hv : new.signed.version = f.version
        · simp only [Res.deref_some, Res.bind_ok, hv, ne_eq, not_true, if_false]
          exact ⟨by trivial, .inl ⟨he, ⟨ts, rfl, f, hl, rfl⟩, rfl⟩⟩
        · simp only [Res.deref_some, Res.bind_ok, hv, ne_eq, not_false_eq_true, if_true]
          exact ⟨by trivial, .inr (.inr (.inl ⟨he, ⟨ts, f.version, rfl, ⟨f, hl, rfl⟩, Ne.symm hv⟩, _, rfl⟩))⟩
  | err e => exact .inr (.inl ⟨e, rfl⟩)
  | panic => exact .inr (.inr rfl)

theorem delegator_iff {t : Trusted} {name : Str} {D : AnyMeta} : t.delegator name = some D ↔ DelegatorIs t name D := by
  unfold Trusted.delegator
  constructor
  · intro h
    split at h
    · next hn => cases h; rw [hn]; exact .root
    · next hn =>
      obtain ⟨m, hm, rfl⟩ := Option.map_eq_some_iff.1 h
      exact .targets hn hm
  · intro h
    cases h with
    | root => rfl
    | targets hn hm =>
      rw [if_neg (show ¬ name = ROOT from hn), hm]
      rfl

theorem checkTargets_ok {env : Env} {t : Trusted} {data : Bytes} {role p : Str} {new : Metadata TargetsType} :
    t.checkTargets env data role p = .ok new ↔ TargetsAccepted env t data role p new := by
  unfold Trusted.checkTargets
  constructor
  · intro h
    split at h
    · cases h
    · next sn hsn =>
      obtain ⟨_, hfin, h⟩ := Res.bind_eq_ok.1 h
      obtain ⟨sn', ts, hsn', hts, hexp, hlist⟩ := checkFinalSnapshot_ok.1 hfin
      rw [hsn] at hsn'
      cases hsn'
      split at h
      · cases h
      · next D hD =>
        split at h
        · cases h
        · next m hm =>
          obtain ⟨f, hf, h⟩ := Res.bind_eq_ok.1 h
          rw [Res.deref_eq_ok] at hf
          rw [hf] at hm
          obtain ⟨_, hmatch, h⟩ := Res.bind_eq_ok.1 h
          obtain ⟨m, hp, h⟩ := Res.bind_eq_ok.1 h
          split at h
          · cases h
          · next ht =>
            obtain ⟨_, hv, h⟩ := Res.bind_eq_ok.1 h
            split at h
            · cases h
            · next hver =>
              split at h
              · cases h
              · next hne =>
                cases h
                exact ⟨⟨sn, ts, f, D, hsn, hts, hexp, hlist, hm, metaVerify_ok.1 hmatch, Classical.byContradiction hver,
                  delegator_iff.1 hD, verifyDelegate_ok_iff.1 hv⟩, hp, Classical.byContradiction ht,
                  isExpired_false.1 (by simpa using hne)⟩
  · rintro ⟨⟨sn, ts, f, D, hsn, hts, hexp, hlist, hm, hmatch, hver, hD, hv⟩, hp, ht, hfresh⟩
    have hp' : fromBytes (T := TargetsType) env data = .ok new := hp
    have ht' : new.signed.type = TARGETS := ht
    have hm' : sn.signed.metas.get? (jsonName role) = some (some f) := hm
    rw [hsn]
    simp only
    rw [checkFinalSnapshot_ok.2 ⟨sn, ts, hsn, hts, hexp, hlist⟩]
    simp only [Res.bind_ok, delegator_iff.2 hD, hm', Res.deref_some, metaVerify_ok.2 hmatch, hp']
    rw [if_neg (fun h => h ht'), verifyDelegate_ok_iff.2 hv]
    simp only [Res.bind_ok]
    rw [if_neg (fun h => h hver), if_neg (by rw [isExpired_iff]; exact hfresh)]

theorem updateTargets_cases (env : Env) (t : Trusted) (data : Bytes) (role p : Str) :
    (∃ new, t.updateDelegatedTargets env data role p = (.ok new, { t with targets := t.targets.set role new }) ∧
      TargetsAccepted env t data role p new) ∨
    (∃ e, t.updateDelegatedTargets env data role p = (.err e, t)) ∨ t.updateDelegatedTargets env data role p = (.panic, t) := by
  unfold Trusted.updateDelegatedTargets
  cases h : t.checkTargets env data role p with
  | ok new => exact .inl ⟨new, rfl, checkTargets_ok.1 h⟩
  | err e => exact .inr (.inl ⟨e, rfl⟩)
  | panic => exact .inr (.inr rfl)

/-- What a call can do to the trusted set. -/
inductive Change (env : Env) (t : Trusted) : Call → Trusted → Prop
  | none {c : Call} : Change env t c t
  | root {data : Bytes} {new : Metadata RootType} : RootAccepted env t data new → Change env t (.root data) { t with root := new }
  | timestamp {data : Bytes} {new : Metadata TimestampType} : TimestampAccepted env t data new →
      Change env t (.timestamp data) { t with timestamp := some new }
  | snapshot {data : Bytes} {b : Bool} {new : Metadata SnapshotType} : SnapshotAccepted env t data b new →
      Change env t (.snapshot data b) { t with snapshot := some new }
  | targets {data : Bytes} {role p : Str} {new : Metadata TargetsType} : TargetsAccepted env t data role p new →
      Change env t (.targets data role p) { t with targets := t.targets.set role new }

theorem run_change (env : Env) (t : Trusted) (c : Call) : Change env t c (c.run env t).2 := by
  cases c with
  | root d =>
    rcases updateRoot_cases env t d with ⟨n, h, ha⟩ | ⟨e, h⟩ | h <;> simp only [Call.run, h]
    · exact .root ha
    · exact .none
    · exact .none
  | timestamp d =>
    rcases updateTimestamp_cases env t d with ⟨n, ha, h, _⟩ | ⟨e, h⟩ | h <;> simp only [Call.run, h]
    · exact .timestamp ha
    · exact .none
    · exact .none
  | snapshot d b =>
    rcases updateSnapshot_cases env t d b with ⟨n, ha, h, _⟩ | ⟨e, h⟩ | h <;> simp only [Call.run, h]
    · exact .snapshot ha
    · exact .none
    · exact .none
  | targets d r p =>
    rcases updateTargets_cases env t d r p with ⟨n, h, ha⟩ | ⟨e, h⟩ | h <;> simp only [Call.run, h]
    · exact .targets ha
    · exact .none
    · exact .none

end Tuf
