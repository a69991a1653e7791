import Verif.Props.Refresh

/-! # What the loads leave alone -/

namespace Tuf
open Spec

theorem Spec.History.trans {env : Env} {a b c : Trusted} (h1 : History env a b) (h2 : History env b c) : History env a c := by
  induction h2 with
  | refl => exact h1
  | step c _ ih => exact .step c ih

section
variable {x : Ctx}

/-! ## Parts of the trusted set that a computation keeps -/

/-- The computation never changes this part of the trusted set. -/
def Keeps {α β : Type} (φ : Trusted → β) (m : M α) : Prop := ∀ s, φ (m s).2.trusted = φ s.trusted

section
variable {α β γ : Type} {φ : Trusted → γ}

theorem keeps_bind {m : M α} {f : α → M β} (hm : Keeps φ m) (hf : ∀ a, Keeps φ (f a)) : Keeps φ (m >>= f) := by
  intro s
  have h := hm s
  rw [SM.bind_apply]
  rcases hr : m s with ⟨r, s1⟩
  rw [hr] at h
  cases r with
  | ok a => exact (hf a s1).trans h
  | err e => exact h
  | panic => exact h

theorem keeps_pure (a : α) : Keeps φ (pure a : M α) := fun _ => rfl
theorem keeps_throw (e : Err) : Keeps φ (SM.throw e : M α) := fun _ => rfl
theorem keeps_lift (r : Res α) : Keeps φ (SM.lift r : M α) := fun _ => rfl
theorem keeps_getTrusted : Keeps φ getTrusted := fun _ => rfl
theorem keeps_onWorld (m : W α) : Keeps φ (onWorld m) := fun s => by rw [onWorld_apply]
theorem keeps_try {m : M α} (hm : Keeps φ m) : Keeps φ (SM.try' m) := fun s => by rw [SM.try_snd]; exact hm s
theorem keeps_onTrusted {f : Trusted → Res α × Trusted} (h : ∀ t, φ (f t).2 = φ t) : Keeps φ (onTrusted f) := fun s => by
  rw [onTrusted_apply]; exact h _

theorem keeps_tryLocal {role : Str} {f : Bytes → Trusted → Res α × Trusted} (h : ∀ d t, φ (f d t).2 = φ t) : Keeps φ (tryLocal x role f) := by
  unfold tryLocal
  refine keeps_bind (keeps_try (keeps_onWorld _)) ?_
  intro a
  cases a with
  | error e => exact keeps_pure _
  | ok d =>
    refine keeps_bind (keeps_try (keeps_onTrusted (h d))) ?_
    intro b
    cases b with
    | ok a => exact keeps_pure _
    | error e => dsimp only; split; exact keeps_pure _; exact keeps_throw _

theorem keeps_loadTimestamp (h : ∀ d t, φ (Trusted.updateTimestamp x.env t d).2 = φ t) : Keeps φ (loadTimestamp x) := by
  unfold loadTimestamp
  refine keeps_bind (keeps_tryLocal h) (fun _ => keeps_bind (keeps_onWorld _) (fun d => keeps_bind (keeps_try (keeps_onTrusted (h d))) ?_))
  intro r
  cases r with
  | error e => dsimp only; split; exact keeps_pure _; exact keeps_throw _
  | ok m => exact keeps_onWorld _

theorem keeps_loadSnapshot (h : ∀ d b t, φ (Trusted.updateSnapshot x.env t d b).2 = φ t) : Keeps φ (loadSnapshot x) := by
  unfold loadSnapshot
  refine keeps_bind (keeps_tryLocal (fun d t => h d true t)) ?_
  intro o
  cases o with
  | some m => exact keeps_pure _
  | none =>
    refine keeps_bind keeps_getTrusted ?_
    intro t
    cases t.timestamp with
    | none => exact keeps_throw _
    | some ts => exact keeps_bind (keeps_lift _) (fun _ => keeps_bind (keeps_onWorld _) (fun d => keeps_bind (keeps_onTrusted (h d false)) (fun _ => keeps_onWorld _)))

theorem keeps_loadTargets {role parent : Str} (h : ∀ d t, φ (Trusted.updateDelegatedTargets x.env t d role parent).2 = φ t) :
    Keeps φ (loadTargets x role parent) := by
  unfold loadTargets
  refine keeps_bind keeps_getTrusted ?_
  intro t
  cases t.targets.get? role with
  | some m => exact keeps_pure _
  | none =>
    refine keeps_bind (keeps_tryLocal h) ?_
    intro o
    cases o with
    | some m => exact keeps_pure _
    | none =>
      refine keeps_bind keeps_getTrusted ?_
      intro t
      cases t.snapshot with
      | none => exact keeps_throw _
      | some sn =>
        exact keeps_bind (keeps_lift _) (fun _ => keeps_bind (keeps_onWorld _) (fun d => keeps_bind (keeps_onTrusted (h d))
          (fun _ => keeps_bind (keeps_onWorld _) (fun _ => keeps_pure _))))
end

theorem updateTimestamp_keeps (env : Env) (d : Bytes) (t : Trusted) :
    (t.updateTimestamp env d).2 = { t with timestamp := (t.updateTimestamp env d).2.timestamp } := by
  rcases updateTimestamp_cases env t d with ⟨n, _, hu, _⟩ | ⟨e, hu⟩ | hu <;> rw [hu]

theorem updateSnapshot_keeps (env : Env) (d : Bytes) (b : Bool) (t : Trusted) :
    (t.updateSnapshot env d b).2 = { t with snapshot := (t.updateSnapshot env d b).2.snapshot } := by
  rcases updateSnapshot_cases env t d b with ⟨n, _, hu, _⟩ | ⟨e, hu⟩ | hu <;> rw [hu]

theorem updateTargets_keeps (env : Env) (d : Bytes) (r p : Str) (t : Trusted) :
    (t.updateDelegatedTargets env d r p).2 = { t with targets := (t.updateDelegatedTargets env d r p).2.targets } := by
  rcases updateTargets_cases env t d r p with ⟨n, hu, _⟩ | ⟨e, hu⟩ | hu <;> rw [hu]

theorem loadTimestamp_keeps (s : St) :
    (loadTimestamp x s).2.trusted.root = s.trusted.root ∧ (loadTimestamp x s).2.trusted.snapshot = s.trusted.snapshot ∧
    (loadTimestamp x s).2.trusted.targets = s.trusted.targets ∧ (loadTimestamp x s).2.trusted.refTime = s.trusted.refTime := by
  refine ⟨keeps_loadTimestamp (φ := (·.root)) ?_ s, keeps_loadTimestamp (φ := (·.snapshot)) ?_ s,
    keeps_loadTimestamp (φ := (·.targets)) ?_ s, keeps_loadTimestamp (φ := (·.refTime)) ?_ s⟩ <;>
  · intro d t; rw [updateTimestamp_keeps]

theorem loadSnapshot_keeps (s : St) :
    (loadSnapshot x s).2.trusted.root = s.trusted.root ∧ (loadSnapshot x s).2.trusted.timestamp = s.trusted.timestamp ∧
    (loadSnapshot x s).2.trusted.targets = s.trusted.targets ∧ (loadSnapshot x s).2.trusted.refTime = s.trusted.refTime := by
  refine ⟨keeps_loadSnapshot (φ := (·.root)) ?_ s, keeps_loadSnapshot (φ := (·.timestamp)) ?_ s,
    keeps_loadSnapshot (φ := (·.targets)) ?_ s, keeps_loadSnapshot (φ := (·.refTime)) ?_ s⟩ <;>
  · intro d b t; rw [updateSnapshot_keeps]

theorem loadTargets_keeps (role parent : Str) (s : St) :
    (loadTargets x role parent s).2.trusted.root = s.trusted.root ∧ (loadTargets x role parent s).2.trusted.timestamp = s.trusted.timestamp ∧
    (loadTargets x role parent s).2.trusted.snapshot = s.trusted.snapshot ∧ (loadTargets x role parent s).2.trusted.refTime = s.trusted.refTime := by
  refine ⟨keeps_loadTargets (φ := (·.root)) ?_ s, keeps_loadTargets (φ := (·.timestamp)) ?_ s,
    keeps_loadTargets (φ := (·.snapshot)) ?_ s, keeps_loadTargets (φ := (·.refTime)) ?_ s⟩ <;>
  · intro d t; rw [updateTargets_keeps]

theorem rootPhase_keeps {n : Nat} {t : Trusted} {ds : List (Str × Int × Except Err Bytes)} {out : Option Trusted} (h : RootPhase x n t ds out)
    {t' : Trusted} (ho : out = some t') : t' = { t with root := t'.root } := by
  induction h generalizing t' with
  | limit => cases ho; rfl
  | newest _ _ => cases ho; rfl
  | failed => cases ho
  | refused => cases ho
  | notStored => cases ho
  | rotated _ _ _ ih => rw [ih ho]

theorem loadRoot_phase (s : St) :
    ∃ n evs out, (loadRoot x s).2.world.trace = s.world.trace ++ evs ∧ RootPhase x n s.trusted (downloads evs) out ∧
      (∀ t, out = some t → (loadRoot x s).1 = .ok () ∧ (loadRoot x s).2.trusted = t) ∧ (out = none → (loadRoot x s).1 ≠ .ok ()) := by
  have hb1 := wrap64_bounds (s.trusted.root.signed.version + 1)
  have hb2 := wrap64_bounds (wrap64 (s.trusted.root.signed.version + 1) + x.cfg.maxRootRotations)
  exact ⟨_, rootLoop_phase x
    (wrap64 (wrap64 (s.trusted.root.signed.version + 1) + x.cfg.maxRootRotations) - wrap64 (s.trusted.root.signed.version + 1)).toNat
    (wrap64 (s.trusted.root.signed.version + 1)) s rfl (by omega)⟩

theorem loadRoot_keeps {s s' : St} (h : loadRoot x s = (.ok (), s')) : s'.trusted = { s.trusted with root := s'.trusted.root } := by
  obtain ⟨n, evs, out, _, h2, h3, h4⟩ := loadRoot_phase (x := x) s
  rw [h] at h3 h4
  cases out with
  | none => exact absurd rfl (h4 rfl)
  | some t =>
    have := (h3 t rfl).2
    dsimp only at this
    rw [this]
    exact rootPhase_keeps h2 rfl

/-! ## Files that a computation keeps -/

variable {ex : Extra} {J : Trusted → Str → Bytes → Prop}

theorem exec_rootLoop' (hf : ∀ u n, ex.fetch u n) (hj : ∀ t data, J t ROOT data) (n : Nat) (v : Int) (s : St) :
    Exec x (EventOk x ex J) s (loadRootLoop x n v s).2 := by
  induction n generalizing v s with
  | zero => exact .refl
  | succ n ih =>
    unfold loadRootLoop
    refine exec_bind (exec_try (exec_onWorld (exec_fetch (.inr (hf _ _))))) ?_
    intro r s1 _
    cases r with
    | error e =>
      cases e with
      | downloadHTTP st u => dsimp only; split <;> exact .refl
      | _ => exact .refl
    | ok d =>
      refine exec_bind (exec_call (.root d) trivial rfl) ?_
      intro m s2 _
      refine exec_bind (exec_onWorld (exec_persist (hj _ _))) ?_
      intro _ s3 _
      exact ih _ _

theorem exec_loadRoot' {s : St} (hf : ∀ u n, ex.fetch u n) (hj : ∀ t data, J t ROOT data) : Exec x (EventOk x ex J) s (loadRoot x s).2 := by
  unfold loadRoot
  refine exec_bind exec_getTrusted ?_
  intro t s1 _
  exact exec_rootLoop' hf hj _ _ _

/-- A cache file whose name needs no escaping is only changed by moves for its role. -/
theorem exec_kept_plain {s s' : St} (h : Exec x (EventOk x ex J) s s') {role : Str} (hr : localPath x.cfg role = persistPath x.cfg role)
    (hf : ∀ p, ¬ ex.file p) (hj : ∀ t r d, J t r d → r ≠ role) : s'.world.fs (localPath x.cfg role) = s.world.fs (localPath x.cfg role) := by
  obtain ⟨evs, h1, h2, _⟩ := exec_all (Q := fun _ => True) h (fun _ _ _ _ => trivial)
  rw [h2]
  rcases exec_files h (before := evs) (after := []) (by simpa using h1) (localPath_not_temp x.cfg role) (hf _) with h3 | ⟨r, d, t, h3, _, h4⟩
  · exact h3
  · rw [hr] at h3
    exact absurd (persistPath_inj (show persistPath x.cfg role = persistPath x.cfg r from h3)).symm (hj _ _ _ h4)

/-- The cache file of a top-level role is only changed by moves for that role. -/
theorem exec_kept {s s' : St} (h : Exec x (EventOk x ex J) s s') {role : Str} (hr : role ∈ [ROOT, TIMESTAMP, SNAPSHOT, TARGETS])
    (hf : ∀ p, ¬ ex.file p) (hj : ∀ t r d, J t r d → r ≠ role) : s'.world.fs (localPath x.cfg role) = s.world.fs (localPath x.cfg role) := by
  obtain ⟨evs, h1, h2, _⟩ := exec_all (Q := fun _ => True) h (fun _ _ _ _ => trivial)
  rw [h2]
  rcases exec_files h (before := evs) (after := []) (by simpa using h1) (localPath_not_temp x.cfg role) (hf _) with h3 | ⟨r, d, t, h3, _, h4⟩
  · exact h3
  · rw [C48_top_level x role hr] at h3
    exact absurd (persistPath_inj (show persistPath x.cfg role = persistPath x.cfg r from h3)).symm (hj _ _ _ h4)

def moveExtra : Extra := ⟨False, fun _ _ => True, fun _ => False⟩

theorem loadRoot_files (s : St) {role : Str} (hr : role ∈ [TIMESTAMP, SNAPSHOT, TARGETS]) :
    (loadRoot x s).2.world.fs (localPath x.cfg role) = s.world.fs (localPath x.cfg role) :=
  exec_kept (ex := moveExtra) (J := fun _ r _ => r = ROOT) (exec_loadRoot' (fun _ _ => trivial) (fun _ _ => rfl))
    (List.mem_cons_of_mem _ hr) (fun _ => id) (by rintro t r d rfl; revert role; decide)

theorem loadTimestamp_files (s : St) {role : Str} (hr : role ∈ [ROOT, SNAPSHOT, TARGETS]) :
    (loadTimestamp x s).2.world.fs (localPath x.cfg role) = s.world.fs (localPath x.cfg role) :=
  exec_kept (ex := moveExtra) (J := fun _ r _ => r = TIMESTAMP) (exec_loadTimestamp' (fun _ => trivial) (fun _ _ => rfl))
    (by revert role; decide) (fun _ => id) (by rintro t r d rfl; revert role; decide)

theorem loadSnapshot_files (s : St) {role : Str} (hr : role ∈ [ROOT, TIMESTAMP, TARGETS]) :
    (loadSnapshot x s).2.world.fs (localPath x.cfg role) = s.world.fs (localPath x.cfg role) :=
  exec_kept (ex := moveExtra) (J := fun _ r _ => r = SNAPSHOT) (exec_loadSnapshot' (fun _ _ _ => trivial) (fun _ _ => rfl))
    (by revert role; decide) (fun _ => id) (by rintro t r d rfl; revert role; decide)

theorem loadTopTargets_files (s : St) {role : Str} (hr : role ∈ [ROOT, TIMESTAMP, SNAPSHOT]) :
    (loadTargets x TARGETS ROOT s).2.world.fs (localPath x.cfg role) = s.world.fs (localPath x.cfg role) :=
  exec_kept (ex := moveExtra) (J := fun _ r _ => r = TARGETS) (exec_loadTopTargets' (fun _ _ _ => trivial) (fun _ _ => rfl))
    (by revert role; decide) (fun _ => id) (by rintro t r d rfl; revert role; decide)

/-- A local file that can be read is offered to the trusted set. -/
theorem tryLocal_read {α : Type} {role : Str} {f : Bytes → Trusted → Res α × Trusted} {s : St} {data : Bytes}
    (h1 : x.host.readFails s.world.trace (localPath x.cfg role) = false) (h2 : s.world.fs (localPath x.cfg role) = some data) :
    (tryLocal x role f s).2.trusted = (f data s.trusted).2 ∧ (tryLocal x role f s).2.world.fs = s.world.fs := by
  unfold tryLocal
  have hr := readLocal (x := x) (role := role) (s := s) (r := some data) (by rw [if_neg (by simp [h1])]; exact h2)
  rw [SM.bind_ok (SM.try_ok hr)]
  dsimp only
  rw [SM.bind_apply]
  unfold SM.try'
  rw [onTrusted_apply]
  dsimp only
  rcases f data s.trusted with ⟨r, t⟩
  cases r with
  | ok a => exact ⟨rfl, rfl⟩
  | err e => dsimp only; split <;> exact ⟨rfl, rfl⟩
  | panic => exact ⟨rfl, rfl⟩

/-- An acceptable timestamp is stored, also when it is expired. -/
theorem updateTimestamp_stores {env : Env} {t : Trusted} {d : Bytes} {m : Metadata TimestampType} (h : TimestampAccepted env t d m) :
    (t.updateTimestamp env d).2 = { t with timestamp := some m } := by
  unfold Trusted.updateTimestamp
  rw [checkTimestamp_ok.2 h]
  dsimp only
  split <;> rfl

theorem updateSnapshot_stores {env : Env} {t : Trusted} {d : Bytes} {b : Bool} {m : Metadata SnapshotType} (h : SnapshotAccepted env t d b m) :
    (t.updateSnapshot env d b).2 = { t with snapshot := some m } := by
  unfold Trusted.updateSnapshot
  rw [checkSnapshot_ok.2 h]
  dsimp only
  split <;> rfl

/-- With an expired root, no timestamp can be loaded. -/
theorem loadTimestamp_rootFresh {s s' : St} (h : loadTimestamp x s = (.ok (), s')) : ¬ Expired s.trusted.root.signed.expires s.trusted.refTime := by
  intro hx
  have hsn := loadTimestamp_snapshot h
  have hb : ∀ t : Trusted, t.root = s.trusted.root → t.refTime = s.trusted.refTime → t.snapshot = none → ∀ d,
      t.updateTimestamp x.env d = (.err (.expiredMetadata "final root.json is expired"), t) := by
    intro t h1 h2 h3 d
    unfold Trusted.updateTimestamp Trusted.checkTimestamp
    rw [if_neg (by simp [h3]), h1, h2, if_pos (isExpired_iff.2 hx)]
  obtain ⟨o, s1, data, h1, h2⟩ := loadTimestamp_ok h
  have e1 : s1.trusted.root = s.trusted.root := by
    have := keeps_tryLocal (x := x) (role := TIMESTAMP) (f := fun data t => t.updateTimestamp x.env data) (φ := (·.root)) (fun d t => by rw [updateTimestamp_keeps]) s
    rwa [h1] at this
  have e2 : s1.trusted.refTime = s.trusted.refTime := by
    have := keeps_tryLocal (x := x) (role := TIMESTAMP) (f := fun data t => t.updateTimestamp x.env data) (φ := (·.refTime)) (fun d t => by rw [updateTimestamp_keeps]) s
    rwa [h1] at this
  have e3 : s1.trusted.snapshot = s.trusted.snapshot := by
    have := keeps_tryLocal (x := x) (role := TIMESTAMP) (f := fun data t => t.updateTimestamp x.env data) (φ := (·.snapshot)) (fun d t => by rw [updateTimestamp_keeps]) s
    rwa [h1] at this
  rw [hb _ e1 e2 (e3.trans hsn)] at h2
  rcases h2 with ⟨e, h3, h4, _⟩ | ⟨m, h3, _⟩
  · cases (congrArg Prod.fst h3); cases h4
  · cases h3

/-! ## What a successful load leaves in the cache -/

theorem persist_ok {role : Str} {data : Bytes} {w w' : World} (hd : x.cfg.disableLocalCache = false) (h : persistMetadata x role data w = (.ok (), w')) :
    w'.fs (persistPath x.cfg role) = some data := by
  unfold persistMetadata at h
  rw [if_neg (by simp [hd])] at h
  obtain ⟨f, w1, h1, h⟩ := SM.bind_eq_ok.1 h
  obtain ⟨r, w2, h2, h⟩ := SM.bind_eq_ok.1 h
  rcases SM.try_eq_ok.1 h2 with ⟨u, rfl, h2'⟩ | ⟨e, rfl, h2'⟩
  · dsimp only at h
    unfold renameFile at h
    split at h
    · cases h
    · cases h
      have hne : persistPath x.cfg role ≠ f := fun he => persistPath_not_temp x.cfg role (by rw [he]; exact createTemp_name h1)
      show (if persistPath x.cfg role = f then none else if persistPath x.cfg role = persistPath x.cfg role then w2.fs f else _) = _
      rw [if_neg hne, if_pos rfl]
      exact writeFile_ok h2'
  · dsimp only at h
    obtain ⟨_, w3, _, h⟩ := SM.bind_eq_ok.1 h
    cases h

theorem persist_local {role : Str} {data : Bytes} {s s' : St} (hr : role ∈ [ROOT, TIMESTAMP, SNAPSHOT, TARGETS]) (hd : x.cfg.disableLocalCache = false)
    (h : onWorld (persistMetadata x role data) s = (.ok (), s')) : s'.world.fs (localPath x.cfg role) = some data := by
  rw [C48_top_level x role hr]
  rw [onWorld_apply] at h
  have e1 := congrArg Prod.fst h
  have e2 := congrArg (fun p => p.2.world) h
  exact persist_ok hd (Prod.ext e1 e2)

/-- A local document that was read, whatever came of it, and nothing was written. -/
theorem tryLocal_fs {α : Type} {role : Str} {f : Bytes → Trusted → Res α × Trusted} {s s1 : St} {o : Option α}
    (h : tryLocal x role f s = (.ok o, s1)) : s1.world.fs = s.world.fs := by
  cases o with
  | none => exact (tryLocal_none h).1
  | some a =>
    unfold tryLocal at h
    obtain ⟨o, s2, h1, h2⟩ := SM.bind_eq_ok.1 h
    have e1 : s2.world.fs = s.world.fs := by
      have := congrArg (fun p => p.2.world.fs) h1
      dsimp only at this
      rw [SM.try_snd, onWorld_apply] at this
      unfold loadLocalMetadata at this
      rw [readFile_snd] at this
      exact this.symm
    cases o with
    | error e => cases h2
    | ok d =>
      obtain ⟨b, s3, h3, h4⟩ := SM.bind_eq_ok.1 h2
      have e2 : s3.world = s2.world := by
        have := congrArg (fun p => p.2.world) h3
        dsimp only at this
        rw [SM.try_snd, onTrusted_apply] at this
        exact this.symm
      cases b with
      | ok a => cases h4; rw [e2, e1]
      | error e => dsimp only at h4; split at h4 <;> cases h4

theorem loadTimestamp_cached (hd : x.cfg.disableLocalCache = false) {s s' : St} (h : loadTimestamp x s = (.ok (), s')) (h0 : s.trusted.timestamp = none)
    {ts : Metadata TimestampType} (ht : s'.trusted.timestamp = some ts) :
    ∃ d, s'.world.fs (localPath x.cfg TIMESTAMP) = some d ∧ ParsesTo x.env d ts ∧ ts.signed.type = TIMESTAMP := by
  obtain ⟨o, s1, data, h1, ⟨e, h2, h3, h4⟩ | ⟨m, h2, w, w', h3, h4, h5⟩⟩ := loadTimestamp_ok h
  · have hs : s'.trusted = s1.trusted := by
      rcases updateTimestamp_cases x.env s1.trusted data with ⟨n, _, _, ⟨_, hr⟩ | ⟨_, msg, hr⟩⟩ | ⟨e', hr⟩ | hr
      · rw [h2] at hr; cases hr
      · rw [h2] at hr; cases hr; cases h3
      · rw [h2] at hr; exact congrArg Prod.snd hr
      · rw [h2] at hr; cases hr
    rw [hs] at ht
    have hfs : s'.world.fs = s.world.fs := h4.trans (tryLocal_fs h1)
    rw [hfs]
    cases o with
    | some m =>
      obtain ⟨d, h5, h6⟩ := tryLocal_some h1
      obtain ⟨ha, _, hb⟩ := updateTimestamp_ok h6
      rw [hb] at ht
      cases ht
      exact ⟨d, h5, ha.parsed, ha.type⟩
    | none =>
      obtain ⟨_, ⟨h5, _⟩ | ⟨d, e', h5, h6, _⟩⟩ := tryLocal_none h1
      · rw [h5, h0] at ht; cases ht
      · rcases updateTimestamp_cases x.env s.trusted d with ⟨n, ha, hu, _⟩ | ⟨e', hr⟩ | hr
        · rw [h6] at hu
          dsimp only at hu
          rw [hu] at ht
          cases ht
          exact ⟨d, h5, ha.parsed, ha.type⟩
        · rw [h6] at hr
          have := congrArg Prod.snd hr
          dsimp only at this
          rw [this, h0] at ht; cases ht
        · rw [h6] at hr; cases hr
  · obtain ⟨ha, _, hb⟩ := updateTimestamp_ok h2
    rw [hb] at ht
    cases ht
    refine ⟨data, ?_, ha.parsed, ha.type⟩
    rw [C48_top_level x _ (by decide), h5]
    exact persist_ok hd h4

theorem loadSnapshot_cached (hd : x.cfg.disableLocalCache = false) {s s' : St} (h : loadSnapshot x s = (.ok (), s')) :
    ∃ d sn, s'.trusted.snapshot = some sn ∧ s'.world.fs (localPath x.cfg SNAPSHOT) = some d ∧ ParsesTo x.env d sn ∧ sn.signed.type = SNAPSHOT := by
  unfold loadSnapshot at h
  obtain ⟨o, s1, h1, h⟩ := SM.bind_eq_ok.1 h
  cases o with
  | some m =>
    cases h
    obtain ⟨d, h5, h6⟩ := tryLocal_some h1
    obtain ⟨ha, _, hb⟩ := updateSnapshot_ok h6
    exact ⟨d, m, by rw [hb], by rw [tryLocal_fs h1]; exact h5, ha.parsed, ha.type⟩
  | none =>
    obtain ⟨t, s1', h1', h⟩ := SM.bind_eq_ok.1 h
    cases h1'
    cases hts : s1.trusted.timestamp with
    | none => rw [hts] at h; cases h
    | some ts =>
      rw [hts] at h
      obtain ⟨f, s2, h2, h⟩ := SM.bind_eq_ok.1 h
      obtain ⟨_, rfl⟩ := lift_ok h2
      obtain ⟨data, s3, h3, h⟩ := SM.bind_eq_ok.1 h
      obtain ⟨m, s4, h4, h⟩ := SM.bind_eq_ok.1 h
      obtain ⟨ha, _, hb⟩ := updateSnapshot_ok (onTrusted_ok h4).1
      exact ⟨data, m, by rw [onWorld_trusted h, hb], persist_local (by decide) hd h, ha.parsed, ha.type⟩

theorem loadTargets_cached (hd : x.cfg.disableLocalCache = false) {s s' : St} {m : Metadata TargetsType}
    (h : loadTargets x TARGETS ROOT s = (.ok m, s')) (hn : s.trusted.targets.get? TARGETS = none) :
    ∃ d, s'.trusted.targets.get? TARGETS = some m ∧ s'.world.fs (localPath x.cfg TARGETS) = some d ∧ ParsesTo x.env d m ∧ m.signed.type = TARGETS := by
  unfold loadTargets at h
  obtain ⟨t, s0, h0, h⟩ := SM.bind_eq_ok.1 h
  cases h0
  rw [hn] at h
  obtain ⟨o, s1, h1, h⟩ := SM.bind_eq_ok.1 h
  cases o with
  | some r =>
    cases h
    obtain ⟨d, h5, h6⟩ := tryLocal_some h1
    obtain ⟨ha, hb⟩ := updateTargets_ok h6
    exact ⟨d, by rw [hb]; exact Entries.get?_set_self _ _ _, by rw [tryLocal_fs h1]; exact h5, ha.parsed, ha.type⟩
  | none =>
    obtain ⟨t, s2, h2, h⟩ := SM.bind_eq_ok.1 h
    cases h2
    cases hsn : s1.trusted.snapshot with
    | none => rw [hsn] at h; cases h
    | some sn =>
      rw [hsn] at h
      obtain ⟨f, s3, h3, h⟩ := SM.bind_eq_ok.1 h
      obtain ⟨_, rfl⟩ := lift_ok h3
      obtain ⟨data, s4, h4, h⟩ := SM.bind_eq_ok.1 h
      obtain ⟨m', s5, h5, h⟩ := SM.bind_eq_ok.1 h
      obtain ⟨_, s6, h6, h⟩ := SM.bind_eq_ok.1 h
      cases h
      obtain ⟨ha, hb⟩ := updateTargets_ok (onTrusted_ok h5).1
      exact ⟨data, by rw [onWorld_trusted h6, hb]; exact Entries.get?_set_self _ _ _, persist_local (by decide) hd h6, ha.parsed, ha.type⟩

/-- The root in the cache follows the trusted root. -/
theorem rootLoop_cached (hd : x.cfg.disableLocalCache = false) (n : Nat) (v : Int) {s s' : St} (h : loadRootLoop x n v s = (.ok (), s'))
    (h0 : ∃ d, s.world.fs (localPath x.cfg ROOT) = some d ∧ ParsesTo x.env d s.trusted.root) :
    ∃ d, s'.world.fs (localPath x.cfg ROOT) = some d ∧ ParsesTo x.env d s'.trusted.root := by
  induction n generalizing v s with
  | zero => cases h; exact h0
  | succ n ih =>
    unfold loadRootLoop at h
    obtain ⟨r, s1, h1, h⟩ := SM.bind_eq_ok.1 h
    have e1 : s1.world.fs = s.world.fs ∧ s1.trusted = s.trusted := by
      have e1 := congrArg (fun p => p.2.world.fs) h1
      have e2 := congrArg (fun p => p.2.trusted) h1
      dsimp only at e1 e2
      rw [SM.try_snd, onWorld_apply] at e1 e2
      refine ⟨?_, e2.symm⟩
      rw [← e1]
      unfold downloadMetadata doFetch
      dsimp only
      cases x.host.fetch s.world.trace (metadataURL x.cfg.remoteMetadataURL ROOT (formatInt 10 v)) x.cfg.rootMaxLength <;> rfl
    have same : ∀ s2 : St, s2 = s1 → ∃ d, s2.world.fs (localPath x.cfg ROOT) = some d ∧ ParsesTo x.env d s2.trusted.root := by
      rintro s2 rfl; rw [e1.1, e1.2]; exact h0
    cases r with
    | error e =>
      cases e with
      | downloadHTTP st u =>
        dsimp only at h
        split at h
        · cases h
        · cases h; exact same _ rfl
      | _ => cases h
    | ok d =>
      obtain ⟨m, s2, h2, h⟩ := SM.bind_eq_ok.1 h
      obtain ⟨_, s3, h3, h⟩ := SM.bind_eq_ok.1 h
      obtain ⟨ha, hb⟩ := updateRoot_ok (onTrusted_ok h2).1
      refine ih _ h ⟨d, persist_local (by decide) hd h3, ?_⟩
      rw [onWorld_trusted h3, hb]
      exact ha.parsed

end

end Tuf
