import Verif.Proofs.Refresh
import Verif.Props.UpdaterEvents
import Verif.Props.Trusted

/-! # Refresh -/

namespace Tuf
open Spec Sample

/-! ## C24 -/

/-- What holds in every history from a fresh trusted set. -/
structure TrustedInv (env : Env) (t : Trusted) : Prop where
  timestamp : ∀ ts, t.timestamp = some ts → ¬ Expired t.root.signed.expires t.refTime ∧ Verifies env (.root t.root) b!"timestamp" (.timestamp ts)
  snapshot : ∀ sn, t.snapshot = some sn → (∃ ts, t.timestamp = some ts ∧ ¬ Expired ts.signed.expires t.refTime) ∧
    Verifies env (.root t.root) b!"snapshot" (.snapshot sn)

theorem trustedInv {env : Env} {t0 t : Trusted} (h1 : t0.timestamp = none) (h2 : t0.snapshot = none) (h : History env t0 t) : TrustedInv env t := by
  refine history_change (P := TrustedInv env) ⟨by simp [h1], by simp [h2]⟩ ?_ h
  intro a c b ha hch
  cases hch with
  | none => exact ha
  | root hr =>
    refine ⟨?_, ?_⟩
    · intro ts h; exact absurd h (by simp [hr.early])
    · intro sn h
      obtain ⟨⟨ts, h3, _⟩, _⟩ := ha.snapshot sn h
      exact absurd h3 (by simp [hr.early])
  | @timestamp data new hr =>
    refine ⟨?_, ?_⟩
    · intro ts h
      cases h
      exact ⟨hr.rootFresh, hr.signed⟩
    · intro sn h; exact absurd h (by simp [hr.early])
  | @snapshot data b new hr =>
    refine ⟨ha.timestamp, ?_⟩
    intro sn h
    cases h
    obtain ⟨ts, h3, h4, _⟩ := hr.timestamp
    exact ⟨⟨ts, h3, h4⟩, hr.signed⟩
  | targets hr => exact ⟨ha.timestamp, ha.snapshot⟩

theorem session_history {x : Ctx} {s s' : St} (h : Session x s s') : ClientHistory x.env s.trusted s'.trusted := (session_exec h).history

/-- C24: after `New`, any API calls and a `Refresh` that returns nil, the trusted set is complete and consistent. -/
theorem C24_refresh_complete {x : Ctx} {now : Time} {w : World} {t0 : Trusted} {s s' : St}
    (h0 : Trusted.new x.env now x.cfg.localTrustedRoot = .ok t0) (hs : Session x ⟨t0, w⟩ s) (h : refresh x s = (.ok (), s')) :
    CompleteSet x.env s'.trusted := by
  obtain ⟨_, t1, data, m, h1, h2, h3⟩ := refresh_accepted h
  obtain ⟨_, _, _, ht, hn, _, _⟩ := new_root h0
  have inv := trustedInv (env := x.env) (t := t1) ht hn ((session_history hs).trans h1).history
  obtain ⟨sn, ts, f, D, h4, h5, h6, h7, h8, h9, h10, h11, h12⟩ := h2.snapshot
  have hD : D = .root t1.root := by
    cases h11 with
    | root => rfl
    | targets h _ => exact absurd rfl h
  subst hD
  obtain ⟨h13, h14⟩ := inv.timestamp ts h5
  obtain ⟨⟨ts', h15, h16⟩, h17⟩ := inv.snapshot sn h4
  rw [h5] at h15
  cases h15
  rw [h3]
  exact ⟨h13, ts, sn, m, h5, h4, Entries.get?_set_self _ _ _, h16, h6, h2.fresh, h14, h17, h12, h7, f, h8, h10.symm⟩

/-- A refresh that succeeds, and its versions. -/
example : (session ctx [] (refresh ctx)).1 = .ok () ∧
    (session ctx [] (refresh ctx)).2.map (fun s => versions s.trusted) = some (1, some 4, some 4, some 4) := by decide +kernel

/-! ## C25 -/

theorem downloads_append (a b : List Event) : downloads (a ++ b) = downloads a ++ downloads b := by
  unfold downloads; exact List.filterMap_append

theorem downloads_nil {evs : List Event} (h : ∀ e ∈ evs, ∀ u n r, e ≠ .fetch u n r) : downloads evs = [] := by
  unfold downloads
  rw [List.filterMap_eq_nil_iff]
  intro e he
  cases e with
  | fetch u n r => exact absurd rfl (h _ he u n r)
  | _ => rfl

theorem persist_downloads (x : Ctx) (role : Str) (data : Bytes) (s : St) :
    ∃ evs, (onWorld (persistMetadata x role data) s).2.world.trace = s.world.trace ++ evs ∧ downloads evs = [] := by
  obtain ⟨evs, h1, _, h2⟩ := exec_all (Q := fun e => ∀ u n r, e ≠ .fetch u n r)
    (exec_onWorld (exec_persist (x := x) (ex := ⟨False, fun _ _ => False, fun _ => False⟩) (J := fun _ _ _ => True) (s := s) (role := role)
      (data := data) trivial)) (by
    rintro s1 e _ he u n r rfl
    rcases he.2 with h | h
    · exact h.1
    · exact h)
  exact ⟨evs, h1, downloads_nil h2⟩

theorem SM.try_ok {σ α : Type} {m : SM σ α} {s s1 : σ} {a : α} (h : m s = (.ok a, s1)) : SM.try' m s = (.ok (.ok a), s1) := by
  unfold SM.try'; rw [h]
theorem SM.try_err {σ α : Type} {m : SM σ α} {s s1 : σ} {e : Err} (h : m s = (.err e, s1)) : SM.try' m s = (.ok (.error e), s1) := by
  unfold SM.try'; rw [h]

theorem doFetch_apply (x : Ctx) (url : Str) (n : Int) (s : St) :
    onWorld (doFetch x.host url n) s = ((match x.host.fetch s.world.trace url n with | .ok b => .ok b | .error e => .err e),
      { s with world := s.world.emit (.fetch url n (x.host.fetch s.world.trace url n)) }) := by
  rw [onWorld_apply]
  unfold doFetch
  dsimp only
  cases x.host.fetch s.world.trace url n <;> rfl

theorem rootLoop_phase (x : Ctx) (n : Nat) (v : Int) (s : St) (hv : v = wrap64 (s.trusted.root.signed.version + 1)) (hb : v + n < 2 ^ 63) :
    ∃ evs out, (loadRootLoop x n v s).2.world.trace = s.world.trace ++ evs ∧ RootPhase x n s.trusted (downloads evs) out ∧
      (∀ t, out = some t → (loadRootLoop x n v s).1 = .ok () ∧ (loadRootLoop x n v s).2.trusted = t) ∧
      (out = none → (loadRootLoop x n v s).1 ≠ .ok ()) := by
  induction n generalizing v s with
  | zero =>
    refine ⟨[], some s.trusted, by simp [loadRootLoop, SM.pure_apply], .limit, ?_, by simp⟩
    intro t h; cases h; exact ⟨rfl, rfl⟩
  | succ n ih =>
    unfold loadRootLoop
    have hurl := versionedURL x.cfg.remoteMetadataURL ROOT v
    have hurl' : VersionedURL x.cfg.remoteMetadataURL b!"root" (wrap64 (s.trusted.root.signed.version + 1))
        (metadataURL x.cfg.remoteMetadataURL ROOT (formatInt 10 v)) := by rw [← hv]; exact hurl
    have hd := doFetch_apply x (metadataURL x.cfg.remoteMetadataURL ROOT (formatInt 10 v)) x.cfg.rootMaxLength s
    unfold downloadMetadata
    generalize metadataURL x.cfg.remoteMetadataURL ROOT (formatInt 10 v) = url at hurl hurl' hd ⊢
    cases hr : x.host.fetch s.world.trace url x.cfg.rootMaxLength with
    | error e =>
      rw [hr] at hd
      have ht := SM.try_err hd
      rw [SM.bind_ok ht]
      have other : ∀ e, (∀ status u, e = Err.downloadHTTP status u → status ≠ 403 ∧ status ≠ 404) →
          ∃ evs out, (SM.throw e { s with world := s.world.emit (.fetch url x.cfg.rootMaxLength (.error e)) } : Res Unit × St).2.world.trace =
              s.world.trace ++ evs ∧ RootPhase x (n + 1) s.trusted (downloads evs) out ∧
            (∀ t, out = some t → (SM.throw e { s with world := s.world.emit (.fetch url x.cfg.rootMaxLength (.error e)) } : Res Unit × St).1 = .ok () ∧
              (SM.throw e { s with world := s.world.emit (.fetch url x.cfg.rootMaxLength (.error e)) } : Res Unit × St).2.trusted = t) ∧
            (out = none → (SM.throw e { s with world := s.world.emit (.fetch url x.cfg.rootMaxLength (.error e)) } : Res Unit × St).1 ≠ .ok ()) := by
        intro e he
        exact ⟨[_], none, rfl, .failed hurl' he, by simp, by simp [SM.throw_apply]⟩
      cases e with
      | downloadHTTP status u =>
        dsimp only
        by_cases hst : status ≠ 404 ∧ status ≠ 403
        · rw [if_pos hst]
          refine other _ ?_
          intro st u' h; cases h; exact ⟨hst.2, hst.1⟩
        · rw [if_neg hst]
          refine ⟨[_], some s.trusted, rfl, .newest hurl' (by omega), ?_, by simp⟩
          intro t h; cases h; exact ⟨rfl, rfl⟩
      | _ => exact other _ (by intro st u h; cases h)
    | ok data =>
      rw [hr] at hd
      have ht := SM.try_ok hd
      rw [SM.bind_ok ht]
      dsimp only
      rw [SM.bind_apply, onTrusted_apply]
      dsimp only
      rcases updateRoot_cases x.env s.trusted data with ⟨new, h3, h4⟩ | ⟨e, h3⟩ | h3
      · rw [h3]
        dsimp only
        rw [SM.bind_apply]
        obtain ⟨evs, h5, h6⟩ := persist_downloads x ROOT data
          ⟨{ s.trusted with root := new }, s.world.emit (.fetch url x.cfg.rootMaxLength (.ok data))⟩
        rcases hp : onWorld (persistMetadata x ROOT data)
          ⟨{ s.trusted with root := new }, s.world.emit (.fetch url x.cfg.rootMaxLength (.ok data))⟩ with ⟨r, s3⟩
        have ht3 := onWorld_trusted hp
        rw [hp] at h5
        have hdl : ∀ l, downloads ([.fetch url x.cfg.rootMaxLength (.ok data)] ++ evs ++ l) = (url, x.cfg.rootMaxLength, .ok data) :: downloads l := by
          intro l
          rw [downloads_append, downloads_append, h6]; rfl
        have htr : ∀ l, s3.world.trace ++ l = s.world.trace ++ ([.fetch url x.cfg.rootMaxLength (.ok data)] ++ evs ++ l) := by
          intro l
          rw [h5]; simp [World.emit]
        have hstop : ∀ r : Res Unit, r ≠ .ok () → ∃ evs out, s3.world.trace = s.world.trace ++ evs ∧
            RootPhase x (n + 1) s.trusted (downloads evs) out ∧ (∀ t, out = some t → r = .ok () ∧ s3.trusted = t) ∧ (out = none → r ≠ .ok ()) := by
          intro r hr
          refine ⟨_, none, by have := htr []; rwa [List.append_nil] at this, ?_, by simp, fun _ => hr⟩
          have := hdl []
          rw [this]
          exact .notStored hurl' h4
        cases r with
        | err e => exact hstop _ (by simp)
        | panic => exact hstop _ (by simp)
        | ok u =>
          dsimp only
          have hb1 := (wrap64_bounds (s.trusted.root.signed.version + 1)).1
          rw [← hv] at hb1
          have hv' : v + 1 = wrap64 (s3.trusted.root.signed.version + 1) := by
            rw [ht3]
            show v + 1 = wrap64 (new.signed.version + 1)
            rw [h4.version, ← hv]
            exact (wrap64_of_bounds (by omega) (by omega)).symm
          obtain ⟨evs', out, i1, i2, i3, i4⟩ := ih (v + 1) s3 hv' (by omega)
          refine ⟨_, out, i1.trans (htr evs'), ?_, i3, i4⟩
          rw [hdl]
          rw [ht3] at i2
          exact .rotated hurl' h4 i2
      · rw [h3]
        refine ⟨[_], none, rfl, .refused hurl' ?_, by simp, by simp⟩
        rintro ⟨new, hn⟩
        rw [← checkRoot_ok] at hn
        unfold Trusted.updateRoot at h3
        rw [hn] at h3; cases h3
      · rw [h3]
        refine ⟨[_], none, rfl, .refused hurl' ?_, by simp, by simp⟩
        rintro ⟨new, hn⟩
        rw [← checkRoot_ok] at hn
        unfold Trusted.updateRoot at h3
        rw [hn] at h3; cases h3

/-- The number of rounds of the root loop. -/
theorem rootRounds {N max : Int} (h0 : -(2 ^ 63) ≤ wrap64 (N + 1) + max) (h1 : max < 2 ^ 63) :
    (wrap64 (wrap64 (N + 1) + max) - wrap64 (N + 1)).toNat ≤ max.toNat ∧
    (wrap64 (N + 1) + max < 2 ^ 63 → (wrap64 (wrap64 (N + 1) + max) - wrap64 (N + 1)).toNat = max.toNat) := by
  have hb := wrap64_bounds (N + 1)
  generalize wrap64 (N + 1) = l at *
  have : wrap64 (l + max) = l + max ∨ (wrap64 (l + max) = l + max - 2 ^ 64 ∧ 2 ^ 63 ≤ l + max) := by
    unfold wrap64
    rw [Int.bmod_def]
    split <;> omega
  omega

/-- The part of an online refresh after the root update. -/
def afterRoot (x : Ctx) : M Unit := do
  loadTimestamp x
  loadSnapshot x
  let _ ← loadTargets x TARGETS ROOT
  pure ()

theorem metaVersion_form (t : Trusted) (m : MetaFiles) : metaVersion t m = [] ∨ ∃ k, metaVersion t m = formatInt 10 k := by
  unfold metaVersion
  split
  · exact .inr ⟨_, rfl⟩
  · exact .inl rfl

theorem exec_afterRoot {x : Ctx} {ex : Extra} {J : Trusted → Str → Bytes → Prop} {s : St}
    (hf : ∀ role ∈ [TIMESTAMP, SNAPSHOT, TARGETS], ∀ v n, (v = [] ∨ ∃ k, v = formatInt 10 k) → ex.fetch (metadataURL x.cfg.remoteMetadataURL role v) n)
    (hj : ∀ role ∈ [TIMESTAMP, SNAPSHOT, TARGETS], ∀ t data, J t role data) :
    Exec x (EventOk x ex J) s (afterRoot x s).2 := by
  unfold afterRoot
  refine exec_bind (exec_loadTimestamp' (fun n => hf _ (by simp) _ n (.inl rfl)) (hj _ (by simp))) ?_
  intro _ s1 _
  refine exec_bind (exec_loadSnapshot' (fun t m n => hf _ (by simp) _ n (metaVersion_form t m)) (hj _ (by simp))) ?_
  intro _ s2 _
  refine exec_bind (exec_loadTopTargets' (fun t m n => hf _ (by simp) _ n (metaVersion_form t m)) (hj _ (by simp))) ?_
  intro _ s3 _
  exact .refl

theorem refresh_online {x : Ctx} (hu : x.cfg.unsafeLocalMode = false) : refresh x = (loadRoot x >>= fun _ => afterRoot x) := by
  unfold refresh
  rw [if_neg (by simp [hu])]
  rfl

/-- C25: the downloads of an online `Refresh` are those of a root update of at most `MaxRootRotations` requests (exactly the configured limit unless version
numbers would leave the range of `int64`; none if it is negative), then other files. If the root update fails, `Refresh` fails and requests nothing else. -/
theorem C25_root_phase_partial {x : Ctx} (hu : x.cfg.unsafeLocalMode = false) (s : St)
    (h0 : 0 ≤ x.cfg.maxRootRotations ∨ -(2 ^ 63) ≤ wrap64 (s.trusted.root.signed.version + 1) + x.cfg.maxRootRotations) (h1 : x.cfg.maxRootRotations < 2 ^ 63) :
    ∃ evs ds rest n out, (refresh x s).2.world.trace = s.world.trace ++ evs ∧ downloads evs = ds ++ rest ∧
      RootPhase x n s.trusted ds out ∧
      n ≤ x.cfg.maxRootRotations.toNat ∧
      (wrap64 (s.trusted.root.signed.version + 1) + x.cfg.maxRootRotations < 2 ^ 63 → n = x.cfg.maxRootRotations.toNat) ∧
      (out = none → rest = [] ∧ (refresh x s).1 ≠ .ok ()) ∧
      (∀ d ∈ rest, ∀ v, ¬ VersionedURL x.cfg.remoteMetadataURL b!"root" v d.1) := by
  obtain ⟨hr1, hr2⟩ := rootRounds (N := s.trusted.root.signed.version) (by have := wrap64_bounds (s.trusted.root.signed.version + 1); omega) h1
  rw [refresh_online hu, SM.bind_apply]
  have hb1 := wrap64_bounds (s.trusted.root.signed.version + 1)
  have hb2 := wrap64_bounds (wrap64 (s.trusted.root.signed.version + 1) + x.cfg.maxRootRotations)
  obtain ⟨evs, out, i1, i2, i3, i4⟩ := rootLoop_phase x
    (wrap64 (wrap64 (s.trusted.root.signed.version + 1) + x.cfg.maxRootRotations) - wrap64 (s.trusted.root.signed.version + 1)).toNat
    (wrap64 (s.trusted.root.signed.version + 1)) s rfl (by omega)
  have hl : loadRoot x s = loadRootLoop x
    (wrap64 (wrap64 (s.trusted.root.signed.version + 1) + x.cfg.maxRootRotations) - wrap64 (s.trusted.root.signed.version + 1)).toNat
    (wrap64 (s.trusted.root.signed.version + 1)) s := rfl
  rw [← hl] at i1 i3 i4
  rcases hr : loadRoot x s with ⟨r, s1⟩
  rw [hr] at i1 i3 i4
  have stop : ∀ r : Res Unit, r ≠ .ok () → (∀ t, out = some t → r = .ok () ∧ s1.trusted = t) → ∃ evs ds rest n out, s1.world.trace = s.world.trace ++ evs ∧ downloads evs = ds ++ rest ∧
      RootPhase x n s.trusted ds out ∧ n ≤ x.cfg.maxRootRotations.toNat ∧
      (wrap64 (s.trusted.root.signed.version + 1) + x.cfg.maxRootRotations < 2 ^ 63 → n = x.cfg.maxRootRotations.toNat) ∧
      (out = none → rest = [] ∧ r ≠ .ok ()) ∧ (∀ d ∈ rest, ∀ v, ¬ VersionedURL x.cfg.remoteMetadataURL b!"root" v d.1) :=
    fun r h1 h2 => ⟨evs, downloads evs, [], _, out, i1, by simp, i2, hr1, hr2, fun _ => ⟨rfl, h1⟩, by simp⟩
  cases r with
  | err e => exact stop _ (by simp) i3
  | panic => exact stop _ (by simp) i3
  | ok u =>
    dsimp only
    have hx := exec_afterRoot (x := x) (ex := ⟨False, fun u _ => ∀ v, ¬ VersionedURL x.cfg.remoteMetadataURL b!"root" v u, fun _ => False⟩)
      (J := fun _ _ _ => True) (s := s1) ?_ (fun _ _ _ _ => trivial)
    · obtain ⟨evs', j1, _, j2⟩ := exec_all (Q := fun e => ∀ u n r, e = .fetch u n r → ∀ v, ¬ VersionedURL x.cfg.remoteMetadataURL b!"root" v u) hx (by
        rintro s2 e _ he u n r rfl
        rcases he.2 with h | h
        · exact absurd h.1 id
        · exact h)
      refine ⟨evs ++ evs', downloads evs, downloads evs', _, out, ?_, downloads_append _ _, i2, hr1, hr2, ?_, ?_⟩
      · rw [j1, i1, List.append_assoc]
      · intro h; exact absurd rfl (i4 h)
      · intro d hd v
        unfold downloads at hd
        obtain ⟨e, he, hd⟩ := List.mem_filterMap.1 hd
        cases e with
        | fetch u n r => cases hd; exact j2 _ he u n r rfl v
        | _ => cases hd
    · intro role hrole ver n hts v
      show ¬ VersionedURL _ _ v (metadataURL x.cfg.remoteMetadataURL role ver)
      rcases hts with rfl | ⟨k, rfl⟩
      · exact plain_not_versioned (by revert role; decide) (plainURL _ _)
      · intro h
        have := (C33_versioned_injective_partial h (versionedURL _ _ _)).2
        subst this
        revert hrole; decide

namespace Sample

/-- A client with a limit of -1 and a trusted root of the largest version. -/
def negativeCtx : Ctx := ⟨repoEnv, host, { cfg with maxRootRotations := -1, localTrustedRoot := [8, 0] }⟩

end Sample

/-- The remaining case of C25: with a negative limit and the largest possible root version the bound wraps around and a root is requested. -/
theorem C25_negative_limit : (urls (session negativeCtx [] (refresh negativeCtx)).2).head? = some b!"u/-9223372036854775808.root.json" := by decide +kernel

theorem rootPhase_consecutive {x : Ctx} {n : Nat} {t : Trusted} {ds : List (Str × Int × Except Err Bytes)} {out : Option Trusted} (h : RootPhase x n t ds out) :
    ds.length ≤ n ∧ ∀ i (hi : i < ds.length),
      VersionedURL x.cfg.remoteMetadataURL b!"root" (wrap64 (t.root.signed.version + 1 + i)) ds[i].1 ∧ ds[i].2.1 = x.cfg.rootMaxLength := by
  induction h with
  | limit => simp
  | newest h _ => exact ⟨by simp, fun i hi => by obtain rfl : i = 0 := by simpa using hi
                                                 exact ⟨by simpa using h, rfl⟩⟩
  | failed h _ => exact ⟨by simp, fun i hi => by obtain rfl : i = 0 := by simpa using hi
                                                 exact ⟨by simpa using h, rfl⟩⟩
  | refused h _ => exact ⟨by simp, fun i hi => by obtain rfl : i = 0 := by simpa using hi
                                                  exact ⟨by simpa using h, rfl⟩⟩
  | notStored h _ => exact ⟨by simp, fun i hi => by obtain rfl : i = 0 := by simpa using hi
                                                    exact ⟨by simpa using h, rfl⟩⟩
  | @rotated n t url data new ds out h ha _ ih =>
    refine ⟨by simp; exact ih.1, ?_⟩
    intro i hi
    cases i with
    | zero => exact ⟨by simpa using h, rfl⟩
    | succ i =>
      have := ih.2 i (by simpa using hi)
      refine ⟨?_, this.2⟩
      have e : wrap64 (t.root.signed.version + 1 + ((i + 1 : Nat) : Int)) = wrap64 (new.signed.version + 1 + i) := by
        rw [ha.version]
        unfold wrap64
        rw [show (t.root.signed.version + 1).bmod (2 ^ 64) + 1 + (i : Int) = (t.root.signed.version + 1).bmod (2 ^ 64) + (1 + (i : Int)) by omega,
          Int.bmod_add_bmod]
        congr 1
        omega
      rw [e]
      exact this.1

/-- C25: the root requests of an online `Refresh` are for consecutive versions, and not more than the limit; no later request is for a root. -/
theorem C25_consecutive_partial {x : Ctx} (hu : x.cfg.unsafeLocalMode = false) (s : St)
    (h0 : 0 ≤ x.cfg.maxRootRotations ∨ -(2 ^ 63) ≤ wrap64 (s.trusted.root.signed.version + 1) + x.cfg.maxRootRotations) (h1 : x.cfg.maxRootRotations < 2 ^ 63) :
    ∃ evs ds rest, (refresh x s).2.world.trace = s.world.trace ++ evs ∧ downloads evs = ds ++ rest ∧ (ds.length : Int) ≤ max 0 x.cfg.maxRootRotations ∧
      (∀ i (hi : i < ds.length),
        VersionedURL x.cfg.remoteMetadataURL b!"root" (wrap64 (s.trusted.root.signed.version + 1 + i)) ds[i].1 ∧ ds[i].2.1 = x.cfg.rootMaxLength) ∧
      (∀ d ∈ rest, ∀ v, ¬ VersionedURL x.cfg.remoteMetadataURL b!"root" v d.1) := by
  obtain ⟨evs, ds, rest, n, out, e1, e2, e3, e4, _, _, e5⟩ := C25_root_phase_partial hu s h0 h1
  obtain ⟨l1, l2⟩ := rootPhase_consecutive e3
  exact ⟨evs, ds, rest, e1, e2, by omega, l2, e5⟩

/-- Two rotations, then the end; and a forged root ends the update with an error. -/
example : urls (session { ctx with host := hostOf (fun u => if u = b!"u/2.root.json" then .ok [1, 2] else if u = b!"u/3.root.json" then .ok [1, 3] else server u) } []
    (refresh { ctx with host := hostOf (fun u => if u = b!"u/2.root.json" then .ok [1, 2] else if u = b!"u/3.root.json" then .ok [1, 3] else server u) })).2 =
    [b!"u/2.root.json", b!"u/3.root.json", b!"u/4.root.json", b!"u/timestamp.json", b!"u/4.snapshot.json", b!"u/4.targets.json"] ∧
    urls (session { ctx with host := hostOf (fun u => if u = b!"u/2.root.json" then .ok [1, 3] else server u) } []
    (refresh { ctx with host := hostOf (fun u => if u = b!"u/2.root.json" then .ok [1, 3] else server u) })).2 = [b!"u/2.root.json"] := by decide +kernel

/-! ## C26 -/

theorem try_never_ok {α : Type} {x : Ctx} {s : St} {role : Str} {update : Bytes → Trusted → Res α × Trusted} {e : Err}
    (hb : ∀ d, update d s.trusted = (.err e, s.trusted)) :
    (∃ o, (tryLocal x role update s).1 = .ok o ∨ (tryLocal x role update s).1 = .err e) ∧
    (tryLocal x role update s).2.trusted = s.trusted ∧ (tryLocal x role update s).2.world.fs = s.world.fs := by
  unfold tryLocal
  rcases hr : (if x.host.readFails s.world.trace (localPath x.cfg role) then none else s.world.fs (localPath x.cfg role)) with _ | d
  · have h := SM.try_err (readLocal (x := x) (role := role) (s := s) hr)
    rw [SM.bind_ok h]
    exact ⟨⟨none, .inl rfl⟩, rfl, rfl⟩
  · have h := SM.try_ok (readLocal (x := x) (role := role) (s := s) hr)
    rw [SM.bind_ok h]
    dsimp only
    have h2 : onTrusted (update d) { s with world := s.world.emit (.read (localPath x.cfg role) (some d)) } =
        (.err e, { s with world := s.world.emit (.read (localPath x.cfg role) (some d)) }) := by
      rw [onTrusted_apply]
      show ((update d s.trusted).1, _) = _
      rw [hb]
    rw [SM.bind_ok (SM.try_err h2)]
    dsimp only
    cases e.isRepository with
    | true => exact ⟨⟨none, .inl rfl⟩, rfl, rfl⟩
    | false => exact ⟨⟨none, .inr rfl⟩, rfl, rfl⟩

/-- With timestamp and snapshot loaded the root loop changes nothing. -/
theorem rootLoop_frozen {x : Ctx} (n : Nat) (v : Int) (s : St) (hts : s.trusted.timestamp.isSome) :
    (loadRootLoop x n v s).1 ≠ .panic ∧ (loadRootLoop x n v s).2.trusted = s.trusted ∧ (loadRootLoop x n v s).2.world.fs = s.world.fs := by
  cases n with
  | zero => exact ⟨by simp [loadRootLoop, SM.pure_apply], rfl, rfl⟩
  | succ n =>
    unfold loadRootLoop
    have hd := doFetch_apply x (metadataURL x.cfg.remoteMetadataURL ROOT (formatInt 10 v)) x.cfg.rootMaxLength s
    unfold downloadMetadata
    generalize metadataURL x.cfg.remoteMetadataURL ROOT (formatInt 10 v) = url at hd ⊢
    cases hr : x.host.fetch s.world.trace url x.cfg.rootMaxLength with
    | error e =>
      rw [hr] at hd
      rw [SM.bind_ok (SM.try_err hd)]
      cases e with
      | downloadHTTP status u =>
        dsimp only
        split
        · exact ⟨by simp [SM.throw_apply], rfl, rfl⟩
        · exact ⟨by simp [SM.pure_apply], rfl, rfl⟩
      | _ => exact ⟨by simp [SM.throw_apply], rfl, rfl⟩
    | ok data =>
      rw [hr] at hd
      rw [SM.bind_ok (SM.try_ok hd)]
      dsimp only
      rw [SM.bind_apply, onTrusted_apply]
      dsimp only
      rw [updateRoot_blocked hts]
      exact ⟨by simp, rfl, rfl⟩

theorem loadTimestamp_frozen {x : Ctx} {s : St} (hsn : s.trusted.snapshot.isSome) :
    (∃ e, (loadTimestamp x s).1 = .err e) ∧ (loadTimestamp x s).2.trusted = s.trusted ∧ (loadTimestamp x s).2.world.fs = s.world.fs := by
  unfold loadTimestamp
  have hl := try_never_ok (x := x) (s := s) (role := TIMESTAMP) (update := fun d t => t.updateTimestamp x.env d) (fun d => updateTimestamp_blocked hsn d)
  rw [SM.bind_apply]
  rcases ht : tryLocal x TIMESTAMP (fun d t => t.updateTimestamp x.env d) s with ⟨r, s1⟩
  rw [ht] at hl
  obtain ⟨⟨o, h1⟩, h2, h3⟩ := hl
  dsimp only at h1 h2 h3
  rcases h1 with rfl | rfl
  · dsimp only
    have hd := doFetch_apply x (metadataURL x.cfg.remoteMetadataURL TIMESTAMP []) x.cfg.timestampMaxLength s1
    unfold downloadMetadata
    generalize metadataURL x.cfg.remoteMetadataURL TIMESTAMP [] = url at hd ⊢
    cases hr : x.host.fetch s1.world.trace url x.cfg.timestampMaxLength with
    | error e =>
      rw [hr] at hd
      rw [SM.bind_err hd]
      exact ⟨⟨_, rfl⟩, h2, h3⟩
    | ok data =>
      rw [hr] at hd
      rw [SM.bind_ok hd]
      have h4 : ∀ w, onTrusted (fun t => t.updateTimestamp x.env data) { s1 with world := w } =
          (.err (.runtime "cannot update timestamp after snapshot"), { s1 with world := w }) := by
        intro w
        rw [onTrusted_apply]
        show ((Trusted.updateTimestamp x.env s1.trusted data).1, _) = _
        rw [updateTimestamp_blocked (by rw [h2]; exact hsn)]
      rw [SM.bind_ok (SM.try_err (h4 _))]
      exact ⟨⟨_, rfl⟩, h2, h3⟩
  · exact ⟨⟨_, rfl⟩, h2, h3⟩

/-- Once a snapshot is trusted, every `Refresh` returns an error and changes neither the trusted set nor any file. -/
theorem refresh_frozen {x : Ctx} {s'' : St} (hts : s''.trusted.timestamp.isSome) (hsn : s''.trusted.snapshot.isSome) :
    (∃ e, (refresh x s'').1 = .err e) ∧ (refresh x s'').2.trusted = s''.trusted ∧ (refresh x s'').2.world.fs = s''.world.fs := by
  unfold refresh
  split
  · unfold unsafeLocalRefresh
    rcases hr : (if x.host.readFails s''.world.trace (localPath x.cfg TIMESTAMP) then none else s''.world.fs (localPath x.cfg TIMESTAMP)) with _ | d
    · rw [SM.bind_err (readLocal (x := x) (role := TIMESTAMP) (s := s'') hr)]
      exact ⟨⟨_, rfl⟩, rfl, rfl⟩
    · rw [SM.bind_ok (readLocal (x := x) (role := TIMESTAMP) (s := s'') hr), SM.bind_apply, onTrusted_apply]
      dsimp only
      rw [updateTimestamp_blocked hsn]
      exact ⟨⟨_, rfl⟩, rfl, rfl⟩
  · unfold onlineRefresh loadRoot
    rw [SM.bind_apply]
    have hroot := rootLoop_frozen (x := x) (wrap64 (wrap64 (s''.trusted.root.signed.version + 1) + x.cfg.maxRootRotations) -
      wrap64 (s''.trusted.root.signed.version + 1)).toNat (wrap64 (s''.trusted.root.signed.version + 1)) s'' hts
    rw [SM.bind_ok (getTrusted_apply s'')]
    rcases hl : loadRootLoop x (wrap64 (wrap64 (s''.trusted.root.signed.version + 1) + x.cfg.maxRootRotations) -
      wrap64 (s''.trusted.root.signed.version + 1)).toNat (wrap64 (s''.trusted.root.signed.version + 1)) s'' with ⟨r, s1⟩
    rw [hl] at hroot
    obtain ⟨g1, g2, g3⟩ := hroot
    dsimp only at g1 g2 g3
    cases r with
    | panic => exact absurd rfl g1
    | err e => exact ⟨⟨e, rfl⟩, g2, g3⟩
    | ok u =>
      dsimp only
      obtain ⟨⟨e, k1⟩, k2, k3⟩ := loadTimestamp_frozen (x := x) (s := s1) (by rw [g2]; exact hsn)
      have : loadTimestamp x s1 = (.err e, (loadTimestamp x s1).2) := Prod.ext k1 rfl
      rw [SM.bind_err this]
      exact ⟨⟨e, rfl⟩, k2.trans g2, k3.trans g3⟩

/-- C26: after a successful `Refresh` and any further calls, every `Refresh` returns an error and changes neither the trusted set nor any file. -/
theorem C26_refresh_once {x : Ctx} {s s' s'' : St} (h : refresh x s = (.ok (), s')) (hs : Session x s' s'') :
    (∃ e, (refresh x s'').1 = .err e) ∧ (refresh x s'').2.trusted = s''.trusted ∧ (refresh x s'').2.world.fs = s''.world.fs := by
  obtain ⟨_, t1, data, m, _, h2, h3⟩ := refresh_accepted h
  obtain ⟨sn, ts, f, D, h4, h5, _⟩ := h2.snapshot
  obtain ⟨f1, f2, _⟩ := C12_frozen (session_history hs).history
  have hsn : s''.trusted.snapshot.isSome := (f2 (by rw [h3]; show t1.snapshot.isSome = true; rw [h4]; rfl)).2
  have hts : s''.trusted.timestamp.isSome := (f1 (by rw [h3]; show t1.timestamp.isSome = true; rw [h5]; rfl)).2
  exact refresh_frozen hts hsn

example : (session ctx [] (do refresh ctx; refresh ctx)).1 = .err (.runtime "cannot update timestamp after snapshot") := by decide +kernel

end Tuf
