import Verif.Spec.Updater
import Verif.Proofs.Trusted

/-! # Executions of the updater -/

namespace Tuf
open Spec

/-! ## The monad -/

namespace SM
variable {σ α β : Type}

theorem pure_apply (a : α) (s : σ) : (pure a : SM σ α) s = (.ok a, s) := rfl

theorem bind_apply (m : SM σ α) (f : α → SM σ β) (s : σ) :
    (m >>= f) s = match m s with
      | (.ok a, s') => f a s'
      | (.err e, s') => (.err e, s')
      | (.panic, s') => (.panic, s') := rfl

theorem bind_ok {m : SM σ α} {f : α → SM σ β} {s s1 : σ} {a : α} (h : m s = (.ok a, s1)) : (m >>= f) s = f a s1 := by
  rw [bind_apply, h]
theorem bind_err {m : SM σ α} {f : α → SM σ β} {s s1 : σ} {e : Err} (h : m s = (.err e, s1)) : (m >>= f) s = (.err e, s1) := by
  rw [bind_apply, h]
theorem bind_panic {m : SM σ α} {f : α → SM σ β} {s s1 : σ} (h : m s = (.panic, s1)) : (m >>= f) s = (.panic, s1) := by
  rw [bind_apply, h]

theorem bind_eq_ok {m : SM σ α} {f : α → SM σ β} {s s2 : σ} {b : β} :
    (m >>= f) s = (.ok b, s2) ↔ ∃ a s1, m s = (.ok a, s1) ∧ f a s1 = (.ok b, s2) := by
  rw [bind_apply]
  rcases h : m s with ⟨r, s1⟩
  cases r with
  | ok a =>
    constructor
    · intro h2; exact ⟨a, s1, rfl, h2⟩
    · rintro ⟨a', s1', h2, h3⟩; cases h2; exact h3
  | err e => simp
  | panic => simp

theorem try_eq_ok {m : SM σ α} {s s1 : σ} {a : Except Err α} :
    try' m s = (.ok a, s1) ↔ (∃ v, a = .ok v ∧ m s = (.ok v, s1)) ∨ (∃ e, a = .error e ∧ m s = (.err e, s1)) := by
  unfold try'
  rcases h : m s with ⟨r, s1⟩
  cases r with
  | ok a =>
    constructor
    · intro h2; cases h2; exact .inl ⟨_, rfl, rfl⟩
    · rintro (⟨v, rfl, h2⟩ | ⟨e, _, h2⟩) <;> cases h2
      rfl
  | err e =>
    constructor
    · intro h2; cases h2; exact .inr ⟨_, rfl, rfl⟩
    · rintro (⟨v, _, h2⟩ | ⟨e, rfl, h2⟩) <;> cases h2
      rfl
  | panic => simp

theorem try_snd (m : SM σ α) (s : σ) : (try' m s).2 = (m s).2 := by
  unfold try'
  rcases h : m s with ⟨r, s1⟩
  cases r <;> rfl

theorem lift_apply (r : Res α) (s : σ) : lift r s = (r, s) := rfl
theorem throw_apply (e : Err) (s : σ) : (throw e : SM σ α) s = (.err e, s) := rfl
theorem panic_apply (s : σ) : (panic : SM σ α) s = (.panic, s) := rfl

end SM

theorem onWorld_apply {α : Type} (m : W α) (s : St) : onWorld m s = ((m s.world).1, { s with world := (m s.world).2 }) := by
  unfold onWorld; rfl
theorem onTrusted_apply {α : Type} (f : Trusted → Res α × Trusted) (s : St) :
    onTrusted f s = ((f s.trusted).1, { s with trusted := (f s.trusted).2 }) := rfl
theorem getTrusted_apply (s : St) : getTrusted s = (.ok s.trusted, s) := rfl

theorem onWorld_trusted {α : Type} {m : W α} {s s1 : St} {r : Res α} (h : onWorld m s = (r, s1)) : s1.trusted = s.trusted := by
  rw [onWorld_apply] at h
  cases h; rfl

theorem try_trusted {α : Type} {m : M α} {s s1 : St} {r : Res (Except Err α)} (h : SM.try' m s = (r, s1))
    (hm : (m s).2.trusted = s.trusted) : s1.trusted = s.trusted := by
  have h2 : s1 = (m s).2 := by rw [← SM.try_snd m s, h]
  rw [h2]; exact hm

/-! ## Executions -/

section
variable {x : Ctx} {P : St → Event → Prop}

theorem Spec.Exec.trans {a b c : St} (h1 : Exec x P a b) (h2 : Exec x P b c) : Exec x P a c := by
  induction h2 with
  | refl => exact h1
  | event e _ hp ih => exact .event e ih hp
  | call c _ hc ih => exact .call c ih hc

theorem Spec.ClientHistory.trans {env : Env} {a b c : Trusted} (h1 : ClientHistory env a b) (h2 : ClientHistory env b c) : ClientHistory env a c := by
  induction h2 with
  | refl => exact h1
  | step c _ hc ih => exact .step c ih hc

theorem Spec.ClientHistory.history {env : Env} {a b : Trusted} (h : ClientHistory env a b) : History env a b := by
  induction h with
  | refl => exact .refl
  | step c _ _ ih => exact .step c ih

theorem Spec.UpdaterCall.client {t : Trusted} {c : Call} (h : UpdaterCall t c) : ClientCall t c := by
  cases c with
  | targets d r p => exact h.2.imp (·.1) id
  | _ => trivial

theorem Spec.Exec.history {a b : St} (h : Exec x P a b) : ClientHistory x.env a.trusted b.trusted := by
  induction h with
  | refl => exact .refl
  | event e _ _ ih => exact ih
  | call c _ hc ih => exact .step c ih hc.client

theorem Spec.Exec.mono {Q : St → Event → Prop} {a b : St} (h : Exec x P a b)
    (hpq : ∀ s e, ClientHistory x.env a.trusted s.trusted → P s e → Q s e) : Exec x Q a b := by
  induction h with
  | refl => exact .refl
  | event e h hp ih => exact .event e ih (hpq _ _ h.history hp)
  | call c _ hc ih => exact .call c ih hc

/-- The events of an execution: appended to the trace, applied to the files. -/
theorem Spec.Exec.events {a b : St} (h : Exec x P a b) :
    ∃ evs, b.world.trace = a.world.trace ++ evs ∧ b.world.fs = replay a.world.fs evs := by
  induction h with
  | refl => exact ⟨[], by simp, rfl⟩
  | event e _ _ ih =>
    obtain ⟨evs, h1, h2⟩ := ih
    exact ⟨evs ++ [e], by simp [World.emit, h1], by simp [World.emit, h2, replay]⟩
  | call c _ _ ih => exact ih

/-- Every event of an execution was admissible in a state reached before it. -/
theorem Spec.Exec.at {a b : St} (h : Exec x P a b) {before : List Event} {e : Event} {after : List Event}
    (ht : b.world.trace = a.world.trace ++ (before ++ e :: after)) :
    ∃ s, Exec x P a s ∧ s.world.trace = a.world.trace ++ before ∧ s.world.fs = replay a.world.fs before ∧ P s e := by
  induction h generalizing after with
  | refl => exact absurd ht (by simp)
  | event e' h hp ih =>
    rename_i s'
    simp only [World.emit] at ht
    rcases List.eq_nil_or_concat after with rfl | ⟨l, last, rfl⟩
    · have h2 : s'.world.trace ++ [e'] = (a.world.trace ++ before) ++ [e] := by rw [ht]; simp
      obtain ⟨h3, h4⟩ := List.append_inj' h2 rfl
      injection h4 with h4
      subst h4
      obtain ⟨evs, h5, h6⟩ := h.events
      have : evs = before := by rw [h3] at h5; exact (List.append_cancel_left h5).symm
      subst this
      exact ⟨s', h, h3, h6, hp⟩
    · have h2 : s'.world.trace ++ [e'] = (a.world.trace ++ (before ++ e :: l)) ++ [last] := by rw [ht]; simp
      obtain ⟨h3, _⟩ := List.append_inj' h2 rfl
      exact ih h3
  | call c _ _ ih => exact ih ht

theorem exec_bind {α β : Type} {m : M α} {f : α → M β} {s : St} (h1 : Exec x P s (m s).2)
    (h2 : ∀ a s1, m s = (.ok a, s1) → Exec x P s1 (f a s1).2) : Exec x P s ((m >>= f) s).2 := by
  rw [SM.bind_apply]
  rcases h : m s with ⟨r, s1⟩
  rw [h] at h1
  cases r with
  | ok a => exact h1.trans (h2 a s1 h)
  | err e => exact h1
  | panic => exact h1

theorem exec_pure {α : Type} {a : α} {s : St} : Exec x P s ((pure a : M α) s).2 := .refl
theorem exec_throw {α : Type} {e : Err} {s : St} : Exec x P s ((SM.throw e : M α) s).2 := .refl
theorem exec_lift {α : Type} {r : Res α} {s : St} : Exec x P s ((SM.lift r : M α) s).2 := .refl
theorem exec_getTrusted {s : St} : Exec x P s (getTrusted s).2 := .refl
theorem exec_try {α : Type} {m : M α} {s : St} (h : Exec x P s (m s).2) : Exec x P s (SM.try' m s).2 := by
  rw [SM.try_snd]; exact h

/-- World code inside an updater: the trusted set stays. -/
def ExecW (x : Ctx) (P : St → Event → Prop) {α : Type} (m : W α) : Prop := ∀ s : St, Exec x P s { s with world := (m s.world).2 }

theorem exec_one {s : St} {e : Event} {w : World} (hw : w = s.world.emit e) (hp : P s e) : Exec x P s { s with world := w } := by
  subst hw
  exact .event e .refl hp

theorem exec_onWorld {α : Type} {m : W α} {s : St} (h : Exec x P s { s with world := (m s.world).2 }) : Exec x P s (onWorld m s).2 := by
  rw [onWorld_apply]; exact h

theorem exec_call {α : Type} {f : Trusted → Res α × Trusted} {s : St} (c : Call)
    (hc : UpdaterCall s.trusted c) (hf : (c.run x.env s.trusted).2 = (f s.trusted).2) : Exec x P s (onTrusted f s).2 := by
  rw [onTrusted_apply, ← hf]
  exact .call c .refl hc

end

/-! ## 64-bit arithmetic -/

theorem wrap64_bounds (n : Int) : -(2 ^ 63) ≤ wrap64 n ∧ wrap64 n < 2 ^ 63 := by
  unfold wrap64
  rw [Int.bmod_def]
  split <;> omega

theorem wrap64_of_bounds {n : Int} (h1 : -(2 ^ 63) ≤ n) (h2 : n < 2 ^ 63) : wrap64 n = n := by
  unfold wrap64
  rw [Int.bmod_def]
  split <;> omega

/-! ## URLs and lengths -/

theorem slashBase (base : Str) : SlashBase base (ensureTrailingSlash base) := by
  unfold ensureTrailingSlash SlashBase hasSuffix
  by_cases h : List.isSuffixOf b!"/" base = true
  · rw [if_pos h]; exact .inl ⟨rfl, List.isSuffixOf_iff_suffix.1 h⟩
  · rw [if_neg h]; exact .inr ⟨rfl, fun h' => h (List.isSuffixOf_iff_suffix.2 h')⟩

theorem plainURL (base role : Str) : PlainURL base role (metadataURL base role []) :=
  ⟨_, slashBase base, by unfold metadataURL; rw [if_pos rfl]⟩

theorem formatNat_ne_nil (b n : Nat) : formatNat b n ≠ [] := by
  unfold formatNat digits digitsAux
  split
  · simp
  · simp

theorem formatInt_ne_nil (b : Nat) (n : Int) : formatInt b n ≠ [] := by
  unfold formatInt
  split
  · simp
  · exact formatNat_ne_nil _ _

theorem versionedURL (base role : Str) (v : Int) : VersionedURL base role v (metadataURL base role (formatInt 10 v)) :=
  ⟨_, slashBase base, by unfold metadataURL; rw [if_neg (formatInt_ne_nil _ _)]⟩

theorem roleURL (x : Ctx) (t : Trusted) (role : Str) (f : MetaFiles) :
    RoleURL x t role f.version (metadataURL x.cfg.remoteMetadataURL role (metaVersion t f)) := by
  unfold metaVersion RoleURL
  cases t.root.signed.consistentSnapshot with
  | true => exact .inl ⟨rfl, versionedURL _ _ _⟩
  | false => exact .inr ⟨rfl, plainURL _ _⟩

theorem lengthLimit (f : MetaFiles) (max : Int) : LengthLimit f.length max (metaLength f max) := by
  unfold metaLength LengthLimit
  by_cases h : f.length = 0
  · rw [if_pos h]; exact .inr ⟨h, rfl⟩
  · rw [if_neg h]; exact .inl ⟨h, rfl⟩

/-! ## Primitive operations -/

section
variable {x : Ctx} {ex : Extra} {J : Trusted → Str → Bytes → Prop}

theorem exec_fetch {s : St} {url : Str} {n : Int}
    (h : ex.metadata ∧ (x.cfg.unsafeLocalMode = true → (s.trusted.targets.get? b!"targets").isSome) ∧ MetadataRequest x s.trusted url n ∨ ex.fetch url n) :
    Exec x (EventOk x ex J) s { s with world := (doFetch x.host url n s.world).2 } := by
  refine exec_one (e := .fetch url n (x.host.fetch s.world.trace url n)) ?_ ⟨rfl, h⟩
  unfold doFetch
  cases x.host.fetch s.world.trace url n <;> rfl

theorem readFile_snd (h : Host) (path : Str) (w : World) :
    (readFile h path w).2 = w.emit (.read path (if h.readFails w.trace path then none else w.fs path)) := by
  unfold readFile
  dsimp only
  generalize (if h.readFails w.trace path = true then none else w.fs path) = r
  cases r <;> rfl

theorem exec_read {s : St} {path : Str} : Exec x (EventOk x ex J) s { s with world := (readFile x.host path s.world).2 } := by
  refine exec_one (readFile_snd _ _ _) ?_
  show _ ∨ _
  by_cases h : x.host.readFails s.world.trace path = true
  · rw [if_pos h]; exact .inl rfl
  · rw [if_neg h]; exact .inr rfl

theorem exec_iterate {α : Type} {s : St} {es : List α} : Exec x (EventOk x ex J) s { s with world := (iterateMap x.host es s.world).2 } :=
  exec_one rfl trivial

theorem exec_mkdir {s : St} {path : Str} (hc : x.cfg.disableLocalCache = false) :
    Exec x (EventOk x ex J) s { s with world := (mkdirAll x.host path s.world).2 } := by
  refine exec_one (e := .mkdir path (path ≠ [] && !x.host.mkdirFails s.world.trace path)) ?_ hc
  unfold mkdirAll
  dsimp only
  split <;> rfl

theorem exec_writeFile {s : St} {path : Str} {data : Bytes} (hc : x.cfg.disableLocalCache = false)
    (h : TempName path ∨ ex.file path) :
    Exec x (EventOk x ex J) s { s with world := (writeFile x.host path data s.world).2 } := by
  unfold writeFile
  split
  · exact exec_one rfl hc
  · dsimp only
    have : ∀ b, Exec x (EventOk x ex J) s { s with world := (s.world.emit (.truncate path)).emit (.write path b) } := by
      intro b
      have h1 : Exec x (EventOk x ex J) s { s with world := s.world.emit (.truncate path) } := exec_one rfl ⟨hc, h⟩
      exact h1.trans (exec_one (s := { s with world := s.world.emit (.truncate path) }) rfl ⟨hc, h⟩)
    split <;> exact this _

theorem writeFile_ok {h : Host} {path : Str} {data : Bytes} {w w' : World} (hw : writeFile h path data w = (.ok (), w')) :
    w'.fs path = some data := by
  unfold writeFile at hw
  split at hw
  · cases hw
  · dsimp only at hw
    split at hw
    · cases hw
    · next hn =>
      cases hw
      show (if path = path then some _ else _) = some data
      rw [if_pos rfl, List.take_of_length_le (by omega)]

theorem exec_createTemp {s : St} (hc : x.cfg.disableLocalCache = false) :
    Exec x (EventOk x ex J) s { s with world := (createTemp x.host s.world).2 } := by
  unfold createTemp
  split
  · next cwd n _ _ =>
    dsimp only
    split
    · exact exec_one rfl hc
    · next hn => exact exec_one rfl ⟨hc, ⟨cwd, n, rfl⟩, by simpa using hn⟩
  · exact exec_one rfl hc

theorem createTemp_name {h : Host} {w w' : World} {f : Str} (hw : createTemp h w = (.ok f, w')) : TempName f := by
  unfold createTemp at hw
  split at hw
  · next cwd n _ _ =>
    dsimp only at hw
    split at hw
    · cases hw
    · cases hw; exact ⟨cwd, n, rfl⟩
  · cases hw

theorem exec_remove {s : St} {path : Str} (hc : x.cfg.disableLocalCache = false) (h : TempName path) :
    Exec x (EventOk x ex J) s { s with world := (removeFile x.host path s.world).2 } := by
  unfold removeFile
  split
  · exact exec_one rfl hc
  · exact exec_one rfl ⟨hc, h⟩

/-- Persisting justified bytes. -/
theorem exec_persist {s : St} {role : Str} {data : Bytes} (hj : J s.trusted role data) :
    Exec x (EventOk x ex J) s { s with world := (persistMetadata x role data s.world).2 } := by
  unfold persistMetadata
  split
  · exact .refl
  · next hc =>
    have hc : x.cfg.disableLocalCache = false := by simpa using hc
    rw [SM.bind_apply]
    have h1 := exec_createTemp (x := x) (ex := ex) (J := J) (s := s) hc
    rcases ht : createTemp x.host s.world with ⟨r, w1⟩
    rw [ht] at h1
    cases r with
    | err e => exact h1
    | panic => exact h1
    | ok f =>
      have hf := createTemp_name ht
      refine h1.trans ?_
      dsimp only
      rw [SM.bind_apply]
      have h2 := exec_writeFile (x := x) (ex := ex) (J := J) (s := { s with world := w1 }) (path := f) (data := data) hc (.inl hf)
      unfold SM.try'
      rcases hw : writeFile x.host f data w1 with ⟨r2, w2⟩
      simp only [hw] at h2
      cases r2 with
      | panic => exact h2
      | err e =>
        refine h2.trans ?_
        dsimp only
        rw [SM.bind_apply]
        have h3 := exec_remove (x := x) (ex := ex) (J := J) (s := { s with world := w2 }) hc hf
        rcases hr : removeFile x.host f w2 with ⟨r3, w3⟩
        simp only [hr] at h3
        cases r3 <;> exact h3
      | ok u =>
        refine h2.trans ?_
        dsimp only
        unfold renameFile
        split
        · exact exec_one rfl hc
        · exact exec_one rfl ⟨hc, hf, role, data, rfl, writeFile_ok hw, hj⟩

end

/-! ## Loading roles -/

section
variable {x : Ctx} {ex : Extra} {T : Trusted}

/-- The events allowed in calls that began with trusted set `T`. -/
abbrev Ev (x : Ctx) (ex : Extra) (T : Trusted) : St → Event → Prop := EventOk x ex (JustAccepted x.env T)

theorem outcome_ok {α : Type} {r : Res α} {a : α} (h : r = .ok a) : outcome r = .ok () := by rw [h]; rfl

theorem exec_tryLocal {α : Type} {s : St} {role : Str} {update : Bytes → Trusted → Res α × Trusted}
    (hc : ∀ data t, ∃ c : Call, (c.run x.env t).2 = (update data t).2 ∧ (t = s.trusted → UpdaterCall t c)) :
    Exec x (Ev x ex T) s (tryLocal x role update s).2 := by
  unfold tryLocal
  refine exec_bind (exec_try (exec_onWorld exec_read)) ?_
  intro a s1 h
  have hs : s1.trusted = s.trusted := try_trusted h rfl
  cases a with
  | error e => exact .refl
  | ok data =>
    refine exec_bind (exec_try ?_) ?_
    · obtain ⟨c, h1, h2⟩ := hc data s1.trusted
      exact exec_call c (h2 hs) h1
    · intro b s2 _
      cases b with
      | ok a => exact .refl
      | error e =>
        dsimp only
        split <;> exact .refl

/-- Facts about a state during the online part of an execution. -/
theorem exec_rootLoop (hm : ex.metadata) (hu : x.cfg.unsafeLocalMode = false) (n : Nat) (v : Int) (s : St) (hT : ClientHistory x.env T s.trusted)
    (hv : v = wrap64 (s.trusted.root.signed.version + 1)) (hb : v + n < 2 ^ 63) :
    Exec x (Ev x ex T) s (loadRootLoop x n v s).2 := by
  induction n generalizing v s with
  | zero => exact .refl
  | succ n ih =>
    unfold loadRootLoop
    refine exec_bind (exec_try (exec_onWorld ?_)) ?_
    · refine exec_fetch (.inl ⟨hm, fun h => absurd (hu.symm.trans h) (by simp), ?_⟩)
      rw [hv]
      exact .root (versionedURL _ _ _)
    · intro a s1 h
      have hs : s1.trusted = s.trusted := try_trusted h rfl
      split
      · split
        · exact exec_throw
        · exact exec_pure
      · exact exec_throw
      · next data =>
        refine exec_bind (exec_call (.root data) trivial rfl) ?_
        intro r s2 h2
        rw [onTrusted_apply] at h2
        rcases updateRoot_cases x.env s1.trusted data with ⟨new, h3, h4⟩ | ⟨e, h3⟩ | h3
        · rw [h3] at h2
          have h5 : s2 = { s1 with trusted := { s1.trusted with root := new } } := by cases h2; rfl
          have hacc : JustAccepted x.env T s2.trusted ROOT data := by
            refine ⟨.root data, s1.trusted, ⟨rfl, rfl⟩, hs ▸ hT, trivial, ?_⟩
            simp only [Call.run, h3, h5, outcome]
          have hT2 : ClientHistory x.env T s2.trusted := by
            have := ClientHistory.step (env := x.env) (.root data) (hs ▸ hT : ClientHistory x.env T s1.trusted) trivial
            rw [Call.run] at this
            simpa only [h3, h5] using this
          refine exec_bind (exec_onWorld (exec_persist hacc)) ?_
          intro u s3 h6
          have h7 : s3.trusted = s2.trusted := onWorld_trusted h6
          refine ih (v + 1) s3 (h7 ▸ hT2) ?_ (by omega)
          rw [h7, h5]
          show v + 1 = wrap64 (new.signed.version + 1)
          rw [h4.version, hs, ← hv]
          have := (wrap64_bounds (s.trusted.root.signed.version + 1)).1
          rw [← hv] at this
          exact (wrap64_of_bounds (by omega) (by omega)).symm
        · rw [h3] at h2; cases h2
        · rw [h3] at h2; cases h2

theorem exec_loadRoot (hm : ex.metadata) (hu : x.cfg.unsafeLocalMode = false) {s : St} (hT : ClientHistory x.env T s.trusted) :
    Exec x (Ev x ex T) s (loadRoot x s).2 := by
  unfold loadRoot
  refine exec_bind exec_getTrusted ?_
  intro t s1 h
  cases h
  refine exec_rootLoop hm hu _ _ _ hT rfl ?_
  have h1 := wrap64_bounds (s.trusted.root.signed.version + 1)
  have h2 := wrap64_bounds (wrap64 (s.trusted.root.signed.version + 1) + x.cfg.maxRootRotations)
  omega

theorem onTrusted_ok {α : Type} {update : Trusted → Res α × Trusted} {s s1 : St} {v : α} (h : onTrusted update s = (.ok v, s1)) :
    update s.trusted = (.ok v, s1.trusted) ∧ s1.world = s.world := by
  rw [onTrusted_apply, Prod.mk.injEq] at h
  rw [← h.2]
  exact ⟨Prod.ext h.1 rfl, rfl⟩

theorem justAccepted {α : Type} {s s1 : St} {role : Str} {data : Bytes} {update : Trusted → Res α × Trusted} {c : Call} {v : α}
    (hT : ClientHistory x.env T s.trusted) (hr : c.run x.env s.trusted = (outcome (update s.trusted).1, (update s.trusted).2))
    (ho : c.Offers role data) (hc : UpdaterCall s.trusted c) (h : onTrusted update s = (.ok v, s1)) :
    JustAccepted x.env T s1.trusted role data := by
  refine ⟨c, s.trusted, ho, hT, hc, ?_⟩
  rw [hr, (onTrusted_ok h).1]; rfl

/-- A remote document is offered and, if accepted, persisted. -/
theorem exec_offer {α β : Type} {s : St} {role : Str} {data : Bytes} {update : Trusted → Res α × Trusted} {c : Call}
    {k : Except Err α → M β} (hT : ClientHistory x.env T s.trusted) (hr : c.run x.env s.trusted = (outcome (update s.trusted).1, (update s.trusted).2))
    (ho : c.Offers role data) (hc : UpdaterCall s.trusted c)
    (hk : ∀ a s1, JustAccepted x.env T s1.trusted role data → Exec x (Ev x ex T) s1 (k (.ok a) s1).2)
    (he : ∀ e s1, Exec x (Ev x ex T) s1 (k (.error e) s1).2) :
    Exec x (Ev x ex T) s ((SM.try' (onTrusted update) >>= k) s).2 := by
  refine exec_bind (exec_try (exec_call c hc (by rw [hr]))) ?_
  intro a s1 h
  rcases SM.try_eq_ok.1 h with ⟨v, rfl, h2⟩ | ⟨e, rfl, _⟩
  · exact hk v s1 (justAccepted hT hr ho hc h2)
  · exact he e s1

theorem exec_loadTimestamp (hm : ex.metadata) (hu : x.cfg.unsafeLocalMode = false) {s : St} (hT : ClientHistory x.env T s.trusted) :
    Exec x (Ev x ex T) s (loadTimestamp x s).2 := by
  unfold loadTimestamp
  have hl : Exec x (Ev x ex T) s (tryLocal x TIMESTAMP (fun data t => t.updateTimestamp x.env data) s).2 :=
    exec_tryLocal (fun data t => ⟨.timestamp data, rfl, fun _ => trivial⟩)
  refine exec_bind hl ?_
  intro o s1 h1
  have hT1 : ClientHistory x.env T s1.trusted := by
    have := hT.trans hl.history
    rwa [h1] at this
  refine exec_bind (exec_onWorld (exec_fetch (.inl ⟨hm, fun h => absurd (hu.symm.trans h) (by simp), .timestamp (plainURL _ _)⟩))) ?_
  intro data s2 h2
  have hT2 : ClientHistory x.env T s2.trusted := by rw [onWorld_trusted h2]; exact hT1
  refine exec_offer (c := .timestamp data) (role := TIMESTAMP) (data := data) hT2 rfl ⟨rfl, rfl⟩ trivial ?_ ?_
  · intro a s3 h3
    exact exec_onWorld (exec_persist h3)
  · intro e s3
    dsimp only
    split <;> exact .refl

theorem exec_loadSnapshot (hm : ex.metadata) (hu : x.cfg.unsafeLocalMode = false) {s : St} (hT : ClientHistory x.env T s.trusted) :
    Exec x (Ev x ex T) s (loadSnapshot x s).2 := by
  unfold loadSnapshot
  have hl : Exec x (Ev x ex T) s (tryLocal x SNAPSHOT (fun data t => t.updateSnapshot x.env data true) s).2 :=
    exec_tryLocal (fun data t => ⟨.snapshot data true, rfl, fun _ => trivial⟩)
  refine exec_bind hl ?_
  intro o s1 h1
  have hT1 : ClientHistory x.env T s1.trusted := by
    have := hT.trans hl.history
    rwa [h1] at this
  cases o with
  | some m => exact .refl
  | none =>
    refine exec_bind exec_getTrusted ?_
    intro t s1' h1'
    cases h1'
    cases hts : s1.trusted.timestamp with
    | none => exact .refl
    | some ts =>
      refine exec_bind exec_lift ?_
      intro f s2 hf
      have hf' : Res.deref (ts.signed.metas.ptr (jsonName SNAPSHOT)) = .ok f ∧ s2 = s1 := by
        rw [SM.lift_apply, Prod.mk.injEq] at hf; exact ⟨hf.1, hf.2.symm⟩
      obtain ⟨hf', rfl⟩ := hf'
      rw [Res.deref_eq_ok, ptr_eq_some] at hf'
      refine exec_bind (exec_onWorld (exec_fetch (.inl ⟨hm, fun h => absurd (hu.symm.trans h) (by simp),
        .snapshot hts hf' (roleURL x _ _ f) (lengthLimit f _)⟩))) ?_
      intro data s3 h3
      have hT3 : ClientHistory x.env T s3.trusted := by rw [onWorld_trusted h3]; exact hT1
      refine exec_bind (exec_call (.snapshot data false) trivial rfl) ?_
      intro m s4 h4
      exact exec_onWorld (exec_persist (justAccepted (c := .snapshot data false) hT3 rfl ⟨rfl, rfl, rfl⟩ trivial h4))

theorem targets_isSome_mono {env : Env} {t : Trusted} {c : Call} {r : Str} (h : (t.targets.get? r).isSome) :
    ((c.run env t).2.targets.get? r).isSome := by
  have hch := run_change env t c
  generalize (c.run env t).2 = t' at hch
  cases hch with
  | none => exact h
  | root _ => exact h
  | timestamp _ => exact h
  | snapshot _ => exact h
  | targets _ =>
    rw [Entries.get?_set]
    split
    · rfl
    · exact h

theorem history_isSome {env : Env} {t t' : Trusted} {r : Str} (h : ClientHistory env t t') (hs : (t.targets.get? r).isSome) :
    (t'.targets.get? r).isSome := by
  induction h with
  | refl => exact hs
  | step c _ _ ih => exact targets_isSome_mono ih

/-- A local targets role that is not used leaves the trusted set as it was. -/
theorem tryLocal_targets_none {s s1 : St} {role r p : Str}
    (h : tryLocal x role (fun data t => t.updateDelegatedTargets x.env data r p) s = (.ok none, s1)) : s1.trusted = s.trusted := by
  unfold tryLocal at h
  obtain ⟨a, s2, h1, h⟩ := SM.bind_eq_ok.1 h
  have hs : s2.trusted = s.trusted := try_trusted h1 rfl
  cases a with
  | error e => cases h; exact hs
  | ok data =>
    obtain ⟨b, s3, h2, h⟩ := SM.bind_eq_ok.1 h
    cases b with
    | ok a => cases h
    | error e =>
      dsimp only at h
      split at h <;> cases h
      rcases SM.try_eq_ok.1 h2 with ⟨v, h3, _⟩ | ⟨e, _, h3⟩
      · cases h3
      · rw [onTrusted_apply, Prod.mk.injEq] at h3
        dsimp only at h3
        rcases updateTargets_cases x.env s2.trusted data r p with ⟨n, h4, _⟩ | ⟨e, h4⟩ | h4
        · rw [h4] at h3; cases h3.1
        · rw [← h3.2, h4]; exact hs
        · rw [h4] at h3; cases h3.1

/-- Once a snapshot has been accepted there is no top-level targets role. -/
theorem snapshot_early {s s1 s2 : St} {d : Bytes} {b : Bool} {m : Metadata SnapshotType} {α : Type} {w : W α} {v : α}
    (h : onTrusted (fun t => t.updateSnapshot x.env d b) s = (.ok m, s1)) (h2 : onWorld w s1 = (.ok v, s2)) :
    s2.trusted.targets.get? TARGETS = none := by
  rw [onWorld_trusted h2]
  rw [onTrusted_apply, Prod.mk.injEq] at h
  rcases updateSnapshot_cases x.env s.trusted d b with ⟨n, h3, h4, _⟩ | ⟨e, h3⟩ | h3
  · rw [← h.2, h4]; exact h3.early
  · rw [h3] at h; cases h.1
  · rw [h3] at h; cases h.1

theorem exec_loadTargets (hm : ex.metadata) {s : St} {role parent : Str} (hT : ClientHistory x.env T s.trusted)
    (hr : (role = TARGETS ∧ parent = ROOT) ∨ (s.trusted.targets.get? TARGETS).isSome)
    (hu : x.cfg.unsafeLocalMode = true → (s.trusted.targets.get? TARGETS).isSome) :
    Exec x (Ev x ex T) s (loadTargets x role parent s).2 := by
  unfold loadTargets
  refine exec_bind exec_getTrusted ?_
  intro t s0 h0
  cases h0
  cases hg : s.trusted.targets.get? role with
  | some m => exact .refl
  | none =>
    have hl : Exec x (Ev x ex T) s (tryLocal x role (fun data t => t.updateDelegatedTargets x.env data role parent) s).2 :=
      exec_tryLocal (fun data t => ⟨.targets data role parent, rfl, fun ht => by rw [ht]; exact ⟨hg, hr⟩⟩)
    refine exec_bind hl ?_
    intro o s1 h1
    have hh : ClientHistory x.env s.trusted s1.trusted := by
      have := hl.history
      rwa [h1] at this
    have hT1 : ClientHistory x.env T s1.trusted := hT.trans hh
    cases o with
    | some m => exact .refl
    | none =>
      refine exec_bind exec_getTrusted ?_
      intro t s1' h1'
      cases h1'
      cases hsn : s1.trusted.snapshot with
      | none => exact .refl
      | some sn =>
        refine exec_bind exec_lift ?_
        intro f s2 hf
        have hf' : Res.deref (sn.signed.metas.ptr (jsonName role)) = .ok f ∧ s2 = s1 := by
          rw [SM.lift_apply, Prod.mk.injEq] at hf; exact ⟨hf.1, hf.2.symm⟩
        obtain ⟨hf', rfl⟩ := hf'
        rw [Res.deref_eq_ok, ptr_eq_some] at hf'
        refine exec_bind (exec_onWorld (exec_fetch (.inl ⟨hm, fun h => history_isSome hh (hu h),
          .targets hsn hf' (roleURL x _ _ f) (lengthLimit f _)⟩))) ?_
        intro data s3 h3
        have ht3 := onWorld_trusted h3
        have hT3 : ClientHistory x.env T s3.trusted := by rw [ht3]; exact hT1
        have hcc : UpdaterCall s3.trusted (.targets data role parent) := by
          rw [ht3]
          exact ⟨by rw [tryLocal_targets_none h1]; exact hg, hr.imp id (history_isSome hh)⟩
        refine exec_bind (exec_call (.targets data role parent) hcc rfl) ?_
        intro m s4 h4
        refine exec_bind (exec_onWorld (exec_persist (justAccepted (c := .targets data role parent) hT3 rfl ⟨rfl, rfl⟩ hcc h4))) ?_
        intro _ _ _
        exact .refl

theorem history_of_exec {s s1 : St} {α : Type} {m : M α} {r : Res α} (hT : ClientHistory x.env T s.trusted)
    (he : Exec x (Ev x ex T) s (m s).2) (h : m s = (r, s1)) : ClientHistory x.env T s1.trusted := by
  have := hT.trans he.history
  rwa [h] at this

theorem exec_refresh (hm : ex.metadata) {s : St} (hT : ClientHistory x.env T s.trusted) : Exec x (Ev x ex T) s (refresh x s).2 := by
  unfold refresh
  split
  · unfold unsafeLocalRefresh
    refine exec_bind (exec_onWorld exec_read) ?_
    intro d1 s1 _
    refine exec_bind (exec_call (.timestamp d1) trivial rfl) ?_
    intro _ s2 _
    refine exec_bind (exec_onWorld exec_read) ?_
    intro d2 s3 _
    refine exec_bind (exec_call (.snapshot d2 false) trivial rfl) ?_
    intro _ s4 h4
    refine exec_bind (exec_onWorld exec_read) ?_
    intro d3 s5 h5
    refine exec_bind (exec_call (.targets d3 TARGETS ROOT) ⟨snapshot_early h4 h5, .inl ⟨rfl, rfl⟩⟩ rfl) ?_
    intro _ s6 _
    exact .refl
  · next hu =>
    have hu : x.cfg.unsafeLocalMode = false := by simpa using hu
    unfold onlineRefresh
    have e1 := exec_loadRoot hm hu hT
    refine exec_bind e1 ?_
    intro _ s1 h1
    have hT1 := history_of_exec hT e1 h1
    have e2 := exec_loadTimestamp hm hu hT1
    refine exec_bind e2 ?_
    intro _ s2 h2
    have hT2 := history_of_exec hT1 e2 h2
    have e3 := exec_loadSnapshot hm hu hT2
    refine exec_bind e3 ?_
    intro _ s3 h3
    have hT3 := history_of_exec hT2 e3 h3
    refine exec_bind (exec_loadTargets hm hT3 (.inl ⟨rfl, rfl⟩) (fun h => absurd (hu.symm.trans h) (by simp))) ?_
    intro _ _ _
    exact .refl

/-! ## The delegation search -/

theorem tryLocal_some {α : Type} {s s1 : St} {role : Str} {update : Bytes → Trusted → Res α × Trusted} {a : α}
    (h : tryLocal x role update s = (.ok (some a), s1)) :
    ∃ data, s.world.fs (localPath x.cfg role) = some data ∧ update data s.trusted = (.ok a, s1.trusted) := by
  unfold tryLocal at h
  obtain ⟨o, s2, h1, h2⟩ := SM.bind_eq_ok.1 h
  cases o with
  | error e => cases h2
  | ok data =>
    obtain ⟨b, s3, h3, h4⟩ := SM.bind_eq_ok.1 h2
    rcases SM.try_eq_ok.1 h1 with ⟨v, hv, h1'⟩ | ⟨e, he, _⟩
    · cases hv
      have ht := onWorld_trusted h1'
      rcases SM.try_eq_ok.1 h3 with ⟨v, rfl, h3'⟩ | ⟨e, rfl, _⟩
      · cases h4
        refine ⟨data, ?_, ?_⟩
        · rw [onWorld_apply] at h1'
          have h5 : (readFile x.host (localPath x.cfg role) s.world).1 = .ok data := congrArg Prod.fst h1'
          unfold readFile at h5
          dsimp only at h5
          split at h5
          · next hb =>
            have h5 : Res.ok _ = Res.ok data := h5
            cases h5
            split at hb
            · cases hb
            · exact hb
          · cases h5
        · rw [← ht]; exact (onTrusted_ok h3').1
      · dsimp only at h4
        split at h4 <;> cases h4
    · cases he

theorem updateTargets_ok {env : Env} {t t' : Trusted} {data : Bytes} {role parent : Str} {m : Metadata TargetsType}
    (h : t.updateDelegatedTargets env data role parent = (.ok m, t')) :
    TargetsAccepted env t data role parent m ∧ t' = { t with targets := t.targets.set role m } := by
  rcases updateTargets_cases env t data role parent with ⟨new, h1, h2⟩ | ⟨e, h1⟩ | h1
  · rw [h1] at h; cases h; exact ⟨h2, rfl⟩
  · rw [h1] at h; cases h
  · rw [h1] at h; cases h

/-- A role that was loaded is in the trusted set. -/
theorem loadTargets_ok {s s' : St} {role parent : Str} {m : Metadata TargetsType} (h : loadTargets x role parent s = (.ok m, s')) :
    s'.trusted.targets.get? role = some m := by
  unfold loadTargets at h
  obtain ⟨t, s0, h0, h⟩ := SM.bind_eq_ok.1 h
  cases h0
  cases hg : s.trusted.targets.get? role with
  | some r => rw [hg] at h; cases h; exact hg
  | none =>
    rw [hg] at h
    obtain ⟨o, s1, h1, h⟩ := SM.bind_eq_ok.1 h
    cases o with
    | some r =>
      cases h
      obtain ⟨data, _, h2⟩ := tryLocal_some h1
      obtain ⟨_, h3⟩ := updateTargets_ok h2
      rw [h3]; exact Entries.get?_set_self _ _ _
    | none =>
      obtain ⟨t, s2, h2, h⟩ := SM.bind_eq_ok.1 h
      cases h2
      cases hsn : s1.trusted.snapshot with
      | none => rw [hsn] at h; cases h
      | some sn =>
        rw [hsn] at h
        obtain ⟨f, s3, h3, h⟩ := SM.bind_eq_ok.1 h
        obtain ⟨data, s4, h4, h⟩ := SM.bind_eq_ok.1 h
        obtain ⟨m', s5, h5, h⟩ := SM.bind_eq_ok.1 h
        obtain ⟨_, s6, h6, h⟩ := SM.bind_eq_ok.1 h
        cases h
        obtain ⟨_, h7⟩ := updateTargets_ok (onTrusted_ok h5).1
        rw [onWorld_trusted h6, h7]; exact Entries.get?_set_self _ _ _

theorem exec_pushChildren {s : St} {path role : Str} {m : Metadata TargetsType} {rest : List RoleParent} {J : Trusted → Str → Bytes → Prop} :
    Exec x (EventOk x ex J) s { s with world := (pushChildren x path role m rest s.world).2 } := by
  unfold pushChildren
  cases m.signed.delegations with
  | none => exact .refl
  | some d =>
    dsimp only
    rw [SM.bind_apply, SM.lift_apply]
    cases d.getRolesForTarget x.env path with
    | ok roles => exact exec_one rfl trivial
    | err e => exact .refl
    | panic => exact .refl

theorem dropWhile_cons {α : Type} {p : α → Bool} {l r : List α} {a : α} (h : l.dropWhile p = a :: r) :
    p a = false ∧ a ∈ l ∧ ∀ b ∈ r, b ∈ l := by
  induction l with
  | nil => cases h
  | cons b l ih =>
    rw [List.dropWhile_cons] at h
    split at h
    · obtain ⟨h1, h2, h3⟩ := ih h
      exact ⟨h1, .tail _ h2, fun c hc => .tail _ (h3 c hc)⟩
    · next hb =>
      cases h
      exact ⟨by simpa using hb, .head _, fun c hc => .tail _ hc⟩

theorem exec_walk (hm : ex.metadata) (path : Str) (k : Nat) (stack : List RoleParent) (visited : List Str) (s : St)
    (hT : ClientHistory x.env T s.trusted)
    (hr : (∀ d ∈ stack, d.role = TARGETS ∧ d.parent = ROOT) ∨ (s.trusted.targets.get? TARGETS).isSome)
    (hu : x.cfg.unsafeLocalMode = true → (s.trusted.targets.get? TARGETS).isSome) :
    Exec x (Ev x ex T) s (walk x path k stack visited s).2 := by
  induction k generalizing stack visited s with
  | zero => exact .refl
  | succ k ih =>
    unfold walk
    cases hd : stack.dropWhile (fun d => decide (d.role ∈ visited)) with
    | nil => exact .refl
    | cons d rest =>
      have hd' := dropWhile_cons hd
      have e1 : Exec x (Ev x ex T) s (loadTargets x d.role d.parent s).2 :=
        exec_loadTargets hm hT (hr.imp (fun h => h d hd'.2.1) id) hu
      refine exec_bind e1 ?_
      intro m s1 h1
      have hT1 := history_of_exec hT e1 h1
      have hh : ClientHistory x.env s.trusted s1.trusted := by
        have := e1.history; rwa [h1] at this
      have hsome : (s1.trusted.targets.get? TARGETS).isSome := by
        rcases hr with hr | hr
        · rw [← (hr d hd'.2.1).1, loadTargets_ok h1]; rfl
        · exact history_isSome hh hr
      cases m.signed.targets.get? path with
      | some t => exact .refl
      | none =>
        refine exec_bind (exec_onWorld exec_pushChildren) ?_
        intro st s2 h2
        have ht2 := onWorld_trusted h2
        exact ih st _ s2 (by rw [ht2]; exact hT1) (.inr (by rw [ht2]; exact hsome)) (fun _ => by rw [ht2]; exact hsome)

/-- A successful refresh leaves top-level targets. -/
theorem refresh_targets {s s' : St} (h : refresh x s = (.ok (), s')) : (s'.trusted.targets.get? TARGETS).isSome := by
  unfold refresh at h
  split at h
  · unfold unsafeLocalRefresh at h
    obtain ⟨_, _, _, h⟩ := SM.bind_eq_ok.1 h
    obtain ⟨_, _, _, h⟩ := SM.bind_eq_ok.1 h
    obtain ⟨_, _, _, h⟩ := SM.bind_eq_ok.1 h
    obtain ⟨_, _, _, h⟩ := SM.bind_eq_ok.1 h
    obtain ⟨_, _, _, h⟩ := SM.bind_eq_ok.1 h
    obtain ⟨_, _, h1, h⟩ := SM.bind_eq_ok.1 h
    cases h
    obtain ⟨_, h2⟩ := updateTargets_ok (onTrusted_ok h1).1
    rw [h2]
    show (Entries.get? (Entries.set _ _ _) _).isSome = true
    rw [Entries.get?_set_self]; rfl
  · unfold onlineRefresh at h
    obtain ⟨_, _, _, h⟩ := SM.bind_eq_ok.1 h
    obtain ⟨_, _, _, h⟩ := SM.bind_eq_ok.1 h
    obtain ⟨_, _, _, h⟩ := SM.bind_eq_ok.1 h
    obtain ⟨_, _, h1, h⟩ := SM.bind_eq_ok.1 h
    cases h
    rw [loadTargets_ok h1]; rfl

theorem exec_getTargetInfo (hm : ex.metadata) {s : St} {path : Str} (hT : ClientHistory x.env T s.trusted) :
    Exec x (Ev x ex T) s (getTargetInfo x path s).2 := by
  unfold getTargetInfo
  refine exec_bind exec_getTrusted ?_
  intro t s0 h0
  cases h0
  split
  · next h => exact exec_walk hm _ _ _ _ _ hT (.inr h) (fun _ => h)
  · have e1 := exec_refresh hm hT
    refine exec_bind e1 ?_
    intro u s1 h1
    have := refresh_targets h1
    exact exec_walk hm _ _ _ _ _ (history_of_exec hT e1 h1) (.inr this) (fun _ => this)

end

/-! ## Target files -/

section
variable {x : Ctx} {J : Trusted → Str → Bytes → Prop}

/-- What a download of a target may do: one fetch with the listed length and one write to the file. -/
def targetExtra (x : Ctx) (tf : TargetFiles) (filePath : Str) : Extra where
  metadata := False
  fetch := fun _ n => n = tf.length
  file := fun p => targetFilePath x tf filePath = .ok p

theorem lift_ok {σ α : Type} {r : Res α} {s s1 : σ} {a : α} (h : SM.lift r s = (.ok a, s1)) : r = .ok a ∧ s1 = s := by
  rw [SM.lift_apply, Prod.mk.injEq] at h
  exact ⟨h.1, h.2.symm⟩

theorem exec_downloadTarget {s : St} {tf : TargetFiles} {filePath url : Str} :
    Exec x (EventOk x (targetExtra x tf filePath) J) s (downloadTarget x tf filePath url s).2 := by
  unfold downloadTarget
  refine exec_bind exec_lift ?_
  intro fp s1 h1
  obtain ⟨hfp, rfl⟩ := lift_ok h1
  refine exec_bind exec_lift ?_
  intro base s2 _
  refine exec_bind exec_getTrusted ?_
  intro t s3 _
  refine exec_bind (exec_onWorld ?_) ?_
  · unfold targetURLPath
    split
    · rw [SM.bind_apply]
      exact exec_one rfl trivial
    · exact .refl
  intro path s4 _
  refine exec_bind (exec_onWorld (exec_fetch (.inr rfl))) ?_
  intro data s5 _
  refine exec_bind exec_lift ?_
  intro _ s6 _
  refine exec_bind (exec_onWorld ?_) ?_
  · unfold storeTarget
    split
    · exact .refl
    · next hc => exact exec_writeFile (by simpa using hc) (.inr hfp)
  · intro _ _ _
    exact .refl

theorem exec_findCachedTarget {s : St} {tf : TargetFiles} {filePath : Str} {ex : Extra} :
    Exec x (EventOk x ex J) s (findCachedTarget x tf filePath s).2 := by
  unfold findCachedTarget
  split
  · exact .refl
  · refine exec_bind exec_lift ?_
    intro p s1 _
    refine exec_bind (exec_try (exec_onWorld exec_read)) ?_
    intro o s2 _
    cases o with
    | error e => exact .refl
    | ok data =>
      dsimp only
      cases tf.verifyLengthHashes x.env data <;> exact .refl

end

/-! ## New -/

/-- What `New` may move into the cache: the configured root, which it has just verified. -/
def NewJustified (x : Ctx) (t : Trusted) (role : Str) (data : Bytes) : Prop :=
  role = b!"root" ∧ data = x.cfg.localTrustedRoot ∧ Trusted.new x.env t.refTime data = .ok t

theorem exec_newUpdater {x : Ctx} {w : World} :
    (newUpdater x w).2 = w ∨ ∃ t, Trusted.new x.env (x.host.now w.trace) x.cfg.localTrustedRoot = .ok t ∧
      Exec x (EventOk x Extra.none (NewJustified x)) ⟨t, w⟩ ⟨t, (newUpdater x w).2⟩ ∧
      ∀ t', (newUpdater x w).1 = .ok t' → t' = t := by
  unfold newUpdater
  split
  · exact .inl rfl
  · split
    · next t ht =>
      refine .inr ⟨t, ht, ?_, ?_⟩
      · have href : t.refTime = x.host.now w.trace := by
          unfold Trusted.new at ht
          obtain ⟨r, _, h⟩ := Res.bind_eq_ok.1 ht
          cases h; rfl
        have hj : NewJustified x t ROOT x.cfg.localTrustedRoot := ⟨rfl, rfl, by rw [href]; exact ht⟩
        have h1 : Exec x (EventOk x Extra.none (NewJustified x)) ⟨t, w⟩ ⟨t, (ensurePathsExist x w).2⟩ := by
          unfold ensurePathsExist
          split
          · exact .refl
          · next hc =>
            have hc : x.cfg.disableLocalCache = false := by simpa using hc
            rw [SM.bind_apply]
            have h1 := exec_mkdir (x := x) (ex := Extra.none) (J := NewJustified x) (s := ⟨t, w⟩) (path := x.cfg.localMetadataDir) hc
            dsimp only at h1 ⊢
            rcases hm : mkdirAll x.host x.cfg.localMetadataDir w with ⟨r, w1⟩
            rw [hm] at h1
            cases r with
            | ok u => exact h1.trans (exec_mkdir (s := ⟨t, w1⟩) hc)
            | err e => exact h1
            | panic => exact h1
        rw [SM.bind_apply]
        rcases hm : ensurePathsExist x w with ⟨r, w1⟩
        rw [hm] at h1
        cases r with
        | err e => exact h1
        | panic => exact h1
        | ok u =>
          refine h1.trans ?_
          dsimp only
          rw [SM.bind_apply]
          have h2 := exec_persist (x := x) (ex := Extra.none) (s := ⟨t, w1⟩) hj
          dsimp only at h2
          rcases hp : persistMetadata x ROOT x.cfg.localTrustedRoot w1 with ⟨r, w2⟩
          rw [hp] at h2
          cases r <;> exact h2
      · intro t' h
        have h : (do
            ensurePathsExist x
            persistMetadata x ROOT x.cfg.localTrustedRoot
            pure t : W Trusted) w = (.ok t', _) := Prod.ext h rfl
        obtain ⟨_, _, _, h⟩ := SM.bind_eq_ok.1 h
        obtain ⟨_, _, _, h⟩ := SM.bind_eq_ok.1 h
        cases h; rfl
    · exact .inl rfl
    · exact .inl rfl

end Tuf
