import Verif.Spec.Shared
import Verif.Proofs.Small
import Verif.Proofs.Files

/-! # Processes that share a disk: what their code may do, whatever the answers -/

namespace Tuf.Small
open Spec

/-- The temporary file that a program has made, and what is in it. -/
abbrev Own := Option (Str × Bytes)

/-- What a program may do, whatever answers it gets: write to its temporary file or to files in `F`, and move its temporary file to the file of a role for which its content is in `A`. -/
def Safe {α : Type} (x : Ctx) (F : Str → Prop) (A : Str → Bytes → Prop) (Q : α → Prop) : Own → Prog α → Prop
  | own, .ret a => own = none ∧ Q a
  | own, .op .temp k => own = none ∧ (∀ n, Safe x F A Q (some (n, [])) (k (some n))) ∧ Safe x F A Q none (k none)
  | some (n, d), .op (.trunc p) k => p = n ∧ Safe x F A Q (some (n, [])) (k true) ∧ Safe x F A Q (some (n, d)) (k false)
  | none, .op (.trunc p) k => F p ∧ ∀ a, Safe x F A Q none (k a)
  | some (n, d), .op (.write p b) k => p = n ∧ ∀ c, Safe x F A Q (some (n, b.take c ++ d.drop (b.take c).length)) (k c)
  | none, .op (.write p _) k => F p ∧ ∀ c, Safe x F A Q none (k c)
  | own, .op (.remove p) k => (∃ d, own = some (p, d)) ∧ ∀ u, Safe x F A Q none (k u)
  | own, .op (.rename a b) k => (∃ d role, own = some (a, d) ∧ b = persistPath x.cfg role ∧ A role d) ∧ ∀ r, Safe x F A Q none (k r)
  | own, .op (.fetch _ _) k => ∀ a, Safe x F A Q own (k a)
  | own, .op (.read _) k => ∀ a, Safe x F A Q own (k a)
  | own, .op (.mkdir _) k => ∀ a, Safe x F A Q own (k a)
  | own, .op (.order _) k => ∀ a, Safe x F A Q own (k a)
  | own, .op .now k => ∀ a, Safe x F A Q own (k a)

section
variable {x : Ctx} {F : Str → Prop} {A : Str → Bytes → Prop}

theorem safe_bind {α β : Type} {Q : α → Prop} {R : β → Prop} {p : Prog α} {f : α → Prog β} {own : Own}
    (h : Safe x F A Q own p) (hf : ∀ a, Q a → Safe x F A R none (f a)) : Safe x F A R own (p.bind f) := by
  induction p generalizing own with
  | ret a => obtain ⟨rfl, h⟩ := h; exact hf a h
  | op o k ih =>
    cases o with
    | temp => exact ⟨h.1, fun n => ih _ (h.2.1 n), ih _ h.2.2⟩
    | trunc p =>
      rcases own with _ | ⟨n, d⟩
      · exact ⟨h.1, fun a => ih _ (h.2 a)⟩
      · exact ⟨h.1, ih _ h.2.1, ih _ h.2.2⟩
    | write p b =>
      rcases own with _ | ⟨n, d⟩
      · exact ⟨h.1, fun a => ih _ (h.2 a)⟩
      · exact ⟨h.1, fun c => ih _ (h.2 c)⟩
    | remove p => exact ⟨h.1, fun u => ih _ (h.2 u)⟩
    | rename a b => exact ⟨h.1, fun u => ih _ (h.2 u)⟩
    | fetch u n => exact fun a => ih _ (h a)
    | read p => exact fun a => ih _ (h a)
    | mkdir p => exact fun a => ih _ (h a)
    | order n => exact fun a => ih _ (h a)
    | now => exact fun a => ih _ (h a)

/-- The state satisfies `H` in the end, and results are as `G` says. -/
def Post {σ α : Type} (H : σ → Prop) (G : α → σ → Prop) : Res α × σ → Prop
  | (.ok a, t) => H t ∧ G a t
  | (_, t) => H t

variable {σ α β : Type} {H : σ → Prop} {G : α → σ → Prop} {K : β → σ → Prop}

theorem post_state {r : Res α × σ} (h : Post H G r) : H r.2 := by
  rcases r with ⟨r, t⟩
  cases r with
  | ok a => exact h.1
  | err e => exact h
  | panic => exact h

theorem safe_next {c : Code σ α} {f : α → Code σ β} {t : σ} (h : Safe x F A (Post H G) none (c t))
    (hf : ∀ a t', H t' → G a t' → Safe x F A (Post H K) none (f a t')) : Safe x F A (Post H K) none ((c >>= f) t) := by
  refine safe_bind h ?_
  rintro ⟨r, t'⟩ hp
  cases r with
  | ok a => exact hf a t' hp.1 hp.2
  | err e => exact ⟨rfl, hp⟩
  | panic => exact ⟨rfl, hp⟩

theorem safe_pure {a : α} {t : σ} (h : H t) (hg : G a t) : Safe x F A (Post H G) none ((pure a : Code σ α) t) := ⟨rfl, h, hg⟩
theorem safe_throw {e : Err} {t : σ} (h : H t) : Safe x F A (Post H G) none ((Code.throw e : Code σ α) t) := ⟨rfl, h⟩
theorem safe_lift {r : Res α} {t : σ} (h : H t) : Safe x F A (Post H (fun a t' => r = .ok a ∧ t' = t)) none ((Code.lift r : Code σ α) t) := by
  cases r with
  | ok a => exact ⟨rfl, h, rfl, rfl⟩
  | err e => exact ⟨rfl, h⟩
  | panic => exact ⟨rfl, h⟩
theorem safe_get {t : σ} (h : H t) : Safe x F A (Post H (fun a t' => a = t ∧ t' = t)) none ((Code.get : Code σ σ) t) := ⟨rfl, h, rfl, rfl⟩

theorem safe_mono {Q R : α → Prop} {p : Prog α} {own : Own} (h : Safe x F A Q own p) (hq : ∀ a, Q a → R a) : Safe x F A R own p := by
  have : p.bind .ret = p := by
    clear h
    induction p with
    | ret a => rfl
    | op o k ih => show Prog.op o _ = _; congr; funext a; exact ih a
  rw [← this]
  exact safe_bind h (fun a ha => ⟨rfl, hq a ha⟩)

theorem safe_try {c : Code σ α} {t : σ} (h : Safe x F A (Post H G) none (c t)) :
    Safe x F A (Post H (fun o t' => ∀ a, o = .ok a → G a t')) none (Code.try' c t) := by
  refine safe_bind h ?_
  rintro ⟨r, t'⟩ hp
  cases r with
  | ok a => exact ⟨rfl, hp.1, fun b hb => by cases hb; exact hp.2⟩
  | err e => exact ⟨rfl, hp, fun b hb => by cases hb⟩
  | panic => exact ⟨rfl, hp⟩

/-- What a program may do includes how it may end. -/
theorem safe_ends {Q : α → Prop} {p : Prog α} {own : Own} {a : α} (h : Safe x F A Q own p) (he : Ends p a) : Q a := by
  induction he generalizing own with
  | ret a => exact h.2
  | @op o k a r _ ih =>
    cases o with
    | temp =>
      cases r with
      | none => exact ih h.2.2
      | some n => exact ih (h.2.1 n)
    | trunc p =>
      rcases own with _ | ⟨n, d⟩
      · exact ih (h.2 r)
      · cases r with
        | true => exact ih h.2.1
        | false => exact ih h.2.2
    | write p b =>
      rcases own with _ | ⟨n, d⟩
      · exact ih (h.2 r)
      · exact ih (h.2 r)
    | remove p => exact ih (h.2 r)
    | rename a b => exact ih (h.2 r)
    | fetch u n => exact ih (h r)
    | read p => exact ih (h r)
    | mkdir p => exact ih (h r)
    | order n => exact ih (h r)
    | now => exact ih (h r)

/-! ## Operations leave the state -/

theorem safe_fetch {url : Str} {n : Int} {t : σ} (h : H t) : Safe x F A (Post H (fun _ t' => t' = t)) none ((fetch url n : Code σ _) t) := by
  intro a
  cases a with
  | ok b => exact ⟨rfl, h, rfl⟩
  | error e => exact ⟨rfl, h⟩

theorem safe_read {path : Str} {t : σ} (h : H t) : Safe x F A (Post H (fun _ t' => t' = t)) none ((readFile path : Code σ _) t) := by
  intro a
  cases a with
  | some b => exact ⟨rfl, h, rfl⟩
  | none => exact ⟨rfl, h⟩

theorem safe_mkdir {path : Str} {t : σ} (h : H t) : Safe x F A (Post H (fun _ t' => t' = t)) none ((mkdirAll path : Code σ _) t) := by
  intro a
  cases a with
  | true => exact ⟨rfl, h, rfl⟩
  | false => exact ⟨rfl, h⟩

theorem safe_iterate {γ : Type} {es : List γ} {t : σ} (h : H t) : Safe x F A (Post H (fun _ t' => t' = t)) none ((iterateMap es : Code σ _) t) :=
  fun _ => ⟨rfl, h, rfl⟩

/-- Writing to a file in `F`. -/
theorem safe_writeFile {path : Str} {data : Bytes} {t : σ} (hp : F path) (h : H t) :
    Safe x F A (Post H (fun _ t' => t' = t)) none ((writeFile path data : Code σ _) t) := by
  refine ⟨hp, fun a => ?_⟩
  cases a with
  | false => exact ⟨rfl, h⟩
  | true =>
    refine ⟨hp, fun c => ?_⟩
    show Safe _ _ _ _ _ ((Code.lift _ : Code σ Unit) t)
    split
    · exact ⟨rfl, h⟩
    · exact ⟨rfl, h, rfl⟩

theorem take_all {b : Bytes} {c : Nat} (h : ¬ c < b.length) : b.take c = b := List.take_of_length_le (by omega)

theorem safe_persist {role : Str} {data : Bytes} {t : σ} (ha : A role data) (h : H t) :
    Safe x F A (Post H (fun _ t' => t' = t)) none ((persistMetadata x role data : Code σ _) t) := by
  unfold persistMetadata
  split
  · exact ⟨rfl, h, rfl⟩
  · refine ⟨rfl, fun n => ?_, ⟨rfl, h⟩⟩
    refine ⟨rfl, ?_, ?_⟩
    · refine ⟨rfl, fun c => ?_⟩
      rw [List.drop_nil, List.append_nil]
      by_cases hc : (show Nat from c) < data.length
      · show Safe x F A _ (some (n, data.take c)) (((((Code.lift (if (show Nat from c) < data.length then .err ioErr else .ok ()) : Code σ Unit) t).bind Code.caught)).bind _)
        rw [if_pos hc]
        exact ⟨⟨_, rfl⟩, fun _ => ⟨rfl, h⟩⟩
      · show Safe x F A _ (some (n, data.take c)) (((((Code.lift (if (show Nat from c) < data.length then .err ioErr else .ok ()) : Code σ Unit) t).bind Code.caught)).bind _)
        rw [if_neg hc, take_all hc]
        refine ⟨⟨_, role, rfl, rfl, ha⟩, fun r => ?_⟩
        cases r with
        | true => exact ⟨rfl, h, rfl⟩
        | false => exact ⟨rfl, h⟩
    · exact ⟨⟨_, rfl⟩, fun _ => ⟨rfl, h⟩⟩

end

/-! ## The updater -/

section
variable {x : Ctx} {F : Str → Prop} {T t0 : Trusted} {now : Time}

/-- States that a client reaches, after `t0`. -/
abbrev Hist (x : Ctx) (T t0 t : Trusted) : Prop := ClientHistory x.env T t ∧ ClientHistory x.env t0 t

theorem belongs {t : Trusted} {role : Str} {data : Bytes} (h0 : Trusted.new x.env now x.cfg.localTrustedRoot = .ok T) (h : JustAccepted x.env T t role data) :
    Belongs x role data := ⟨now, T, h0, .inr ⟨t, h⟩⟩

/-- A document is offered to the trusted set. -/
theorem safe_offer {α : Type} {t : Trusted} {role : Str} {data : Bytes} {update : Trusted → Res α × Trusted} (c : Call)
    (hT : Hist x T t0 t) (hr : c.run x.env t = (outcome (update t).1, (update t).2)) (ho : c.Offers role data) (hc : UpdaterCall t c) :
    Safe x F (Belongs x) (Post (Hist x T t0) (fun a t' => update t = (.ok a, t') ∧ JustAccepted x.env T t' role data)) none (Code.onState update t) := by
  have h : Hist x T t0 (update t).2 := by
    have := And.intro (ClientHistory.step (env := x.env) c hT.1 hc.client) (ClientHistory.step (env := x.env) c hT.2 hc.client)
    rwa [hr] at this
  show none = none ∧ Post _ _ (update t)
  refine ⟨rfl, ?_⟩
  rcases hu : update t with ⟨r, t'⟩
  rw [hu] at h hr
  cases r with
  | ok a => exact ⟨h, rfl, c, t, ho, hT.1, hc, hr⟩
  | err e => exact h
  | panic => exact h

/-- A call on the trusted set. -/
theorem safe_call {α : Type} {t : Trusted} {update : Trusted → Res α × Trusted} (c : Call)
    (hT : Hist x T t0 t) (hr : (c.run x.env t).2 = (update t).2) (hc : UpdaterCall t c) :
    Safe x F (Belongs x) (Post (Hist x T t0) (fun a t' => update t = (.ok a, t'))) none (Code.onState update t) := by
  have h : Hist x T t0 (update t).2 := by
    have := And.intro (ClientHistory.step (env := x.env) c hT.1 hc.client) (ClientHistory.step (env := x.env) c hT.2 hc.client)
    rwa [hr] at this
  show none = none ∧ Post _ _ (update t)
  refine ⟨rfl, ?_⟩
  rcases hu : update t with ⟨r, t'⟩
  rw [hu] at h
  cases r with
  | ok a => exact ⟨h, rfl⟩
  | err e => exact h
  | panic => exact h

theorem safe_tryLocal {α : Type} {t : Trusted} {role : Str} {update : Bytes → Trusted → Res α × Trusted} (hT : Hist x T t0 t)
    (hc : ∀ data, ∃ c : Call, (c.run x.env t).2 = (update data t).2 ∧ UpdaterCall t c) :
    Safe x F (Belongs x) (Post (Hist x T t0) (fun o t' => (∀ a, o = some a → ∃ data, update data t = (.ok a, t')) ∧
      (o = none → t' = t ∨ ∃ data e, update data t = (.err e, t')))) none (tryLocal x role update t) := by
  intro a
  cases a with
  | none => exact ⟨rfl, hT, ⟨fun a h => by (cases h), fun _ => .inl rfl⟩⟩
  | some data =>
    obtain ⟨c, hr, hc⟩ := hc data
    have h : Hist x T t0 (update data t).2 := by
      have := And.intro (ClientHistory.step (env := x.env) c hT.1 hc.client) (ClientHistory.step (env := x.env) c hT.2 hc.client)
      rwa [hr] at this
    show Safe x F (Belongs x) _ none (((Prog.ret (update data t)).bind Code.caught).bind _)
    rcases hu : update data t with ⟨r, t'⟩
    rw [hu] at h
    cases r with
    | ok a => exact ⟨rfl, h, ⟨fun b hb => by (cases hb; exact ⟨data, hu⟩), fun hb => by (cases hb)⟩⟩
    | panic => exact ⟨rfl, h⟩
    | err e =>
      show Safe x F (Belongs x) _ none ((if e.isRepository then pure none else Code.throw e : Code Trusted (Option α)) t')
      split
      · exact ⟨rfl, h, ⟨fun b hb => by (cases hb), fun _ => .inr ⟨data, e, hu⟩⟩⟩
      · exact ⟨rfl, h⟩

theorem safe_rootLoop (h0 : Trusted.new x.env now x.cfg.localTrustedRoot = .ok T) (n : Nat) (v : Int) (t : Trusted) (hT : Hist x T t0 t) :
    Safe x F (Belongs x) (Post (Hist x T t0) (fun _ _ => True)) none (loadRootLoop x n v t) := by
  induction n generalizing v t with
  | zero => exact ⟨rfl, hT, trivial⟩
  | succ n ih =>
    unfold loadRootLoop
    refine safe_next (safe_try (safe_fetch hT)) ?_
    intro a t1 hT1 hx
    clear hx
    split
    · split
      · exact safe_throw hT1
      · exact safe_pure hT1 trivial
    · exact safe_throw hT1
    · next data =>
      refine safe_next (safe_offer (role := ROOT) (data := data) (.root data) hT1 rfl ⟨rfl, rfl⟩ trivial) ?_
      intro m t2 hT2 h2
      refine safe_next (safe_persist (belongs h0 h2.2) hT2) ?_
      intro _ t3 hT3 _
      exact ih _ t3 hT3

theorem safe_loadRoot (h0 : Trusted.new x.env now x.cfg.localTrustedRoot = .ok T) {t : Trusted} (hT : Hist x T t0 t) :
    Safe x F (Belongs x) (Post (Hist x T t0) (fun _ _ => True)) none (loadRoot x t) := by
  unfold loadRoot
  refine safe_next (safe_get hT) ?_
  intro _ t1 hT1 _
  exact safe_rootLoop h0 _ _ _ hT1

theorem safe_loadTimestamp (h0 : Trusted.new x.env now x.cfg.localTrustedRoot = .ok T) {t : Trusted} (hT : Hist x T t0 t) :
    Safe x F (Belongs x) (Post (Hist x T t0) (fun _ _ => True)) none (loadTimestamp x t) := by
  unfold loadTimestamp
  refine safe_next (safe_tryLocal hT (fun data => ⟨.timestamp data, rfl, trivial⟩)) ?_
  intro _ t1 hT1 _
  refine safe_next (safe_fetch hT1) ?_
  intro data t2 hT2 _
  refine safe_next (safe_try (safe_offer (role := TIMESTAMP) (data := data) (.timestamp data) hT2 rfl ⟨rfl, rfl⟩ trivial)) ?_
  intro a t3 hT3 h3
  cases a with
  | error e =>
    dsimp only
    split
    · exact safe_pure hT3 trivial
    · exact safe_throw hT3
  | ok m => exact safe_mono (safe_persist (belongs h0 (h3 m rfl).2) hT3) (fun r h => by rcases r with ⟨r | r | r, t⟩ <;> first | exact ⟨h.1, trivial⟩ | exact h)

theorem post_any {σ α : Type} {H : σ → Prop} {G : α → σ → Prop} {r : Res α × σ} (h : Post H G r) : Post H (fun _ _ => True) r := by
  rcases r with ⟨r, t⟩
  cases r with
  | ok a => exact ⟨h.1, trivial⟩
  | err e => exact h
  | panic => exact h

theorem safe_loadSnapshot (h0 : Trusted.new x.env now x.cfg.localTrustedRoot = .ok T) {t : Trusted} (hT : Hist x T t0 t) :
    Safe x F (Belongs x) (Post (Hist x T t0) (fun _ _ => True)) none (loadSnapshot x t) := by
  unfold loadSnapshot
  refine safe_next (safe_tryLocal hT (fun data => ⟨.snapshot data true, rfl, trivial⟩)) ?_
  intro o t1 hT1 _
  cases o with
  | some m => exact safe_pure hT1 trivial
  | none =>
    refine safe_next (safe_get hT1) ?_
    intro t2' t2 hT2 h2
    rcases h2 with ⟨rfl, rfl⟩
    cases t2.timestamp with
    | none => exact safe_throw hT2
    | some ts =>
      refine safe_next (safe_lift hT2) ?_
      intro f t3 hT3 _
      refine safe_next (safe_fetch hT3) ?_
      intro data t4 hT4 _
      refine safe_next (safe_offer (role := SNAPSHOT) (data := data) (.snapshot data false) hT4 rfl ⟨rfl, rfl, rfl⟩ trivial) ?_
      intro m t5 hT5 h5
      exact safe_mono (safe_persist (belongs h0 h5.2) hT5) (fun _ => post_any)

theorem targets_error {env : Env} {t t' : Trusted} {data : Bytes} {role parent : Str} {e : Err}
    (h : t.updateDelegatedTargets env data role parent = (.err e, t')) : t' = t := by
  rcases updateTargets_cases env t data role parent with ⟨n, h4, _⟩ | ⟨e, h4⟩ | h4
  · rw [h4] at h; cases h
  · rw [h4] at h; cases h; rfl
  · rw [h4] at h; cases h

theorem targets_some {env : Env} {t t' : Trusted} {data : Bytes} {role parent : Str} {m : Metadata TargetsType}
    (h : t.updateDelegatedTargets env data role parent = (.ok m, t')) :
    (t'.targets.get? role).isSome ∧ ((t.targets.get? TARGETS).isSome → (t'.targets.get? TARGETS).isSome) := by
  constructor
  · obtain ⟨_, h⟩ := updateTargets_ok h
    rw [h]
    show (Entries.get? (Entries.set _ _ _) _).isSome = true
    rw [Entries.get?_set_self]; rfl
  · intro h1
    have := targets_isSome_mono (env := env) (c := .targets data role parent) h1
    simpa only [Call.run, h] using this

theorem safe_loadTargets (h0 : Trusted.new x.env now x.cfg.localTrustedRoot = .ok T) {t : Trusted} {role parent : Str} (hT : Hist x T t0 t)
    (hr : (role = TARGETS ∧ parent = ROOT) ∨ (t.targets.get? TARGETS).isSome) :
    Safe x F (Belongs x) (Post (Hist x T t0) (fun _ t' => (t'.targets.get? role).isSome ∧ ((t.targets.get? TARGETS).isSome → (t'.targets.get? TARGETS).isSome))) none
      (loadTargets x role parent t) := by
  unfold loadTargets
  refine safe_next (safe_get hT) ?_
  intro t1' t1 hT1 h1
  rcases h1 with ⟨rfl, rfl⟩
  cases hg : t1.targets.get? role with
  | some m => exact safe_pure hT1 ⟨by rw [hg]; rfl, id⟩
  | none =>
    refine safe_next (safe_tryLocal hT1 (fun data => ⟨.targets data role parent, rfl, hg, hr⟩)) ?_
    intro o t2 hT2 h2
    cases o with
    | some m =>
      obtain ⟨data, h⟩ := h2.1 m rfl
      exact safe_pure hT2 (targets_some h)
    | none =>
      have ht : t2 = t1 := by
        rcases h2.2 rfl with h | ⟨data, e, h⟩
        · exact h
        · exact targets_error h
      subst ht
      refine safe_next (safe_get hT2) ?_
      intro t3' t3 hT3 h3
      rcases h3 with ⟨rfl, rfl⟩
      cases t3.snapshot with
      | none => exact safe_throw hT3
      | some sn =>
        refine safe_next (safe_lift hT3) ?_
        intro f t4 hT4 h4
        rcases h4 with ⟨_, rfl⟩
        refine safe_next (safe_fetch hT4) ?_
        intro data t5 hT5 h5
        subst h5
        refine safe_next (safe_offer (role := role) (data := data) (.targets data role parent) hT5 rfl ⟨rfl, rfl⟩ ⟨hg, hr⟩) ?_
        intro m t6 hT6 h6
        refine safe_next (safe_persist (belongs h0 h6.2) hT6) ?_
        intro _ t7 hT7 h7
        subst h7
        exact safe_pure hT7 (targets_some h6.1)

theorem safe_refresh (h0 : Trusted.new x.env now x.cfg.localTrustedRoot = .ok T) {t : Trusted} (hT : Hist x T t0 t) :
    Safe x F (Belongs x) (Post (Hist x T t0) (fun _ t' => (t'.targets.get? TARGETS).isSome)) none (refresh x t) := by
  unfold refresh
  split
  · unfold unsafeLocalRefresh
    refine safe_next (safe_read hT) ?_
    intro d1 t1 hT1 _
    refine safe_next (safe_call (.timestamp d1) hT1 rfl trivial) ?_
    intro _ t2 hT2 _
    refine safe_next (safe_read hT2) ?_
    intro d2 t3 hT3 _
    refine safe_next (safe_call (.snapshot d2 false) hT3 rfl trivial) ?_
    intro m4 t4 hT4 h4
    refine safe_next (safe_read hT4) ?_
    intro d5 t5 hT5 h5
    subst h5
    have hearly : t5.targets.get? TARGETS = none := by
      rcases updateSnapshot_cases x.env t3 d2 false with ⟨n, h3, h6, _⟩ | ⟨e, h3⟩ | h3
      · have h7 : _ = t5 := congrArg Prod.snd h4; rw [h6] at h7; rw [← h7]; exact h3.early
      · rw [h3] at h4; cases h4
      · rw [h3] at h4; cases h4
    refine safe_next (safe_call (.targets d5 TARGETS ROOT) hT5 rfl ⟨hearly, .inl ⟨rfl, rfl⟩⟩) ?_
    intro m t6 hT6 h6
    exact safe_pure hT6 (targets_some h6).1
  · unfold onlineRefresh
    refine safe_next (safe_loadRoot h0 hT) ?_
    intro _ t1 hT1 _
    refine safe_next (safe_loadTimestamp h0 hT1) ?_
    intro _ t2 hT2 _
    refine safe_next (safe_loadSnapshot h0 hT2) ?_
    intro _ t3 hT3 _
    refine safe_next (safe_loadTargets h0 hT3 (.inl ⟨rfl, rfl⟩)) ?_
    intro _ t4 hT4 h4
    exact safe_pure hT4 h4.1

theorem safe_pushChildren {path role : Str} {m : Metadata TargetsType} {rest : List RoleParent} {t : Trusted} (hT : Hist x T t0 t) :
    Safe x F (Belongs x) (Post (Hist x T t0) (fun _ t' => t' = t)) none (pushChildren x path role m rest t) := by
  unfold pushChildren
  cases m.signed.delegations with
  | none => exact safe_pure hT rfl
  | some d =>
    refine safe_next (safe_lift hT) ?_
    intro roles t1 hT1 h1
    rcases h1 with ⟨_, rfl⟩
    refine safe_next (safe_iterate hT1) ?_
    intro o t2 hT2 h2
    subst h2
    exact safe_pure hT2 rfl

theorem safe_walk (h0 : Trusted.new x.env now x.cfg.localTrustedRoot = .ok T) (path : Str) (k : Nat) (stack : List RoleParent) (visited : List Str) (t : Trusted)
    (hT : Hist x T t0 t) (hr : (t.targets.get? TARGETS).isSome) :
    Safe x F (Belongs x) (Post (Hist x T t0) (fun _ _ => True)) none (walk x path k stack visited t) := by
  induction k generalizing stack visited t with
  | zero => exact safe_throw hT
  | succ k ih =>
    unfold walk
    cases stack.dropWhile (fun d => decide (d.role ∈ visited)) with
    | nil => exact safe_throw hT
    | cons d rest =>
      refine safe_next (safe_loadTargets h0 hT (.inr hr)) ?_
      intro m t1 hT1 h1
      cases m.signed.targets.get? path with
      | some _ => exact safe_pure hT1 trivial
      | none =>
        refine safe_next (safe_pushChildren hT1) ?_
        intro st t2 hT2 h2
        subst h2
        exact ih _ _ _ hT2 (h1.2 hr)

theorem safe_getTargetInfo (h0 : Trusted.new x.env now x.cfg.localTrustedRoot = .ok T) {t : Trusted} {path : Str} (hT : Hist x T t0 t) :
    Safe x F (Belongs x) (Post (Hist x T t0) (fun _ _ => True)) none (getTargetInfo x path t) := by
  unfold getTargetInfo
  refine safe_next (safe_get hT) ?_
  intro t1' t1 hT1 h1
  rcases h1 with ⟨rfl, rfl⟩
  split
  · next h => exact safe_walk h0 _ _ _ _ _ hT1 h
  · refine safe_next (safe_refresh h0 hT1) ?_
    intro _ t2 hT2 h2
    exact safe_walk h0 _ _ _ _ _ hT2 h2

theorem safe_downloadTarget {t : Trusted} {tf : TargetFiles} {f u : Str} (hF : ∀ p, targetFilePath x tf f = .ok p → F p) (hT : Hist x T t0 t) :
    Safe x F (Belongs x) (Post (Hist x T t0) (fun _ _ => True)) none (downloadTarget x tf f u t) := by
  unfold downloadTarget
  refine safe_next (safe_lift hT) ?_
  intro p t1 hT1 h1
  refine safe_next (safe_lift hT1) ?_
  intro b t2 hT2 h2
  refine safe_next (safe_get hT2) ?_
  intro t3 t3' hT3 _
  have hp : Safe x F (Belongs x) (Post (Hist x T t0) (fun _ _ => True)) none ((targetURLPath x t3 tf : Code Trusted Str) t3') := by
    unfold targetURLPath
    split
    · refine safe_next (safe_iterate hT3) ?_
      intro _ t4 hT4 _
      exact safe_pure hT4 trivial
    · exact safe_pure hT3 trivial
  refine safe_next hp ?_
  intro path t4 hT4 _
  refine safe_next (safe_fetch hT4) ?_
  intro data t5 hT5 _
  refine safe_next (safe_lift hT5) ?_
  intro _ t6 hT6 _
  have hs : Safe x F (Belongs x) (Post (Hist x T t0) (fun _ _ => True)) none ((storeTarget x p data : Code Trusted Unit) t6) := by
    unfold storeTarget
    split
    · exact safe_pure hT6 trivial
    · exact safe_mono (safe_writeFile (hF p h1.1) hT6) (fun _ => post_any)
  refine safe_next hs ?_
  intro _ t7 hT7 _
  exact safe_pure hT7 trivial

theorem safe_findCachedTarget {t : Trusted} {tf : TargetFiles} {f : Str} (hT : Hist x T t0 t) :
    Safe x F (Belongs x) (Post (Hist x T t0) (fun _ _ => True)) none (findCachedTarget x tf f t) := by
  unfold findCachedTarget
  split
  · exact safe_pure hT trivial
  · refine safe_next (safe_lift hT) ?_
    intro p t1 hT1 _
    refine safe_next (safe_try (safe_read hT1)) ?_
    intro a t2 hT2 _
    cases a with
    | error e => exact safe_pure hT2 trivial
    | ok data =>
      dsimp only
      cases tf.verifyLengthHashes x.env data with
      | ok _ => exact safe_pure hT2 trivial
      | err _ => exact safe_pure hT2 trivial
      | panic => exact ⟨rfl, hT2⟩

end

/-- What a program of a process ends with. -/
def EndOk (R : Trusted → Prop) (o : Option Trusted) : Prop := ∀ t, o = some t → R t

theorem safe_started {x : Ctx} {F : Str → Prop} : Safe x F (Belongs x) (EndOk (Reached x)) none (started x) := by
  have hu : Safe x F (Belongs x) (Post (fun _ => True) (fun t _ => Reached x t)) none (newUpdater x ()) := by
    unfold newUpdater
    split
    · exact safe_throw trivial
    · intro now
      show Safe x F (Belongs x) _ none ((Code.lift (Trusted.new x.env now x.cfg.localTrustedRoot) >>= _ : Code Unit Trusted) ())
      refine safe_next (G := fun t _ => Trusted.new x.env now x.cfg.localTrustedRoot = .ok t) ?_ ?_
      · exact safe_mono (safe_lift (H := fun _ => True) trivial) (fun r h => by rcases r with ⟨r | r | r, t⟩ <;> first | exact ⟨trivial, h.2.1⟩ | exact trivial)
      · intro t _ _ h0
        have he : Safe x F (Belongs x) (Post (fun _ => True) (fun _ _ => True)) none ((ensurePathsExist x : Code Unit Unit) ()) := by
          unfold ensurePathsExist
          split
          · exact safe_pure trivial trivial
          · refine safe_next (safe_mkdir trivial) ?_
            intro _ _ _ _
            exact safe_mono (safe_mkdir trivial) (fun _ => post_any)
        refine safe_next he ?_
        intro _ _ _ _
        refine safe_next (safe_persist ⟨now, t, h0, .inl ⟨rfl, rfl⟩⟩ trivial) ?_
        intro _ _ _ _
        exact safe_pure trivial ⟨now, t, h0, .refl⟩
  refine safe_bind hu ?_
  rintro ⟨r, u⟩ h
  cases r with
  | ok t => exact ⟨rfl, fun t' ht => by cases ht; exact h.2⟩
  | err e => exact ⟨rfl, fun t' ht => by cases ht⟩
  | panic => exact ⟨rfl, fun t' ht => by cases ht⟩

theorem safe_called {x : Ctx} {F : Str → Prop} {t : Trusted} {R : Trusted → Prop} (hR : Reached x t) (hR2 : ∀ t', ClientHistory x.env t t' → R t') (a : Api)
    (hF : ∀ tf f u p, a = .downloadTarget tf f u → targetFilePath x tf f = .ok p → F p) :
    Safe x F (Belongs x) (EndOk R) none (called x t a) := by
  obtain ⟨now, T, h0, hT⟩ := hR
  have hend : ∀ {α : Type} {G : α → Trusted → Prop} {c : Code Trusted α}, Safe x F (Belongs x) (Post (Hist x T t) G) none (c t) →
      Safe x F (Belongs x) (EndOk R) none ((c t).bind callDone) := by
    intro α G c h
    refine safe_bind h ?_
    rintro ⟨r, t'⟩ h
    cases r with
    | ok a => exact ⟨rfl, fun t2 ht => by cases ht; exact hR2 _ h.1.2⟩
    | err e => exact ⟨rfl, fun t2 ht => by cases ht; exact hR2 _ h.2⟩
    | panic => exact ⟨rfl, fun t2 ht => by cases ht⟩
  have hT : Hist x T t t := ⟨hT, .refl⟩
  cases a with
  | refresh => exact hend (safe_refresh h0 hT)
  | getTargetInfo p => exact hend (safe_getTargetInfo h0 hT)
  | downloadTarget tf f u => exact hend (safe_downloadTarget (fun p hp => hF tf f u p rfl hp) hT)
  | findCachedTarget tf f => exact hend (safe_findCachedTarget hT)

/-! ## The system -/

/-- A process is where it may be. -/
def Proc.Ok (R : Ctx → Trusted → Prop) (F : Str → Prop) (own : Own) (P : Proc) : Prop :=
  match P.stage with
  | .idle t => R P.ctx t
  | .busy p => Safe P.ctx F (Belongs P.ctx) (EndOk (R P.ctx)) own p
  | .gone => True

/-- The invariant of systems. -/
structure Inv (R : Nat → Ctx → Trusted → Prop) (X : Ctx → Prop) (F : Str → Prop) (fs0 : FS) (own : Nat → Own) (s : Sys) : Prop where
  procs : ∀ (i : Nat) (P : Proc), s.procs[i]? = some P → X P.ctx ∧ P.Ok (R i) F (own i)
  temps : ∀ i n d, own i = some (n, d) → TempName n ∧ s.fs n = some d
  apart : ∀ i j n d d', own i = some (n, d) → own j = some (n, d') → i = j
  files : ∀ p, ¬ TempName p → ¬ F p → s.fs p = fs0 p ∨
    ∃ x, X x ∧ ∃ role data, p = persistPath x.cfg role ∧ s.fs p = some data ∧ Belongs x role data

/-- What one process has made, the others being as they were. -/
def owns (own : Nat → Own) (i : Nat) (o : Own) : Nat → Own := fun j => if j = i then o else own j

section
variable {R : Nat → Ctx → Trusted → Prop} {X : Ctx → Prop} {F : Str → Prop} {fs0 : FS} {own : Nat → Own} {s : Sys}

theorem inv_change (h : Inv R X F fs0 own s) {i : Nat} {P P' : Proc} (hP : s.procs[i]? = some P) (hX : P'.ctx = P.ctx) (o : Own) (fs' : FS) (hok : P'.Ok (R i) F o)
    (h1 : ∀ j n d, j ≠ i → own j = some (n, d) → fs' n = s.fs n)
    (h2 : ∀ p, ¬ TempName p → ¬ F p → fs' p = s.fs p ∨ ∃ role data, p = persistPath P.ctx.cfg role ∧ fs' p = some data ∧ Belongs P.ctx role data)
    (h3 : ∀ n d, o = some (n, d) → TempName n ∧ fs' n = some d ∧ ∀ j d', j ≠ i → own j ≠ some (n, d')) :
    Inv R X F fs0 (owns own i o) ⟨fs', s.procs.set i P'⟩ := by
  have hXP := (h.procs i P hP).1
  refine ⟨?_, ?_, ?_, ?_⟩
  · intro j Q hQ
    have hQ : (s.procs.set i P')[j]? = some Q := hQ
    rw [List.getElem?_set] at hQ
    unfold owns
    by_cases hji : j = i
    · subst hji
      rw [if_pos rfl]
      rw [if_pos rfl] at hQ
      split at hQ
      · cases hQ; exact ⟨hX ▸ hXP, hok⟩
      · cases hQ
    · rw [if_neg hji]
      rw [if_neg (fun h => hji h.symm)] at hQ
      exact h.procs j Q hQ
  · intro j n d hj
    unfold owns at hj
    split at hj
    · exact ⟨(h3 n d hj).1, (h3 n d hj).2.1⟩
    · next hji => exact ⟨(h.temps j n d hj).1, (h1 j n d hji hj).trans (h.temps j n d hj).2⟩
  · intro j k n d d' hj hk
    unfold owns at hj hk
    split at hj <;> split at hk
    · next a b => rw [a, b]
    · next a b => exact absurd hk ((h3 n d hj).2.2 k d' b)
    · next a b => exact absurd hj ((h3 n d' hk).2.2 j d a)
    · exact h.apart j k n d d' hj hk
  · intro p hp hf
    rcases h2 p hp hf with hq | ⟨role, data, hq⟩
    · show fs' p = _ ∨ ∃ x, X x ∧ ∃ role data, p = persistPath x.cfg role ∧ fs' p = some data ∧ Belongs x role data
      rw [hq]; exact h.files p hp hf
    · exact .inr ⟨P.ctx, hXP, role, data, hq⟩

theorem put_other {fs : FS} {p q : Str} {v : Option Bytes} (h : q ≠ p) : fs.put p v q = fs q := if_neg h
theorem put_same {fs : FS} {p : Str} {v : Option Bytes} : fs.put p v p = v := if_pos rfl

/-- Nothing changes but the stage. -/
theorem inv_same (h : Inv R X F fs0 own s) {i : Nat} {P P' : Proc} (hP : s.procs[i]? = some P) (hX : P'.ctx = P.ctx) (hok : P'.Ok (R i) F (own i)) :
    Inv R X F fs0 (owns own i (own i)) ⟨s.fs, s.procs.set i P'⟩ :=
  inv_change h hP hX (own i) _ hok (fun _ _ _ _ _ => rfl) (fun _ _ _ => .inl rfl)
    (fun n d hn => ⟨(h.temps i n d hn).1, (h.temps i n d hn).2, fun j d' hj hc => hj (h.apart j i n d' d hc hn)⟩)

/-- A file of targets is written. -/
theorem inv_file (hF : ∀ p, F p → ¬ TempName p) (h : Inv R X F fs0 own s) {i : Nat} {P P' : Proc} {p : Str} {v : Option Bytes} (hP : s.procs[i]? = some P) (hp : F p)
    (hX : P'.ctx = P.ctx) (hok : P'.Ok (R i) F none) : Inv R X F fs0 (owns own i none) ⟨s.fs.put p v, s.procs.set i P'⟩ := by
  refine inv_change h hP hX none _ hok ?_ ?_ (fun n d hn => by cases hn)
  · intro j m d _ hm
    exact put_other (fun hc => hF p hp (hc ▸ (h.temps j m d hm).1))
  · intro q _ hq
    exact .inl (put_other (fun hc => hq (hc ▸ hp)))

/-- A process writes to its temporary file. -/
theorem inv_own (h : Inv R X F fs0 own s) {i : Nat} {P P' : Proc} {n : Str} {d d' : Bytes} (hP : s.procs[i]? = some P) (ho : own i = some (n, d))
    (hX : P'.ctx = P.ctx) (hok : P'.Ok (R i) F (some (n, d'))) : Inv R X F fs0 (owns own i (some (n, d'))) ⟨s.fs.put n (some d'), s.procs.set i P'⟩ := by
  refine inv_change h hP hX (some (n, d')) _ hok ?_ ?_ ?_
  · intro j m e hj hm
    exact put_other (fun hc => hj (h.apart j i m e d hm (hc ▸ ho)))
  · intro q hq _
    exact .inl (put_other (fun hc => hq (hc ▸ (h.temps i n d ho).1)))
  · intro m e hm
    cases hm
    exact ⟨(h.temps i n d ho).1, put_same, fun j e' hj hm => hj (h.apart j i n e' d hm ho)⟩

theorem perform_temp (h : Host) (w : World) : perform h w .temp = (none, w.emit (.failed b!"CreateTemp")) ∨
    ∃ n, TempName n ∧ w.fs n = none ∧ perform h w .temp = (some n, w.emit (.createTemp n)) := by
  rcases hc : h.cwd w.trace with _ | cwd
  · exact .inl (by unfold perform; simp only [hc]; rfl)
  · rcases hn : h.tempName w.trace with _ | n
    · exact .inl (by unfold perform; simp only [hc, hn]; rfl)
    · rcases hf : w.fs (cwd ++ b!"/tuf_tmp" ++ formatNat 10 n) with _ | b
      · exact .inr ⟨_, ⟨cwd, n, rfl⟩, hf, by unfold perform; simp only [hc, hn, hf]; rfl⟩
      · exact .inl (by unfold perform; simp only [hc, hn, hf]; rfl)

theorem perform_trunc (h : Host) (w : World) (p : Str) : perform h w (.trunc p) = (false, w.emit (.failed b!"open")) ∨ perform h w (.trunc p) = (true, w.emit (.truncate p)) := by
  cases hf : h.openFails w.trace p
  · exact .inr (by unfold perform; simp only [hf]; rfl)
  · exact .inl (by unfold perform; simp only [hf]; rfl)

theorem perform_rename (h : Host) (w : World) (a b : Str) : perform h w (.rename a b) = (false, w.emit (.failed b!"rename")) ∨ perform h w (.rename a b) = (true, w.emit (.rename a b)) := by
  cases hf : h.renameFails w.trace a b
  · exact .inr (by unfold perform; simp only [hf]; rfl)
  · exact .inl (by unfold perform; simp only [hf]; rfl)

/-- One operation of a process. -/
theorem inv_op (hF : ∀ p, F p → ¬ TempName p) (h : Inv R X F fs0 own s) {i : Nat} {P : Proc} {o : Op} {k : o.Ans → Prog (Option Trusted)}
    (hP : s.procs[i]? = some P) (hs : P.stage = .busy (.op o k)) :
    ∃ own', Inv R X F fs0 own' ⟨(P.step s.fs).1, s.procs.set i (P.step s.fs).2⟩ := by
  have hok := (h.procs i P hP).2
  have hkeep : ∀ fs' : FS, fs' = s.fs → ∀ P' : Proc, P'.ctx = P.ctx → P'.Ok (R i) F (own i) → ∃ own', Inv R X F fs0 own' ⟨fs', s.procs.set i P'⟩ := by
    intro fs' hfs P' hX hP'
    subst hfs
    exact ⟨_, inv_change h hP hX (own i) _ hP' (fun _ _ _ _ _ => rfl) (fun _ _ _ => .inl rfl)
      (fun n d hn => ⟨(h.temps i n d hn).1, (h.temps i n d hn).2, fun j d' hj hc => hj (h.apart j i n d' d hc hn)⟩)⟩
  obtain ⟨x, tr, st⟩ := P
  dsimp only at hs
  subst hs
  have hok : Safe x F (Belongs x) (EndOk (R i x)) (own i) (.op o k) := hok
  cases o with
  | fetch u n => exact hkeep _ rfl _ rfl (hok _)
  | read p => exact hkeep _ rfl _ rfl (hok _)
  | mkdir p => exact hkeep _ rfl _ rfl (hok _)
  | order n => exact hkeep _ rfl _ rfl (hok _)
  | now => exact hkeep _ rfl _ rfl (hok _)
  | temp =>
    obtain ⟨hn, hk, hk0⟩ := hok
    have hfail : ∀ tr', ∃ own', Inv R X F fs0 own' ⟨s.fs, s.procs.set i ⟨x, tr', .busy (k none)⟩⟩ := by
      intro tr'
      exact hkeep _ rfl _ rfl (by rw [hn]; exact hk0)
    show ∃ own', Inv R X F fs0 own' ⟨(perform x.host ⟨s.fs, tr⟩ .temp).2.fs, s.procs.set i ⟨x, (perform x.host ⟨s.fs, tr⟩ .temp).2.trace, .busy (k (perform x.host ⟨s.fs, tr⟩ .temp).1)⟩⟩
    have hp : (perform x.host ⟨s.fs, tr⟩ .temp = (none, World.emit ⟨s.fs, tr⟩ (.failed b!"CreateTemp"))) ∨
        ∃ n, TempName n ∧ s.fs n = none ∧ perform x.host ⟨s.fs, tr⟩ .temp = (some n, World.emit ⟨s.fs, tr⟩ (.createTemp n)) := by
      exact perform_temp _ _
    rcases hp with hp | ⟨n, htn, hfs, hp⟩
    · rw [hp]; exact hfail _
    · rw [hp]
      have hne : ∀ j m d, own j = some (m, d) → m ≠ n := by
        intro j m d hj hm
        have := (h.temps j m d hj).2
        rw [hm, hfs] at this; cases this
      refine ⟨_, inv_change (P' := ⟨x, _, .busy (k (some n))⟩) h hP rfl (some (n, [])) _ (hk n) ?_ ?_ ?_⟩
      · intro j m d _ hj; exact put_other (hne j m d hj)
      · intro p hpt _; exact .inl (put_other (fun hc => hpt (hc ▸ htn)))
      · intro m d hm
        cases hm
        exact ⟨htn, put_same, fun j d' _ hj => hne j _ d' hj rfl⟩
  | trunc p =>
    show ∃ own', Inv R X F fs0 own' ⟨(perform x.host ⟨s.fs, tr⟩ (.trunc p)).2.fs, s.procs.set i ⟨x, (perform x.host ⟨s.fs, tr⟩ (.trunc p)).2.trace, .busy (k (perform x.host ⟨s.fs, tr⟩ (.trunc p)).1)⟩⟩
    have hp : perform x.host ⟨s.fs, tr⟩ (.trunc p) = (false, World.emit ⟨s.fs, tr⟩ (.failed b!"open")) ∨ perform x.host ⟨s.fs, tr⟩ (.trunc p) = (true, World.emit ⟨s.fs, tr⟩ (.truncate p)) := by
      exact perform_trunc _ _ _
    cases ho : own i with
    | none =>
      rw [ho] at hok
      obtain ⟨hf, hk⟩ := hok
      rcases hp with hp | hp
      · rw [hp]; exact hkeep _ rfl _ rfl (by rw [ho]; exact hk _)
      · rw [hp]; exact ⟨_, inv_file hF h hP hf rfl (hk _)⟩
    | some nd =>
      obtain ⟨n, d⟩ := nd
      rw [ho] at hok
      obtain ⟨rfl, hk, hk0⟩ := hok
      rcases hp with hp | hp
      · rw [hp]; exact hkeep _ rfl _ rfl (by rw [ho]; exact hk0)
      · rw [hp]; exact ⟨_, inv_own h hP ho rfl hk⟩
  | write p b =>
    show ∃ own', Inv R X F fs0 own' ⟨overwrite s.fs p (b.take (x.host.writeCount tr b.length)), s.procs.set i ⟨x, _, .busy (k (x.host.writeCount tr b.length))⟩⟩
    cases ho : own i with
    | none =>
      rw [ho] at hok
      exact ⟨_, inv_file hF h hP hok.1 rfl (hok.2 _)⟩
    | some nd =>
      obtain ⟨n, d⟩ := nd
      rw [ho] at hok
      obtain ⟨rfl, hk⟩ := hok
      unfold overwrite
      rw [(h.temps i p d ho).2]
      exact ⟨_, inv_own h hP ho rfl (hk _)⟩
  | remove p =>
    obtain ⟨⟨d, ho⟩, hk⟩ := hok
    show ∃ own', Inv R X F fs0 own' ⟨(if x.host.removeFails tr p then World.emit ⟨s.fs, tr⟩ (.failed b!"remove") else World.emit ⟨s.fs, tr⟩ (.remove p)).fs, s.procs.set i ⟨x, _, .busy (k ())⟩⟩
    have ht := h.temps i p d ho
    split
    · exact ⟨_, inv_change (P' := ⟨x, _, .busy (k ())⟩) h hP rfl none _ (hk _) (fun _ _ _ _ _ => rfl) (fun _ _ _ => .inl rfl) (fun n d hn => by cases hn)⟩
    · refine ⟨_, inv_change (P' := ⟨x, _, .busy (k ())⟩) h hP rfl none _ (hk _) ?_ ?_ (fun n d hn => by cases hn)⟩
      · intro j m d' hj hm
        show s.fs.put p none m = _
        exact put_other (fun hc => hj (h.apart j i m d' d hm (hc ▸ ho)))
      · intro q hq _
        refine .inl ?_
        show s.fs.put p none q = _
        exact put_other (fun hc => hq (hc ▸ ht.1))
  | rename a b =>
    obtain ⟨⟨d, role, ho, hb, hA⟩, hk⟩ := hok
    show ∃ own', Inv R X F fs0 own' ⟨(perform x.host ⟨s.fs, tr⟩ (.rename a b)).2.fs, s.procs.set i ⟨x, (perform x.host ⟨s.fs, tr⟩ (.rename a b)).2.trace, .busy (k (perform x.host ⟨s.fs, tr⟩ (.rename a b)).1)⟩⟩
    have hp : perform x.host ⟨s.fs, tr⟩ (.rename a b) = (false, World.emit ⟨s.fs, tr⟩ (.failed b!"rename")) ∨ perform x.host ⟨s.fs, tr⟩ (.rename a b) = (true, World.emit ⟨s.fs, tr⟩ (.rename a b)) := by
      exact perform_rename _ _ _ _
    have ht := h.temps i a d ho
    have hbt : ¬ TempName b := hb ▸ persistPath_not_temp _ _
    rcases hp with hp | hp
    · rw [hp]
      exact ⟨_, inv_change (P' := ⟨x, _, .busy (k false)⟩) h hP rfl none _ (hk _) (fun _ _ _ _ _ => rfl) (fun _ _ _ => .inl rfl) (fun n d hn => by cases hn)⟩
    · rw [hp]
      refine ⟨_, inv_change (P' := ⟨x, _, .busy (k true)⟩) h hP rfl none _ (hk _) ?_ ?_ (fun n d hn => by cases hn)⟩
      · intro j m d' hj hm
        show ((s.fs.put b (s.fs a)).put a none) m = _
        have h1 : m ≠ a := fun hc => hj (h.apart j i m d' d hm (hc ▸ ho))
        have h2 : m ≠ b := fun hc => hbt (hc ▸ (h.temps j m d' hm).1)
        rw [put_other h1, put_other h2]
      · intro q hq _
        show ((s.fs.put b (s.fs a)).put a none) q = _ ∨ ∃ role data, q = persistPath x.cfg role ∧ ((s.fs.put b (s.fs a)).put a none) q = some data ∧ Belongs x role data
        have h1 : q ≠ a := fun hc => hq (hc ▸ ht.1)
        rw [put_other h1]
        by_cases hqb : q = b
        · rw [hqb, put_same, ht.2]; exact .inr ⟨role, d, hb, rfl, hA⟩
        · rw [put_other hqb]; exact .inl rfl

/-- Processes stay in the list. -/
theorem move_length (s : Sys) (m : Move) : s.procs.length ≤ (s.move m).procs.length := by
  cases m with
  | start x => show _ ≤ (s.procs ++ [_]).length; rw [List.length_append]; exact Nat.le_add_right _ _
  | call i a => unfold Sys.move; dsimp only; split <;> simp
  | step i => unfold Sys.move; dsimp only; split <;> simp
  | kill i => unfold Sys.move; dsimp only; split <;> simp

/-- One move. -/
theorem inv_move (hR : ∀ j x t, R j x t → Reached x t) (hR2 : ∀ j x t t', R j x t → ClientHistory x.env t t' → R j x t') (hR3 : ∀ j x t, s.procs.length ≤ j → Reached x t → R j x t) (hF : ∀ p, F p → ¬ TempName p) (m : Move) (hX : ∀ x, m = .start x → X x)
    (hT : ∀ i tf f u, m = .call i (.downloadTarget tf f u) → ∀ x p, X x → targetFilePath x tf f = .ok p → F p)
    (h : Inv R X F fs0 own s) : ∃ own', Inv R X F fs0 own' (s.move m) := by
  cases m with
  | start x =>
    refine ⟨owns own s.procs.length none, ?_, ?_, ?_, h.files⟩
    · intro j Q hQ
      have hQ : (s.procs ++ [⟨x, [], .busy (started x)⟩])[j]? = some Q := hQ
      unfold owns
      by_cases hj : j = s.procs.length
      · rw [if_pos hj]
        rw [hj, List.getElem?_append_right (Nat.le_refl _), Nat.sub_self] at hQ
        cases hQ
        exact ⟨hX x rfl, safe_mono safe_started (fun o ho t ht => hR3 _ _ _ (Nat.le_of_eq hj.symm) (ho t ht))⟩
      · rw [if_neg hj]
        by_cases hj2 : j < s.procs.length
        · rw [List.getElem?_append_left hj2] at hQ
          exact h.procs j Q hQ
        · rw [List.getElem?_eq_none (by rw [List.length_append]; show s.procs.length + 1 ≤ j; omega)] at hQ
          cases hQ
    · intro j n d hj
      unfold owns at hj
      split at hj
      · cases hj
      · exact h.temps j n d hj
    · intro j k n d d' hj hk
      unfold owns at hj hk
      split at hj
      · cases hj
      · split at hk
        · cases hk
        · exact h.apart j k n d d' hj hk
  | call i a =>
    show ∃ own', Inv R X F fs0 own' (match s.procs[i]? with | some P => ⟨s.fs, s.procs.set i (P.call a)⟩ | none => s)
    cases hP : s.procs[i]? with
    | none => exact ⟨own, h⟩
    | some P =>
      obtain ⟨hXP, hok⟩ := h.procs i P hP
      obtain ⟨x, tr, st⟩ := P
      cases st with
      | idle t =>
        exact ⟨_, inv_change (P' := ⟨x, tr, .busy (called x t a)⟩) h hP rfl none _
          (safe_called (hR _ _ _ hok) (fun t' => hR2 _ _ _ t' hok) a (fun tf f u p ha hp => hT i tf f u (by rw [ha]) x p hXP hp)) (fun _ _ _ _ _ => rfl) (fun _ _ _ => .inl rfl) (fun n d hn => by cases hn)⟩
      | busy p => exact ⟨_, inv_same h hP rfl hok⟩
      | gone => exact ⟨_, inv_same h hP rfl hok⟩
  | step i =>
    show ∃ own', Inv R X F fs0 own' (match s.procs[i]? with | some P => ⟨(P.step s.fs).1, s.procs.set i (P.step s.fs).2⟩ | none => s)
    cases hP : s.procs[i]? with
    | none => exact ⟨own, h⟩
    | some P =>
      have hok := (h.procs i P hP).2
      obtain ⟨x, tr, st⟩ := P
      cases st with
      | idle t => exact ⟨_, inv_same h hP rfl hok⟩
      | gone => exact ⟨_, inv_same h hP rfl hok⟩
      | busy p =>
        cases p with
        | op o k => exact inv_op hF h hP rfl
        | ret o =>
          cases o with
          | none => exact ⟨_, inv_same (P' := ⟨x, tr, .gone⟩) h hP rfl trivial⟩
          | some t => exact ⟨_, inv_same (P' := ⟨x, tr, .idle t⟩) h hP rfl (hok.2 t rfl)⟩
  | kill i =>
    show ∃ own', Inv R X F fs0 own' (match s.procs[i]? with | some P => ⟨s.fs, s.procs.set i ⟨P.ctx, P.trace, .gone⟩⟩ | none => s)
    cases hP : s.procs[i]? with
    | none => exact ⟨own, h⟩
    | some P => exact ⟨_, inv_same (P' := ⟨P.ctx, P.trace, .gone⟩) h hP rfl trivial⟩

theorem inv_run (hR : ∀ j x t, R j x t → Reached x t) (hR2 : ∀ j x t t', R j x t → ClientHistory x.env t t' → R j x t') (hR3 : ∀ j x t, s.procs.length ≤ j → Reached x t → R j x t) (hF : ∀ p, F p → ¬ TempName p) (moves : List Move) (hX : ∀ x, Move.start x ∈ moves → X x)
    (hT : ∀ i tf f u, Move.call i (.downloadTarget tf f u) ∈ moves → ∀ x p, X x → targetFilePath x tf f = .ok p → F p)
    (h : ∃ own, Inv R X F fs0 own s) : ∃ own', Inv R X F fs0 own' (s.run moves) := by
  induction moves generalizing s with
  | nil => exact h
  | cons m ms ih =>
    obtain ⟨own, h⟩ := h
    exact ih (fun j x t hj => hR3 j x t (Nat.le_trans (move_length s m) hj)) (fun x hx => hX x (.tail _ hx)) (fun i tf f u hm => hT i tf f u (.tail _ hm))
      (inv_move hR hR2 hR3 hF m (fun x hx => hX x (hx ▸ .head _)) (fun i tf f u hm => hT i tf f u (hm ▸ .head _)) h)

end

end Tuf.Small
