import Verif.Spec.Forgery
import Verif.Props.Sound
import Verif.Props.Payload
import Verif.Props.Publish

/-! # Nothing is accepted that no honest key holder signed (C91) -/

namespace Tuf
open Spec Sample

theorem carries_payloadOf {d : AnyMeta} {sigs : List Signature} {p : Bytes} (h : Carries d sigs p) : payloadOf d = .ok p := by
  cases h <;> (rename_i h1 h2; simp only [payloadOf, payload]; exact Res.bind_eq_ok.2 ⟨_, h1, h2⟩)

/-- If documents say the same, they delegate the same. -/
theorem saysSame_delegates {a b : AnyMeta} (h : SaysSame a b) {role : Str} {keys : GoMap (Option Key)} {ids : List Str} {t : Int} (hd : Delegates b role keys ids t) :
    Delegates a role keys ids t := by
  cases h with
  | root h =>
    cases hd with
    | root hr => rw [← h] at hr ⊢; exact .root hr
  | timestamp h => cases hd
  | snapshot h => cases hd
  | @targets a b h =>
    have hdel : a.signed.delegations.map viewDelegations = b.signed.delegations.map viewDelegations := congrArg TargetsType.delegations h
    cases hd with
    | @targets _ _ d before after v h1 h2 h3 h4 =>
      rw [h1] at hdel
      obtain ⟨d', e1, e2⟩ := Option.map_eq_some_iff.1 hdel
      have k : (viewDelegations d').keys = (viewDelegations d).keys := congrArg Delegations.keys e2
      simp only [viewDelegations] at k
      have r : (viewDelegations d').roles = (viewDelegations d).roles := congrArg Delegations.roles e2
      simp only [viewDelegations] at r
      rw [← k]
      exact .targets e1 (r.trans h2) h3 h4
    | @succinct _ _ d s h1 h2 h3 =>
      rw [h1] at hdel
      obtain ⟨d', e1, e2⟩ := Option.map_eq_some_iff.1 hdel
      have k : (viewDelegations d').keys = (viewDelegations d).keys := congrArg Delegations.keys e2
      simp only [viewDelegations] at k
      have r : (viewDelegations d').roles = (viewDelegations d).roles := congrArg Delegations.roles e2
      simp only [viewDelegations] at r
      have s' : (if d'.roles.isSome then none else d'.succinctRoles) = (if d.roles.isSome then none else d.succinctRoles) :=
        congrArg Delegations.succinctRoles e2
      rw [r, h2] at s'
      rw [← k]
      exact .succinct e1 (r.trans h2) (by simpa [h3] using s')

/-- Documents with the same payload and the right types say the same. -/
theorem payload_saysSame {env : Env} (laws : EnvLaws env) {a b : AnyMeta} {p : Bytes} (ha : ReadFrom env a) (hb : ReadFrom env b) (ta : typeField a = kind a) (tb : typeField b = kind b)
    (h1 : payloadOf a = .ok p) (h2 : payloadOf b = .ok p) : SaysSame a b := by
  have hk : kind a = kind b := by rw [← ta, ← tb]; exact C65_type laws ha hb h1 h2
  cases ha with
  | root ha => cases hb with
    | root hb => exact .root (C65_root laws ha hb h1 h2)
    | _ => exact absurd hk (by simp [kind])
  | snapshot ha => cases hb with
    | snapshot hb => exact .snapshot (C65_snapshot laws ha hb h1 h2)
    | _ => exact absurd hk (by simp [kind])
  | timestamp ha => cases hb with
    | timestamp hb => exact .timestamp (C65_timestamp laws ha hb h1 h2)
    | _ => exact absurd hk (by simp [kind])
  | targets ha => cases hb with
    | targets hb => exact .targets (C65_targets laws ha hb h1 h2)
    | _ => exact absurd hk (by simp [kind])

theorem mapValues_get_some {α : Type} {f : α → α} {m : GoMap (Option α)} {k : Str} {y : α} (h : (mapValues f m).get? k = some (some y)) :
    ∃ x, m.get? k = some (some x) ∧ f x = y := by
  cases m with
  | none => simp [GoMap.get?, GoMap.entries, mapValues] at h
  | some es =>
    have h' : Entries.get? (es.map (fun e => (e.1, e.2.map f))) k = some (some y) := h
    rw [get?_map (fun p : Option α => p.map f)] at h'
    obtain ⟨o, h1, h2⟩ := Option.map_eq_some_iff.1 h'
    obtain ⟨x, rfl, h3⟩ := Option.map_eq_some_iff.1 h2
    exact ⟨x, h1, h3⟩

/-- Every document that meets a threshold is signed by an honest holder. -/
theorem verifies_honest {env : Env} {H : Holders} {D d : AnyMeta} {role : Str} (hg : WellGuarded env H D) (hv : Verifies env D role d) :
    ∃ keys ids t id key pk h sig p, Delegates D role keys ids t ∧ id ∈ ids ∧ keys.get? id = some (some key) ∧ VerifierOf env key pk h ∧ H.honest pk ∧
      env.verifySig pk h sig p = .ok () ∧ payloadOf d = .ok p := by
  obtain ⟨keys, ids, t, hd, _, _, S, hn, ht, hS⟩ := hv
  refine Classical.byContradiction fun hno => ?_
  have : (S.length : Int) < t := by
    refine hg role keys ids t hd S hn ?_
    intro id hid
    obtain ⟨hmem, pk, h, sig, p, ⟨key, sigs, q1, q2, q3, q4⟩, hok⟩ := hS id hid
    refine ⟨hmem, key, pk, h, q1, q2, ?_⟩
    intro hh
    exact hno ⟨keys, ids, t, id, key, pk, h, sig, p, hd, hmem, q1, q2, hh, hok, carries_payloadOf q3⟩
  omega

theorem genuine_of_verifies {env : Env} {H : Holders} {first : Metadata RootType} (laws : EnvLaws env) (hH : Diligent env H) (hfirst : WellGuarded env H (.root first)) {parent role : Str} {D d : AnyMeta}
    (hD : Genuine env H first parent D) (hv : Verifies env D role d) (hr : ReadFrom env d) (ht : typeField d = kind d) : Genuine env H first role d := by
  obtain ⟨D', hE, hsame⟩ := hD
  have hguard : WellGuarded env H D' := by
    cases hE with
    | first => exact hfirst
    | signed _ _ _ _ _ h1 h2 => exact hH.guarded _ _ h1 h2
  have hguard' : WellGuarded env H D := fun role keys ids t h => hguard role keys ids t (saysSame_delegates hsame h)
  obtain ⟨keys, ids, t, id, key, pk, h, sig, p, a1, a2, a3, a4, a5, a6, a7⟩ := verifies_honest hguard' hv
  obtain ⟨d', b1, b2⟩ := hH.unforgeable pk h sig p a5 a6
  obtain ⟨c1, c2⟩ := hH.readable pk d' a5 b1
  exact ⟨d', .signed hE (saysSame_delegates hsame a1) a2 a3 a4 a5 b1, payload_saysSame laws c1 hr c2 ht b2 a7⟩

/-- C91, for the trusted set: after any sequence of calls with any bytes, everything that is trusted says what an honest holder of a key of its role signed, provided fewer
keys than the threshold are compromised, in the first root and in whatever honest holders sign. -/
theorem C91_trusted_set {env : Env} {H : Holders} {t0 t : Trusted} {now : Time} {data : Bytes} (laws : EnvLaws env) (hH : Diligent env H)
    (h0 : Trusted.new env now data = .ok t0) (hg : WellGuarded env H (.root t0.root)) (h : History env t0 t) : AllGenuine env H t0.root t := by
  induction h with
  | refl =>
    obtain ⟨_, _, _, h2, h3, h4, _⟩ := new_root h0
    exact ⟨⟨_, .first, .root rfl⟩, by simp [h2], by simp [h3], by simp [h4]⟩
  | @step t' c _ ih =>
    have key := run_change env t' c
    revert key
    generalize (c.run env t').2 = t''
    intro key
    cases key with
    | none => exact ih
    | root hr =>
      exact ⟨genuine_of_verifies laws hH hg ih.root hr.byOld (.root hr.parsed) hr.type, ih.timestamp, ih.snapshot, ih.targets⟩
    | timestamp hr =>
      refine ⟨ih.root, ?_, ih.snapshot, ih.targets⟩
      intro m hm
      cases hm
      exact genuine_of_verifies laws hH hg ih.root hr.signed (.timestamp hr.parsed) hr.type
    | snapshot hr =>
      refine ⟨ih.root, ih.timestamp, ?_, ih.targets⟩
      intro m hm
      cases hm
      exact genuine_of_verifies laws hH hg ih.root hr.signed (.snapshot hr.parsed) hr.type
    | @targets _ role p new hr =>
      refine ⟨ih.root, ih.timestamp, ih.snapshot, ?_⟩
      intro r m hm
      by_cases hrr : r = role
      · subst hrr
        have hm' : (t'.targets.set r new).get? r = some m := hm
        rw [Entries.get?_set_self] at hm'
        cases hm'
        obtain ⟨sn, ts, f, D, _, _, _, _, _, _, _, h11, h12⟩ := hr.snapshot
        cases h11 with
        | root => exact genuine_of_verifies laws hH hg ih.root h12 (.targets hr.parsed) hr.type
        | targets _ hp => exact genuine_of_verifies laws hH hg (ih.targets _ _ hp) h12 (.targets hr.parsed) hr.type
      · refine ih.targets r m ?_
        have : (t'.targets.set role new).get? r = some m := hm
        rwa [Entries.get?_set_ne _ _ (Ne.symm hrr)] at this

/-- C91, for a client: after `New` and any calls with any outcomes. -/
theorem C91_client {x : Ctx} {H : Holders} {now : Time} {w : World} {t0 : Trusted} {s : St} (laws : EnvLaws x.env) (hH : Diligent x.env H)
    (h0 : Trusted.new x.env now x.cfg.localTrustedRoot = .ok t0) (hg : WellGuarded x.env H (.root t0.root)) (hs : Session x ⟨t0, w⟩ s) :
    AllGenuine x.env H t0.root s.trusted :=
  C91_trusted_set laws hH h0 hg (session_history hs).history

/-- C91, for targets: the bytes that `DownloadTarget` and `FindCachedTarget` return for an info from `GetTargetInfo` have the length and the hashes that a document lists for the
path that an honest holder signed for a role to which the delegations lead. -/
theorem C91_download {x : Ctx} {H : Holders} {now : Time} {w : World} {t0 : Trusted} {s s1 : St} {path : Str} {o : Option TargetFiles} (laws : EnvLaws x.env) (hH : Diligent x.env H)
    (h0 : Trusted.new x.env now x.cfg.localTrustedRoot = .ok t0) (hg : WellGuarded x.env H (.root t0.root)) (hs : Session x ⟨t0, w⟩ s)
    (h1 : getTargetInfo x path s = (.ok o, s1)) :
    ∃ tf f role d, o = some tf ∧ Endorsed x.env H t0.root role (.targets d) ∧ d.signed.targets.get? path = some (some f) ∧
      Reached x.env s1.trusted path (· = b!"targets") role ∧
      ∀ s2 s3 given file data, (∃ base, downloadTarget x tf given base s2 = (.ok (file, data), s3)) ∨
        (findCachedTarget x tf given s2 = (.ok (file, data), s3) ∧ file ≠ []) → TargetMatches x.env f data := by
  obtain ⟨tf, role, m, sn, rfl, hp, _, a2, a3, _, _, _, _, a4⟩ := C83_end_to_end h0 hs h1
  have hs1 : Session x ⟨t0, w⟩ s1 := by
    have := hs.step (.getTargetInfo path)
    simp only [Api.run, h1] at this
    exact this
  obtain ⟨role', m', b1, b2, b3⟩ := C38_delegation_chain h1
  obtain ⟨d', c1, c2⟩ := (C91_client laws hH h0 hg hs1).targets role' m' b2
  cases c2 with
  | @targets d _ hv =>
    have ht : mapValues viewTarget d.signed.targets = mapValues viewTarget m'.signed.targets := congrArg TargetsType.targets hv
    have e1 := mapValues_get? (f := viewTarget) b3
    rw [← ht] at e1
    obtain ⟨f, e2, e3⟩ := mapValues_get_some e1
    refine ⟨tf, f, role', d, rfl, c1, e2, b1, ?_⟩
    intro s2 s3 given file data hdl
    have := a4 s2 s3 given file data hdl
    obtain ⟨l, hh⟩ := this
    have e4 : (viewTarget f).length = (viewTarget tf).length := congrArg TargetFiles.length e3
    have e5 : (viewTarget f).hashes = (viewTarget tf).hashes := congrArg TargetFiles.hashes e3
    simp only [viewTarget] at e4 e5
    exact ⟨by rw [e4]; exact l, by rw [e5]; exact hh⟩

end Tuf
