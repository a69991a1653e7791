import Verif.Spec.Delegation

/-! Lemmas about `VerifyDelegate`. -/

namespace Tuf
open Spec

theorem pick_foldl (id : Str) (sigs : List Signature) (s0 : Signature) :
    (∃ before s after, sigs = before ++ s :: after ∧ s.keyID = id ∧ (∀ u ∈ after, u.keyID ≠ id) ∧
      sigs.foldl (fun sign s => if s.keyID = id then s else sign) s0 = s) ∨
    ((∀ u ∈ sigs, u.keyID ≠ id) ∧ sigs.foldl (fun sign s => if s.keyID = id then s else sign) s0 = s0) := by
  induction sigs generalizing s0 with
  | nil => right; simp
  | cons a r ih =>
    rw [List.foldl_cons]
    rcases ih (if a.keyID = id then a else s0) with ⟨b, s, c, h1, h2, h3, h4⟩ | ⟨h1, h2⟩
    · exact .inl ⟨a :: b, s, c, by simp [h1], h2, h3, h4⟩
    · by_cases ha : a.keyID = id
      · left
        refine ⟨[], a, r, rfl, ha, h1, ?_⟩
        rw [h2, if_pos ha]
      · right
        refine ⟨?_, ?_⟩
        · intro u hu
          rcases List.mem_cons.1 hu with rfl | hu
          · exact ha
          · exact h1 u hu
        · rw [h2, if_neg ha]

theorem signatureFor_pick (id : Str) (sigs : List Signature) :
    SignatureFor sigs id (pickSignature id sigs).sig := by
  unfold pickSignature
  rcases pick_foldl id sigs {} with ⟨b, s, c, h1, h2, h3, h4⟩ | ⟨h1, h2⟩
  · exact .inl ⟨b, s, c, h1, h2, h3, by rw [h4]⟩
  · exact .inr ⟨h1, by rw [h2]⟩

theorem signatureFor_unique {id : Str} {sigs : List Signature} {a b : Bytes}
    (ha : SignatureFor sigs id a) (hb : SignatureFor sigs id b) : a = b := by
  have key : ∀ (x y : List Signature) (s t : Signature) (x' y' : List Signature),
      x ++ s :: y = x' ++ t :: y' → s.keyID = id → t.keyID = id → (∀ u ∈ y, u.keyID ≠ id) →
      (∀ u ∈ y', u.keyID ≠ id) → s = t := by
    intro x
    induction x with
    | nil =>
      intro y s t x' y' h hs ht hy hy'
      cases x' with
      | nil => simp at h; exact h.1
      | cons c x' =>
        simp at h
        exact absurd ht (hy t (by rw [h.2]; simp))
    | cons c x ih =>
      intro y s t x' y' h hs ht hy hy'
      cases x' with
      | nil =>
        simp at h
        exact absurd hs (hy' s (by rw [← h.2]; simp))
      | cons c' x' =>
        simp at h
        exact ih y s t x' y' h.2 hs ht hy hy'
  rcases ha with ⟨x, s, y, h1, h2, h3, h4⟩ | ⟨h1, h2⟩ <;> rcases hb with ⟨x', t, y', g1, g2, g3, g4⟩ | ⟨g1, g2⟩
  · rw [h4, g4, key x y s t x' y' (h1 ▸ g1) h2 g2 h3 g3]
  · exact absurd h2 (g1 s (by rw [h1]; simp))
  · exact absurd g2 (h1 t (by rw [g1]; simp))
  · rw [h2, g2]

theorem signatureFor_iff {id : Str} {sigs : List Signature} {a : Bytes} :
    SignatureFor sigs id a ↔ a = (pickSignature id sigs).sig :=
  ⟨fun h => signatureFor_unique h (signatureFor_pick id sigs), fun h => h ▸ signatureFor_pick id sigs⟩

theorem carries_iff {d : AnyMeta} {sigs : List Signature} {p : Bytes} :
    Carries d sigs p ↔ sigs = d.signatures ∧ d.payload = .ok p := by
  constructor
  · intro h
    cases h with
    | root h1 h2 => exact ⟨rfl, by simp only [AnyMeta.payload, payload, RoleType.marshal, h1, Res.bind_ok, h2]⟩
    | snapshot h1 h2 => exact ⟨rfl, by simp only [AnyMeta.payload, payload, RoleType.marshal, h1, Res.bind_ok, h2]⟩
    | timestamp h1 h2 => exact ⟨rfl, by simp only [AnyMeta.payload, payload, RoleType.marshal, h1, Res.bind_ok, h2]⟩
    | targets h1 h2 => exact ⟨rfl, by simp only [AnyMeta.payload, payload, RoleType.marshal, h1, Res.bind_ok, h2]⟩
  · rintro ⟨rfl, h⟩
    cases d with
    | root m => obtain ⟨j, h1, h2⟩ := Res.bind_eq_ok.1 h; exact .root h1 h2
    | snapshot m => obtain ⟨j, h1, h2⟩ := Res.bind_eq_ok.1 h; exact .snapshot h1 h2
    | timestamp m => obtain ⟨j, h1, h2⟩ := Res.bind_eq_ok.1 h; exact .timestamp h1 h2
    | targets m => obtain ⟨j, h1, h2⟩ := Res.bind_eq_ok.1 h; exact .targets h1 h2
    | other => cases h

theorem verifierOf_iff {env : Env} {k : Key} {pk : PublicKey} {h : HashFn} :
    VerifierOf env k pk h ↔ k.toPublicKey env = .ok pk ∧ hashFor k = h ∧ env.loadVerifier pk h = true := by
  have e1 : (b!"ecdsa" : Str) ≠ b!"rsa" := by decide
  have e2 : (b!"ecdsa-sha2-nistp256" : Str) ≠ b!"rsa" := by decide
  have e3 : (b!"ed25519" : Str) ≠ b!"rsa" := by decide
  have e4 : (b!"ed25519" : Str) ≠ b!"ecdsa" := by decide
  have e5 : (b!"ed25519" : Str) ≠ b!"ecdsa-sha2-nistp256" := by decide
  constructor
  · intro hv
    cases hv with
    | rsa h1 h2 h3 h4 =>
      refine ⟨?_, ?_, h4⟩
      · unfold Key.toPublicKey; rw [if_pos (show k.type = KeyTypeRSASSA_PSS_SHA256 from h1)]; simp only [h2, h3, if_true]
      · unfold hashFor; rw [if_pos (show k.type ≠ KeyTypeEd25519 by rw [h1]; exact e3.symm)]
    | ecdsa h1 h2 h3 h4 =>
      refine ⟨?_, ?_, h4⟩
      · have : k.type ≠ b!"rsa" := by rcases h1 with h1 | h1 <;> rw [h1] <;> assumption
        unfold Key.toPublicKey
        rw [if_neg (show ¬ k.type = KeyTypeRSASSA_PSS_SHA256 from this),
          if_pos (show k.type = KeyTypeECDSA_SHA2_P256 ∨ k.type = KeyTypeECDSA_SHA2_P256_COMPAT from h1)]
        simp only [h2, h3, if_true]
      · have : k.type ≠ b!"ed25519" := by
          rcases h1 with h1 | h1 <;> rw [h1]
          · exact e4.symm
          · exact e5.symm
        unfold hashFor; rw [if_pos (show k.type ≠ KeyTypeEd25519 from this)]
    | ed25519 h1 h2 h3 h4 =>
      refine ⟨?_, ?_, h4⟩
      · unfold Key.toPublicKey
        rw [if_neg (show ¬ k.type = KeyTypeRSASSA_PSS_SHA256 by rw [h1]; exact e3),
          if_neg (show ¬ (k.type = KeyTypeECDSA_SHA2_P256 ∨ k.type = KeyTypeECDSA_SHA2_P256_COMPAT) by
            rw [h1]; rintro (h | h); exact e4 h; exact e5 h),
          if_pos (show k.type = KeyTypeEd25519 from h1)]
        simp only [h2, h3, if_true]
      · unfold hashFor; rw [if_neg (show ¬ k.type ≠ KeyTypeEd25519 from fun h => h h1)]
  · rintro ⟨h1, rfl, h3⟩
    unfold Key.toPublicKey at h1
    split at h1
    · next ht =>
      split at h1
      · next m hm =>
        split at h1
        · next hp =>
          cases h1
          have : hashFor k = .sha256 := by
            unfold hashFor; rw [if_pos (show k.type ≠ KeyTypeEd25519 by rw [ht]; exact e3.symm)]
          rw [this] at h3 ⊢
          exact .rsa ht hm hp h3
        · cases h1
      · cases h1
    · split at h1
      · next ht =>
        split at h1
        · next m hm =>
          split at h1
          · next hp =>
            cases h1
            have : k.type ≠ b!"ed25519" := by
              rcases ht with h1 | h1 <;> rw [h1]
              · exact e4.symm
              · exact e5.symm
            have : hashFor k = .sha256 := by
              unfold hashFor; rw [if_pos (show k.type ≠ KeyTypeEd25519 from this)]
            rw [this] at h3 ⊢
            exact .ecdsa ht hm hp h3
          · cases h1
        · cases h1
      · split at h1
        · next ht =>
          split at h1
          · next m hm =>
            split at h1
            · next hp =>
              cases h1
              have : hashFor k = .none := by
                simp only [hashFor, ht]; simp
              rw [this] at h3 ⊢
              exact .ed25519 ht hm hp h3
            · cases h1
          · cases h1
        · cases h1

theorem question_iff {env : Env} {keys : GoMap (Option Key)} {d : AnyMeta} {id : Str} {pk : PublicKey} {h : HashFn} {sig p : Bytes} :
    Question env keys d id pk h sig p ↔
      ∃ key, keys.get? id = some (some key) ∧ key.toPublicKey env = .ok pk ∧ hashFor key = h ∧ env.loadVerifier pk h = true ∧
        d.payload = .ok p ∧ sig = (pickSignature id d.signatures).sig := by
  unfold Question
  constructor
  · rintro ⟨key, sigs, h1, h2, h3, h4⟩
    obtain ⟨a, b, c⟩ := verifierOf_iff.1 h2
    obtain ⟨rfl, e⟩ := carries_iff.1 h3
    exact ⟨key, h1, a, b, c, e, signatureFor_iff.1 h4⟩
  · rintro ⟨key, h1, a, b, c, e, f⟩
    exact ⟨key, d.signatures, h1, verifierOf_iff.2 ⟨a, b, c⟩, carries_iff.2 ⟨rfl, e⟩, signatureFor_iff.2 f⟩

theorem verifyWithKey_ok {env : Env} {keys : GoMap (Option Key)} {d : AnyMeta} {id : Str} {b : Bool} :
    verifyWithKey env keys d id = .ok b ↔ ∃ pk h sig p, Question env keys d id pk h sig p ∧
      ((b = true ∧ env.verifySig pk h sig p = .ok ()) ∨ (b = false ∧ ∃ e, env.verifySig pk h sig p = .err e)) := by
  simp only [question_iff]
  unfold verifyWithKey
  constructor
  · intro h
    split at h
    · cases h
    · next key hk =>
      rw [Res.bind_eq_ok] at h
      obtain ⟨key', hd, h⟩ := h
      rw [Res.deref_eq_ok] at hd
      subst hd
      rw [Res.bind_eq_ok] at h
      obtain ⟨pk, hpk, h⟩ := h
      split at h
      · cases h
      · next hv =>
        rw [Res.bind_eq_ok] at h
        obtain ⟨p, hp, h⟩ := h
        refine ⟨pk, hashFor key', _, p, ⟨key', hk, hpk, rfl, by simpa using hv, hp, rfl⟩, ?_⟩
        split at h
        · next u hu => cases h; exact .inl ⟨rfl, hu⟩
        · next e he => cases h; exact .inr ⟨rfl, e, he⟩
        · cases h
  · rintro ⟨pk, h, sig, p, ⟨key, hk, hpk, rfl, hv, hp, rfl⟩, (⟨rfl, hu⟩ | ⟨rfl, e, he⟩)⟩
    · simp [hk, hpk, hv, hp, hu]
    · simp [hk, hpk, hv, hp, he]

theorem verifyWithKey_true_iff {env : Env} {keys : GoMap (Option Key)} {d : AnyMeta} {id : Str} :
    verifyWithKey env keys d id = .ok true ↔ Accepted env keys d id := by
  rw [verifyWithKey_ok]
  unfold Accepted
  simp

theorem verifyWithKey_ok_iff {env : Env} {keys : GoMap (Option Key)} {d : AnyMeta} {id : Str} :
    (∃ b, verifyWithKey env keys d id = .ok b) ↔ Decided env keys d id := by
  constructor
  · rintro ⟨b, h⟩
    obtain ⟨pk, h, sig, p, hq, (⟨_, hu⟩ | ⟨_, e, he⟩)⟩ := verifyWithKey_ok.1 h
    · exact ⟨pk, h, sig, p, hq, by rw [hu]; simp⟩
    · exact ⟨pk, h, sig, p, hq, by rw [he]; simp⟩
  · rintro ⟨pk, h, sig, p, hq, hu⟩
    cases hc : env.verifySig pk h sig p with
    | ok u => exact ⟨true, verifyWithKey_ok.2 ⟨pk, h, sig, p, hq, .inl ⟨rfl, hc⟩⟩⟩
    | err e => exact ⟨false, verifyWithKey_ok.2 ⟨pk, h, sig, p, hq, .inr ⟨rfl, e, hc⟩⟩⟩
    | panic => exact absurd hc hu

theorem verifyLoop_ok {env : Env} {keys : GoMap (Option Key)} {d : AnyMeta} {ids acc res : List Str}
    (h : verifyLoop env keys d ids acc = .ok res) (hn : acc.Nodup) :
    res.Nodup ∧ (∀ x, x ∈ res ↔ x ∈ acc ∨ (x ∈ ids ∧ Accepted env keys d x)) ∧ ∀ x ∈ ids, Decided env keys d x := by
  induction ids generalizing acc with
  | nil =>
    simp [verifyLoop] at h
    subst h
    simp [hn]
  | cons id r ih =>
    simp only [verifyLoop] at h
    rw [Res.bind_eq_ok] at h
    obtain ⟨b, hb, h⟩ := h
    have hd : Decided env keys d id := verifyWithKey_ok_iff.1 ⟨b, hb⟩
    have hacc : Accepted env keys d id ↔ b = true := by
      rw [← verifyWithKey_true_iff, hb]; simp
    by_cases hc : (b = true ∧ id ∉ acc)
    · rw [if_pos hc] at h
      obtain ⟨h1, h2, h3⟩ := ih h (List.nodup_cons.2 ⟨hc.2, hn⟩)
      refine ⟨h1, ?_, ?_⟩
      · intro x
        rw [h2 x]
        simp only [List.mem_cons]
        constructor
        · rintro ((rfl | h) | ⟨h, h'⟩)
          · exact .inr ⟨.inl rfl, hacc.2 hc.1⟩
          · exact .inl h
          · exact .inr ⟨.inr h, h'⟩
        · rintro (h | ⟨(rfl | h), h'⟩)
          · exact .inl (.inr h)
          · exact .inl (.inl rfl)
          · exact .inr ⟨h, h'⟩
      · intro x hx
        rcases List.mem_cons.1 hx with rfl | hx
        · exact hd
        · exact h3 x hx
    · rw [if_neg hc] at h
      obtain ⟨h1, h2, h3⟩ := ih h hn
      refine ⟨h1, ?_, ?_⟩
      · intro x
        rw [h2 x]
        simp only [List.mem_cons]
        constructor
        · rintro (h | ⟨h, h'⟩)
          · exact .inl h
          · exact .inr ⟨.inr h, h'⟩
        · rintro (h | ⟨(rfl | h), h'⟩)
          · exact .inl h
          · have hb' := hacc.1 h'
            exact .inl (Classical.byContradiction fun hm => hc ⟨hb', hm⟩)
          · exact .inr ⟨h, h'⟩
      · intro x hx
        rcases List.mem_cons.1 hx with rfl | hx
        · exact hd
        · exact h3 x hx

theorem verifyLoop_total {env : Env} {keys : GoMap (Option Key)} {d : AnyMeta} {ids : List Str}
    (h : ∀ x ∈ ids, Decided env keys d x) (acc : List Str) : ∃ res, verifyLoop env keys d ids acc = .ok res := by
  induction ids generalizing acc with
  | nil => exact ⟨acc, rfl⟩
  | cons id r ih =>
    obtain ⟨b, hb⟩ := verifyWithKey_ok_iff.2 (h id (by simp))
    simp only [verifyLoop, hb, Res.bind_ok]
    exact ih (fun x hx => h x (by simp [hx])) _

theorem delegationOf_ok_iff {delegator : AnyMeta} {role : Str} {keys : GoMap (Option Key)} {ids : List Str} {t : Int}
    (hne : ids ≠ []) :
    delegationOf delegator role = .ok (keys, ids, t) ↔ Delegates delegator role keys ids t := by
  constructor
  · intro h
    unfold delegationOf at h
    split at h
    · next m =>
      split at h
      · next r hr =>
        rw [Res.bind_eq_ok] at h
        obtain ⟨r', hd, h⟩ := h
        rw [Res.deref_eq_ok] at hd
        subst hd
        cases h
        exact .root hr
      · cases h
    · next m =>
      split at h
      · cases h
      · next d hd =>
        split at h
        · next rs hrs =>
          split at h
          · next v hv =>
            cases h
            rw [List.find?_eq_some_iff_append] at hv
            obtain ⟨h1, as, bs, h2, h3⟩ := hv
            refine .targets hd (h2 ▸ hrs) (by simpa using h1) ?_
            intro u hu
            simpa using h3 u hu
          · cases h
        · next hrs =>
          split at h
          · next s hs => cases h; exact .succinct hd hrs hs
          · cases h; exact absurd rfl hne
    · cases h
  · intro h
    unfold delegationOf
    cases h with
    | root h => simp [h]
    | @targets m _ d before after v h1 h2 h3 h4 =>
      simp only [h1, h2]
      have : (before ++ v :: after).find? (fun v => decide (v.name = role)) = some v := by
        rw [List.find?_eq_some_iff_append]
        refine ⟨by simpa using h3, before, after, rfl, ?_⟩
        intro u hu
        simpa using h4 u hu
      simp [this]
    | succinct h1 h2 h3 => simp [h1, h2, h3]

theorem Spec.Delegates.functional {delegator : AnyMeta} {role : Str} {k k' : GoMap (Option Key)} {i i' : List Str} {t t' : Int}
    (h : Delegates delegator role k i t) (h' : Delegates delegator role k' i' t') : k = k' ∧ i = i' ∧ t = t' := by
  have key : ∀ {k i t}, Delegates delegator role k i t → delegationOf delegator role = .ok (k, i, t) := by
    intro k i t h
    unfold delegationOf
    cases h with
    | root h => simp [h]
    | @targets m _ d before after v h1 h2 h3 h4 =>
      simp only [h1, h2]
      have : (before ++ v :: after).find? (fun v => decide (v.name = role)) = some v := by
        rw [List.find?_eq_some_iff_append]
        refine ⟨by simpa using h3, before, after, rfl, ?_⟩
        intro u hu
        simpa using h4 u hu
      simp [this]
    | succinct h1 h2 h3 => simp [h1, h2, h3]
  have := (key h).symm.trans (key h')
  injection this with this
  injection this with a b
  injection b with b c
  exact ⟨a, b, c⟩

/-- The exact acceptance condition. -/
theorem verifyDelegate_ok_iff {env : Env} {delegator d : AnyMeta} {role : Str} :
    verifyDelegate env delegator role d = .ok () ↔ Verifies env delegator role d := by
  constructor
  · intro h
    unfold verifyDelegate at h
    rw [Res.bind_eq_ok] at h
    obtain ⟨⟨keys, ids, t⟩, hd, h⟩ := h
    simp only at h
    split at h
    · cases h
    · next hne =>
      rw [Res.bind_eq_ok] at h
      obtain ⟨res, hl, h⟩ := h
      split at h
      · cases h
      · next ht =>
        obtain ⟨h1, h2, h3⟩ := verifyLoop_ok hl List.nodup_nil
        refine ⟨keys, ids, t, (delegationOf_ok_iff hne).1 hd, hne, h3, res, h1, by omega, ?_⟩
        intro id hid
        simpa using (h2 id).1 hid
  · rintro ⟨keys, ids, t, hd, hne, hdec, S, hS, ht, hacc⟩
    obtain ⟨res, hl⟩ := verifyLoop_total hdec []
    obtain ⟨h1, h2, h3⟩ := verifyLoop_ok hl List.nodup_nil
    have hle : S.length ≤ res.length :=
      hS.length_le_of_subset (fun x hx => (h2 x).2 (.inr (hacc x hx)))
    have : ¬ ((res.length : Int) < t) := by omega
    unfold verifyDelegate
    simp [(delegationOf_ok_iff hne).2 hd, hne, hl, this]

theorem verifyDelegate_trusts {env : Env} {delegator d : AnyMeta} {role : Str}
    (h : verifyDelegate env delegator role d = .ok ()) : Trusts env delegator role d := by
  obtain ⟨keys, ids, t, h1, h2, _, h3⟩ := verifyDelegate_ok_iff.1 h
  exact ⟨keys, ids, t, h1, h2, h3⟩

theorem Spec.Verifies.trusts {env : Env} {delegator d : AnyMeta} {role : Str} (h : Verifies env delegator role d) :
    Trusts env delegator role d := verifyDelegate_trusts (verifyDelegate_ok_iff.2 h)

end Tuf
