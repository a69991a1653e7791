import Verif.Props.BasicRepository

/-! # C118: the second example repository, its parts -/

namespace Tuf
open Tuf.Spec Tuf.Std

section
variable {env : Env} {k : BasicSigners} {e : BasicTimes} {f : TargetFiles}

/-! ## Who suffices -/

theorem basic_suffice (hk : BasicKeys env k) {es : List RootEdit} (hes : ∀ x ∈ es, x ∈ basicHist3 env k) {role : Str} (hrole : role ∈ topLevel) {ss S : List Signer}
    (hss : ∀ s ∈ ss, s ∈ k.all) (hS : S.Sublist k.all) (hin : ∀ s ∈ S, s ∈ ss ∧ Granted env es role (idFor env s)) (ht : thresholdAfter es role = S.length) (h1 : S ≠ [])
    (m : Metadata RootType) (hm : m.signed = rootAfter env e.root es) : Suffice env (.root m) role ss := by
  have hw : ∀ s ∈ k.all, Employed env s := hk.work
  refine granted_suffice (staff_of hk.work hk.distinct) (basic_inv hk e.root es hes) hrole ?_ hss (S := S.map (idFor env)) ?_ ?_ ?_ m hm
  · rw [ht]
    cases S with
    | nil => exact absurd rfl h1
    | cons a l => simp only [List.length_cons]; omega
  · exact (nodup_ids hk.work hk.distinct).sublist (hS.map _)
  · rw [ht]
    simp
  · intro id hid
    obtain ⟨s, h2, rfl⟩ := List.mem_map.1 hid
    exact ⟨(hin s h2).2, s, (hin s h2).1, ((hw s (hS.subset h2)).signerID _).2 rfl⟩

/-- The lists of signers that the program uses. -/
theorem basic_sublists (k : BasicSigners) : [k.targets].Sublist k.all ∧ [k.snapshot].Sublist k.all ∧ [k.timestamp].Sublist k.all ∧ [k.root].Sublist k.all ∧ [k.delegatee].Sublist k.all ∧
    [k.root, k.another].Sublist k.all ∧ [k.another, k.newRoot].Sublist k.all ∧ [k.root, k.another, k.newRoot].Sublist k.all ∧ [k.another, k.newRoot, k.rsa, k.ecdsa].Sublist k.all ∧
    [k.root, k.another, k.newRoot, k.rsa, k.ecdsa].Sublist k.all := by
  have n : ∀ l : List Signer, [].Sublist l := List.nil_sublist
  refine ⟨.cons_cons _ (n _), .cons _ (.cons_cons _ (n _)), .cons _ (.cons _ (.cons_cons _ (n _))), .cons _ (.cons _ (.cons _ (.cons_cons _ (n _)))),
    .cons _ (.cons _ (.cons _ (.cons _ (.cons _ (.cons_cons _ (n _)))))), .cons _ (.cons _ (.cons _ (.cons_cons _ (.cons_cons _ (n _))))),
    .cons _ (.cons _ (.cons _ (.cons _ (.cons_cons _ (.cons _ (.cons_cons _ (n _))))))), .cons _ (.cons _ (.cons _ (.cons_cons _ (.cons_cons _ (.cons _ (.cons_cons _ (n _))))))),
    .cons _ (.cons _ (.cons _ (.cons _ (.cons_cons _ (.cons _ (.cons_cons _ (.cons_cons _ (.cons_cons _ (n _))))))))),
    .cons _ (.cons _ (.cons _ (.cons_cons _ (.cons_cons _ (.cons _ (.cons_cons _ (.cons_cons _ (.cons_cons _ (n _)))))))))⟩

theorem basic_apart (hk : BasicKeys env k) {ss : List Signer} (h : ss.Sublist k.all) : (∀ s ∈ ss, Employed env s) ∧ Apart env ss := ⟨fun s hs => hk.work s (h.subset hs), hk.distinct.sublist h⟩

theorem reread_granted (role id : Str) : Granted env (basicHist1' env k) role id ↔ Granted env (basicHist1 env k) role id := by
  unfold Granted basicHist1'
  rw [List.foldl_append]
  exact Iff.rfl

theorem reread_threshold (role : Str) : thresholdAfter (basicHist1' env k) role = thresholdAfter (basicHist1 env k) role := by
  unfold thresholdAfter basicHist1'
  rw [List.foldl_append]
  rfl

/-- Who suffices for the roles of the roots. -/
theorem basic_all_suffice (hk : BasicKeys env k) (m : Metadata RootType) :
    (m.signed = basicR1' env e k → Suffice env (.root m) ROOT [k.root, k.another] ∧ Suffice env (.root m) ROOT [k.root, k.another, k.newRoot] ∧ Suffice env (.root m) TARGETS [k.targets] ∧
      Suffice env (.root m) SNAPSHOT [k.snapshot] ∧ Suffice env (.root m) TIMESTAMP [k.timestamp]) ∧
    (m.signed = basicR2 env e k → Suffice env (.root m) ROOT [k.root, k.another, k.newRoot] ∧ Suffice env (.root m) ROOT [k.root, k.another, k.newRoot, k.rsa, k.ecdsa] ∧
      Suffice env (.root m) TARGETS [k.targets] ∧ Suffice env (.root m) SNAPSHOT [k.snapshot] ∧ Suffice env (.root m) TIMESTAMP [k.timestamp]) ∧
    (m.signed = basicR3 env e k → Suffice env (.root m) ROOT [k.root, k.another, k.newRoot, k.rsa, k.ecdsa] ∧ Suffice env (.root m) TARGETS [k.targets] ∧
      Suffice env (.root m) SNAPSHOT [k.snapshot] ∧ Suffice env (.root m) TIMESTAMP [k.timestamp]) := by
  obtain ⟨l1, l2, l3, l4, l5, l6, l7, l8, l9, l10⟩ := basic_sublists k
  obtain ⟨t1, t2, t3, t4⟩ := basic_threshold (env := env) k
  obtain ⟨u1, u2, u3⟩ := t4 _ (.inl rfl)
  obtain ⟨v1, v2, v3⟩ := t4 _ (.inr (.inl rfl))
  obtain ⟨w1, w2, w3⟩ := t4 _ (.inr (.inr rfl))
  have g := basic_granted hk
  obtain ⟨_, s1, s2⟩ := basicHist_sub (env := env) (k := k)
  have one : ∀ {es : List RootEdit} {role : Str} {s : Signer}, (∀ x ∈ es, x ∈ basicHist3 env k) → role ∈ topLevel → [s].Sublist k.all → Granted env es role (idFor env s) → thresholdAfter es role = 1 →
      m.signed = rootAfter env e.root es → Suffice env (.root m) role [s] := by
    intro es role s h1 h2 h3 h4 h5 h6
    exact basic_suffice hk h1 h2 (S := [s]) (fun x hx => h3.subset hx) h3 (fun x hx => ⟨hx, by rw [List.mem_singleton] at hx; rw [hx]; exact h4⟩) (by rw [h5]; rfl) (by simp) m h6
  refine ⟨fun h => ?_, fun h => ?_, fun h => ?_⟩
  · refine ⟨?_, ?_, ?_, ?_, ?_⟩
    · refine basic_suffice hk s1 (by simp [topLevel]) (S := [k.root, k.another]) l6.subset l6 (fun s hs => ⟨hs, ?_⟩) (by rw [reread_threshold, t1]; rfl) (by simp) m h
      rw [reread_granted, (g _).1]
      simp only [List.mem_cons, List.not_mem_nil, or_false] at hs
      rcases hs with rfl | rfl <;> simp
    · refine basic_suffice hk s1 (by simp [topLevel]) (S := [k.root, k.another]) l8.subset l6 (fun s hs => ⟨?_, ?_⟩) (by rw [reread_threshold, t1]; rfl) (by simp) m h
      · simp only [List.mem_cons, List.not_mem_nil, or_false] at hs ⊢
        rcases hs with rfl | rfl <;> simp
      · rw [reread_granted, (g _).1]
        simp only [List.mem_cons, List.not_mem_nil, or_false] at hs
        rcases hs with rfl | rfl <;> simp
    · exact one s1 (by simp [topLevel]) l1 (by rw [reread_granted, (((g _).2.2.2 _ (.inl rfl)).1)]) (by rw [reread_threshold, u1]) h
    · exact one s1 (by simp [topLevel]) l2 (by rw [reread_granted, (((g _).2.2.2 _ (.inl rfl)).2.1)]) (by rw [reread_threshold, u2]) h
    · exact one s1 (by simp [topLevel]) l3 (by rw [reread_granted, (((g _).2.2.2 _ (.inl rfl)).2.2)]) (by rw [reread_threshold, u3]) h
  · refine ⟨?_, ?_, ?_, ?_, ?_⟩
    · refine basic_suffice hk s2 (by simp [topLevel]) (S := [k.another, k.newRoot]) l8.subset l7 (fun s hs => ⟨?_, ?_⟩) (by rw [t2]; rfl) (by simp) m h
      · simp only [List.mem_cons, List.not_mem_nil, or_false] at hs ⊢
        rcases hs with rfl | rfl <;> simp
      · rw [(g _).2.1]
        simp only [List.mem_cons, List.not_mem_nil, or_false] at hs
        rcases hs with rfl | rfl <;> simp
    · refine basic_suffice hk s2 (by simp [topLevel]) (S := [k.another, k.newRoot]) l10.subset l7 (fun s hs => ⟨?_, ?_⟩) (by rw [t2]; rfl) (by simp) m h
      · simp only [List.mem_cons, List.not_mem_nil, or_false] at hs ⊢
        rcases hs with rfl | rfl <;> simp
      · rw [(g _).2.1]
        simp only [List.mem_cons, List.not_mem_nil, or_false] at hs
        rcases hs with rfl | rfl <;> simp
    · exact one s2 (by simp [topLevel]) l1 (by rw [(((g _).2.2.2 _ (.inr (.inl rfl))).1)]) v1 h
    · exact one s2 (by simp [topLevel]) l2 (by rw [(((g _).2.2.2 _ (.inr (.inl rfl))).2.1)]) v2 h
    · exact one s2 (by simp [topLevel]) l3 (by rw [(((g _).2.2.2 _ (.inr (.inl rfl))).2.2)]) v3 h
  · have s3 : ∀ x ∈ basicHist3 env k, x ∈ basicHist3 env k := fun _ h => h
    refine ⟨?_, ?_, ?_, ?_⟩
    · refine basic_suffice hk s3 (by simp [topLevel]) (S := [k.another, k.newRoot, k.rsa, k.ecdsa]) l10.subset l9 (fun s hs => ⟨?_, ?_⟩) (by rw [t3]; rfl) (by simp) m h
      · simp only [List.mem_cons, List.not_mem_nil, or_false] at hs ⊢
        rcases hs with rfl | rfl | rfl | rfl <;> simp
      · rw [(g _).2.2.1]
        simp only [List.mem_cons, List.not_mem_nil, or_false] at hs
        rcases hs with rfl | rfl | rfl | rfl <;> simp
    · exact one s3 (by simp [topLevel]) l1 (by rw [(((g _).2.2.2 _ (.inr (.inr rfl))).1)]) w1 h
    · exact one s3 (by simp [topLevel]) l2 (by rw [(((g _).2.2.2 _ (.inr (.inr rfl))).2.1)]) w2 h
    · exact one s3 (by simp [topLevel]) l3 (by rw [(((g _).2.2.2 _ (.inr (.inr rfl))).2.2)]) w3 h

/-- The delegatee suffices for the delegation. -/
theorem delegatee_suffice {s : Signer} (h : Employed env s) (m : Metadata TargetsType) (hm : m.signed.delegations = some (basicDelegation env s)) :
    Suffice env (.targets m) basicDelegatee [s] := by
  obtain ⟨pk, key, w, hk⟩ := h
  have hE : Employed env s := ⟨pk, key, w, hk⟩
  have hstaff : Staff env [s] := staff_of (fun x hx => by rw [List.mem_singleton] at hx; rw [hx]; exact hE) (List.pairwise_singleton _ _)
  refine ⟨_, _, _, .targets (before := []) (after := []) hm rfl rfl (fun _ h => by cases h), Int.le_refl 1, ⟨[idFor env s], by simp, Int.le_refl 1, ?_⟩, ?_⟩
  · intro id hid
    rw [List.mem_singleton] at hid
    subst hid
    exact ⟨by simp [Slice.elems], s, by simp, (hE.signerID _).2 rfl⟩
  · intro id hid
    have hid : id ∈ [idFor env s] := hid
    rw [List.mem_singleton] at hid
    subst hid
    obtain ⟨pk1, hp1, hk1⟩ := hE.made
    obtain ⟨s0, h2, pk', h3, h4, h5⟩ := staffKey_verifier (k := filedOf env s) hstaff ⟨s, by simp, pk1, _, _, hp1, hk1, hE.filed.1, rfl⟩
    rw [List.mem_singleton] at h2
    subst h2
    refine ⟨filedOf env s0, pk', _, ?_, h5, h4.total, ?_⟩
    · show Entries.get? [(idFor env s0, some (filedOf env s0))] (idFor env s0) = _
      rw [Entries.get?_cons]
      simp
    · intro s' hs' _ p sig hsig
      rw [List.mem_singleton] at hs'
      subst hs'
      obtain ⟨sig', w1, w2⟩ := h4.signs p
      rw [w1] at hsig
      cases hsig
      exact w2

/-! ## The parts -/

variable {mt1 mt2 md : Metadata TargetsType} {ms1 ms2 : Metadata SnapshotType} {mi1 mi2 : Metadata TimestampType} {mr0 mr1 mr2 mr3 : Metadata RootType}
  {dt1 dt2 dd ds1 ds2 di1 di2 dr0 dr1 dr2 dr3 : Bytes}

theorem verify_run {a b : RootType} {t t' : TargetsType} {s s' : SnapshotType} {i i' : TimestampType} {ss : List Signer} {st : BasicState} {d1 d2 d3 d4 : Bytes}
    (hr : Doc env a b ss st.root d1) (ht : Doc env t t' [k.targets] st.targets d2) (hs : Doc env s s' [k.snapshot] st.snapshot d3) (hi : Doc env i i' [k.timestamp] st.timestamp d4)
    (f1 : Suffice env (.root st.root) ROOT ss) (f2 : Suffice env (.root st.root) TARGETS [k.targets]) (f3 : Suffice env (.root st.root) SNAPSHOT [k.snapshot])
    (f4 : Suffice env (.root st.root) TIMESTAMP [k.timestamp]) : basicVerify env st = .ok () := by
  have v1 : verifyDelegate env (.root st.root) ROOT (.root st.root) = .ok () := signed_verifies C08_all_types.1 hr.made f1
  have v2 : verifyDelegate env (.root st.root) TARGETS (.targets st.targets) = .ok () := signed_verifies C08_all_types.2.2.2 ht.made f2
  have v3 : verifyDelegate env (.root st.root) SNAPSHOT (.snapshot st.snapshot) = .ok () := signed_verifies C08_all_types.2.1 hs.made f3
  have v4 : verifyDelegate env (.root st.root) TIMESTAMP (.timestamp st.timestamp) = .ok () := signed_verifies C08_all_types.2.2.1 hi.made f4
  unfold basicVerify
  rw [v1, Res.bind_ok, v2, Res.bind_ok, v3, Res.bind_ok, v4]

theorem delegate_run (hk : BasicKeys env k) {root : Metadata RootType} (ht : mt1.signed = basicT1 env e f ∧ mt1.unrec = []) (hs : ms1.signed = basicS1 e ∧ ms1.unrec = [])
    (hi : mi1.signed = basicI1 e ∧ mi1.unrec = []) (ht2 : Doc env (basicT2 env e f k) (readTargets (basicT2 env e f k)) [k.targets] mt2 dt2)
    (hs2 : Doc env (basicS2 e) (viewSnapshot (basicS2 e)) [k.snapshot] ms2 ds2) (hi2 : Doc env (basicI2 e) (viewTimestamp (basicI2 e)) [k.timestamp] mi2 di2)
    (hd : Doc env (basicD env e f) (readTargets (basicD env e f)) [k.delegatee] md dd) :
    basicDelegate env e f k ⟨root, mt1, ms1, mi1, [(b!"1.root.json", dr1), (b!"1.snapshot.json", ds1), (b!"1.targets.json", dt1), (b!"timestamp.json", di1)]⟩ =
      .ok (⟨root, mt2, ms2, mi2, [(b!"1.go-scripts.json", dd), (b!"1.root.json", dr1), (b!"1.snapshot.json", ds1), (b!"1.targets.json", dt1), (b!"2.snapshot.json", ds2), (b!"2.targets.json", dt2),
        (b!"timestamp.json", di2)]⟩, md) := by
  have hw : ∀ s ∈ k.all, Employed env s := hk.work
  have hB : bump 1 = 2 := by decide
  have eT : clearSignatures { mt1 with signed := basicTargets2 e (basicDelegation env k.delegatee) mt1.signed } = { signed := basicT2 env e f k, signatures := some [] } := by
    rw [clear_of ht.2, ht.1]
    rfl
  have hS : clearSignatures { ms1 with signed := { ms1.signed with metas := (basicS2 e).metas, version := bump ms1.signed.version } } = { signed := basicS2 e, signatures := some [] } := by
    rw [clear_of hs.2, hs.1]
    rfl
  have hI : clearSignatures { mi1 with signed := { mi1.signed with metas := (basicI2 e).metas, version := bump mi1.signed.version } } = { signed := basicI2 e, signatures := some [] } := by
    rw [clear_of hi.2, hi.1]
    rfl
  have hD : clearSignatures { newTargets e.delegatee with signed := { (newTargets e.delegatee).signed with targets := (basicD env e f).targets } } = { signed := basicD env e f, signatures := some [] } := rfl
  obtain ⟨es, h1, h2⟩ : ∃ es, ms1.signed.metas.set b!"targets.json" (some (newMetaFile (bump mt1.signed.version))) = .ok es ∧ es.set (basicDelegatee ++ b!".json") (some (newMetaFile 1)) = .ok (basicS2 e).metas := by
    rw [hs.1, ht.1]
    exact ⟨_, rfl, rfl⟩
  have h3 : mi1.signed.metas.set b!"snapshot.json" (some (newMetaFile (bump ms1.signed.version))) = .ok (basicI2 e).metas := by
    rw [hi.1, hs.1]
    rfl
  unfold basicDelegate
  dsimp only
  rw [show (newTargets e.delegatee).signed.targets.set basicTarget (some f) = .ok (basicD env e f).targets from rfl, Res.bind_ok, delegation_made (hw k.delegatee (by simp [BasicSigners.all])), Res.bind_ok,
    h1, Res.bind_ok, h2, Res.bind_ok, h3, Res.bind_ok, eT, ht2.signed, Res.bind_ok, write_doc ht2.bytes, Res.bind_ok, hS, hs2.signed, Res.bind_ok, write_doc hs2.bytes, Res.bind_ok,
    hI, hi2.signed, Res.bind_ok, write_doc hi2.bytes, Res.bind_ok, hD, hd.signed, Res.bind_ok, write_doc hd.bytes, Res.bind_ok, ht2.value, hs2.value, hd.value]
  rfl

theorem rotate_run (hk : BasicKeys env k) (hr : mr1.signed = basicR1' env e k ∧ mr1.unrec = []) {t' : TargetsType} {s s' : SnapshotType} {i i' : TimestampType}
    (ht : Doc env (basicT2 env e f k) t' [k.targets] mt2 dt2) (hs : Doc env s s' [k.snapshot] ms2 ds2) (hi : Doc env i i' [k.timestamp] mi2 di2)
    (hd : Doc env (basicD env e f) (readTargets (basicD env e f)) [k.delegatee] md dd)
    (hr2 : Doc env (basicR2 env e k) (readRoot (basicR2 env e k)) [k.root, k.another, k.newRoot] mr2 dr2) (dir : Entries Bytes) :
    basicRotate env k ⟨mr1, mt2, ms2, mi2, dir⟩ md = .ok ⟨mr2, mt2, ms2, mi2, dir.set b!"2.root.json" dr2⟩ := by
  have hw : ∀ s ∈ k.all, Employed env s := hk.work
  obtain ⟨s0, s1, s2⟩ := basicHist_sub (env := env) (k := k)
  have inv1 := basic_inv hk e.root _ s1
  have inv2 := basic_inv hk e.root (basicHist1' env k ++ [.revoke (idFor env k.root) ROOT]) (by
    intro x hx
    refine s2 x ?_
    unfold basicHist2
    rcases List.mem_append.1 hx with hx | hx
    · exact List.mem_append_left _ hx
    · exact List.mem_append_right _ (List.mem_append_left _ (List.mem_append_left _ hx)))
  obtain ⟨a, ha, hm, _⟩ := inv1.roles ROOT (by simp [topLevel])
  obtain ⟨r', q1, _⟩ := C57_revoke_key (rootAfter env e.root (basicHist1' env k)) (idFor env k.root) ROOT a inv1.edit.good ha (by
    rw [hm, reread_granted, (basic_granted hk _).1]
    exact .inl rfl)
  have hr' : rootAfter env e.root (basicHist1' env k ++ [.revoke (idFor env k.root) ROOT]) = r' := by
    rw [rootAfter_append]
    show (RootType.revokeKey _ _ _).2 = r'
    rw [q1]
  rw [hr'] at inv2
  have hg : genKeys env [(ROOT, k.newRoot)] r' = _ := genKeys_run hk.work (by
    intro p hp
    rw [List.mem_singleton] at hp
    subst hp
    simp [topLevel, BasicSigners.all]) inv2
  have hR : basicR2 env e k = { (addsOf env [(ROOT, k.newRoot)]).foldl (RootEdit.run env) r' with version := 2 } := by
    rw [basicR2_eq, List.foldl_append, List.foldl_append, ← hr', rootAfter_append]
    rfl
  have hv : ((addsOf env [(ROOT, k.newRoot)]).foldl (RootEdit.run env) r').version = 1 := by
    rw [(quiet_rest (quiet_adds _) r').1, ← hr', rootAfter_append]
    rw [(quiet_rest (fun x hx => by rw [List.mem_singleton] at hx; subst hx; trivial) _).1]
    show (basicR1' env e k).version = 1
    rw [basicR1'_eq]
    exact basic_versions.1
  have hC : clearSignatures { mr1 with signed := { (addsOf env [(ROOT, k.newRoot)]).foldl (RootEdit.run env) r' with version := bump ((addsOf env [(ROOT, k.newRoot)]).foldl (RootEdit.run env) r').version } } =
      { signed := basicR2 env e k, signatures := some [] } := by
    rw [clear_of hr.2, hv, show bump 1 = 2 by decide, hR]
  obtain ⟨f1, _, f2, f3, f4⟩ := (basic_all_suffice (e := e) hk mr2).2.1 hr2.value
  have hV := verify_run (st := ⟨mr2, mt2, ms2, mi2, dir.set b!"2.root.json" dr2⟩) hr2 ht hs hi f1 f2 f3 f4
  have hV2 : verifyDelegate env (.targets mt2) basicDelegatee (.targets md) = .ok () :=
    signed_verifies C08_all_types.2.2.2 hd.made (delegatee_suffice (hw k.delegatee (by simp [BasicSigners.all])) mt2 (by rw [ht.value]; rfl))
  unfold basicRotate
  dsimp only
  rw [keyID_made (hw k.root (by simp [BasicSigners.all])), Res.bind_ok, hr.1, show basicR1' env e k = rootAfter env e.root (basicHist1' env k) from rfl, q1]
  dsimp only
  rw [Res.bind_ok, hg, Res.bind_ok, hC, hr2.signed, Res.bind_ok, write_doc hr2.bytes, Res.bind_ok, hr2.value, basic_versions.2.1, show versionedFile 2 ROOT = b!"2.root.json" by decide, hV, Res.bind_ok,
    hV2, Res.bind_ok]

theorem mix_run (hk : BasicKeys env k) (hr : mr2.signed = basicR2 env e k ∧ mr2.unrec = [])
    (hr3 : Doc env (basicR3 env e k) (readRoot (basicR3 env e k)) [k.root, k.another, k.newRoot, k.rsa, k.ecdsa] mr3 dr3) (t : Metadata TargetsType) (s : Metadata SnapshotType) (i : Metadata TimestampType)
    (dir : Entries Bytes) : basicMix env k ⟨mr2, t, s, i, dir⟩ = .ok ⟨mr3, t, s, i, dir.set b!"3.root.json" dr3⟩ := by
  obtain ⟨s0, s1, s2⟩ := basicHist_sub (env := env) (k := k)
  have inv1 := basic_inv hk e.root _ s2
  have inv2 := basic_inv hk e.root (basicHist2 env k ++ addsOf env [(ROOT, k.rsa), (ROOT, k.ecdsa)]) (by
    intro x hx
    unfold basicHist3
    rcases List.mem_append.1 hx with hx | hx
    · exact List.mem_append_left _ hx
    · exact List.mem_append_right _ (List.mem_append_left _ hx))
  rw [rootAfter_append] at inv2
  have hg : genKeys env [(ROOT, k.rsa), (ROOT, k.ecdsa)] (rootAfter env e.root (basicHist2 env k)) = _ := genKeys_run hk.work (by
    intro p hp
    simp only [List.mem_cons, List.not_mem_nil, or_false] at hp
    rcases hp with rfl | rfl <;> simp [topLevel, BasicSigners.all]) inv1
  have hth := setThreshold_run inv2 (role := ROOT) (by simp [topLevel]) 4
  have hR : basicR3 env e k = { RootEdit.run env ((addsOf env [(ROOT, k.rsa), (ROOT, k.ecdsa)]).foldl (RootEdit.run env) (rootAfter env e.root (basicHist2 env k))) (.threshold ROOT 4) with version := 3 } := by
    rw [basicR3_eq, List.foldl_append]
    rfl
  have hv : (RootEdit.run env ((addsOf env [(ROOT, k.rsa), (ROOT, k.ecdsa)]).foldl (RootEdit.run env) (rootAfter env e.root (basicHist2 env k))) (.threshold ROOT 4)).version = 2 := by
    rw [(run_rest _ _ (by simp) (by simp) (by simp)).1, (quiet_rest (quiet_adds _) _).1]
    exact basic_versions.2.1
  generalize RootEdit.run env ((addsOf env [(ROOT, k.rsa), (ROOT, k.ecdsa)]).foldl (RootEdit.run env) (rootAfter env e.root (basicHist2 env k))) (.threshold ROOT 4) = r3 at *
  have hC : clearSignatures { mr2 with signed := { r3 with version := bump r3.version } } = { signed := basicR3 env e k, signatures := some [] } := by
    rw [clear_of hr.2, hv, show bump 2 = 3 by decide, hR]
  have hV : verifyDelegate env (.root mr3) ROOT (.root mr3) = .ok () := signed_verifies C08_all_types.1 hr3.made ((basic_all_suffice (e := e) hk mr3).2.2 hr3.value).1
  unfold basicMix
  dsimp only
  rw [hr.1, show basicR2 env e k = rootAfter env e.root (basicHist2 env k) from rfl, hg, Res.bind_ok, hth, Res.bind_ok, hC, hr3.signed, Res.bind_ok, hV, Res.bind_ok, write_doc hr3.bytes, Res.bind_ok, hr3.value,
    basic_versions.2.2.1, show versionedFile 3 ROOT = b!"3.root.json" by decide]

end

section
variable {env : Env} {k : BasicSigners} {e : BasicTimes} {f : TargetFiles}
variable {mt1 mt2 md : Metadata TargetsType} {ms1 ms2 : Metadata SnapshotType} {mi1 mi2 : Metadata TimestampType} {mr0 mr1 mr2 mr3 : Metadata RootType}
  {dt1 dt2 dd ds1 ds2 di1 di2 dr0 dr1 dr2 dr3 : Bytes}

theorem cosign_run (hk : BasicKeys (std env) k) {t t' : TargetsType} {s s' : SnapshotType} {i i' : TimestampType} (ht : Doc (std env) t t' [k.targets] mt1 dt1)
    (hs : Doc (std env) s s' [k.snapshot] ms1 ds1) (hi : Doc (std env) i i' [k.timestamp] mi1 di1)
    (hr0 : Doc (std env) (basicR1 (std env) e k) (readRoot (basicR1 (std env) e k)) [k.root] mr0 dr0)
    (hr1 : Doc (std env) (basicR1' (std env) e k) (readRoot (basicR1' (std env) e k)) [k.root, k.another] mr1 dr1) :
    basicCosign (std env) k ⟨mr0, mt1, ms1, mi1, [(b!"1.root.json", dr0), (b!"1.snapshot.json", ds1), (b!"1.targets.json", dt1), (b!"timestamp.json", di1)]⟩ =
      .ok ⟨mr1, mt1, ms1, mi1, [(b!"1.root.json", dr1), (b!"1.snapshot.json", ds1), (b!"1.targets.json", dt1), (b!"timestamp.json", di1)]⟩ := by
  obtain ⟨f1, _, f2, f3, f4⟩ := (basic_all_suffice (e := e) hk mr1).1 hr1.value
  have hV := verify_run (st := ⟨mr1, mt1, ms1, mi1, [(b!"1.root.json", dr1), (b!"1.snapshot.json", ds1), (b!"1.targets.json", dt1), (b!"timestamp.json", di1)]⟩) hr1 ht hs hi f1 f2 f3 f4
  have hS : signAll (std env) [k.another] { mr0 with signed := readRoot (basicR1 (std env) e k) } = .ok mr1 := by
    rw [basicR1'_eq] at hr1
    exact cosign_doc hr0 hr1
  have hG : Entries.get? [(b!"1.root.json", dr0), (b!"1.snapshot.json", ds1), (b!"1.targets.json", dt1), (b!"timestamp.json", di1)] b!"1.root.json" = some dr0 := rfl
  have hW : Entries.set [(b!"1.root.json", dr0), (b!"1.snapshot.json", ds1), (b!"1.targets.json", dt1), (b!"timestamp.json", di1)] b!"1.root.json" dr1 =
    [(b!"1.root.json", dr1), (b!"1.snapshot.json", ds1), (b!"1.targets.json", dt1), (b!"timestamp.json", di1)] := rfl
  unfold basicCosign
  dsimp only
  rw [hG]
  simp only [Res.ofOption, Res.bind_ok]
  rw [hr0.back, Res.bind_ok, hS, Res.bind_ok, write_doc hr1.bytes, Res.bind_ok, hW, hV, Res.bind_ok]

end

end Tuf
