import Verif.Props.DelegationGrants
import Verif.Props.EditsCase

/-! # A case of C151: a key of a delegated role is revoked -/

namespace Tuf
open Tuf.Spec Tuf.Sample Tuf.Std

namespace Sample

def dgRoles : List DelegatedRole :=
  [{ name := b!"b", keyIDs := some [], threshold := 1, paths := some [b!"*"] }, { name := b!"go", keyIDs := some [], threshold := 2, terminating := true, paths := some [b!"*.go"] },
    { name := b!"go", keyIDs := some [], threshold := 1, paths := some [b!"go/*"] }]
def dgNamed : TargetsType := { delegations := some { keys := some [], roles := some dgRoles } }
def dgBins : SuccinctRoles := { keyIDs := some [], threshold := 2, bitLength := 4, namePrefix := b!"bin" }
def dgSuccinct : TargetsType := { delegations := some { keys := some [], succinctRoles := some dgBins } }
/-- Three keys for a role, of which two have to sign; the first one is added to another role as well and taken from the first role. -/
def dgHistory : List KeyEdit := [.add edKey1 b!"go", .add edKey2 b!"go", .add edKey9 b!"go", .add edKey1 b!"b", .revoke (edIDof edKey1) b!"go", .add edKey9 b!"none"]
def dgDoc : TargetsType := targetsAfter edEnv (timeOf (exCivil 2030)) edTargets

end Sample

theorem dgAdds : EditsStaff edEnv edStaff dgHistory := by
  intro key role h
  simp only [dgHistory, List.mem_cons, List.not_mem_nil, or_false, KeyEdit.add.injEq, reduceCtorEq, false_or] at h
  rcases h with ⟨rfl, _⟩ | ⟨rfl, _⟩ | ⟨rfl, _⟩ | ⟨rfl, _⟩ | ⟨rfl, _⟩
  · exact ⟨signer 1, by simp [edStaff], _, rfl, edKey1_made⟩
  · exact ⟨signer 2, by simp [edStaff], _, rfl, edKey2_made⟩
  · exact ⟨ecSigner, by simp [edStaff], _, rfl, edKey9_made⟩
  · exact ⟨signer 1, by simp [edStaff], _, rfl, edKey1_made⟩
  · exact ⟨ecSigner, by simp [edStaff], _, rfl, edKey9_made⟩

/-- The role and the bins have the second and the third key. -/
theorem dgShared (id : Str) : (Shared edEnv Eq dgHistory b!"go" id ↔ id = edIDof edKey2 ∨ id = edIDof edKey9) ∧
    (Shared edEnv anyName dgHistory b!"bin-3" id ↔ id = edIDof edKey2 ∨ id = edIDof edKey9) := by
  have h := edIDs
  simp only [List.nodup_cons, List.mem_cons, List.not_mem_nil, or_false, not_or, not_false_eq_true, and_true, List.nodup_nil] at h
  obtain ⟨⟨h1, h2⟩, h3⟩ := h
  have i1 := edID_iff (k := edKey1) rfl rfl rfl id
  have i2 := edID_iff (k := edKey2) rfl rfl rfl id
  have i3 := edID_iff (k := edKey9) rfl rfl rfl id
  have n1 : (b!"go" : Str) ≠ b!"b" := by decide
  have n2 : (b!"go" : Str) ≠ b!"none" := by decide
  constructor
  · simp only [Shared, dgHistory, List.foldl_cons, List.foldl_nil, shareStep, true_and, i1, i2, i3, n1, n2, false_and, or_false, false_or]
    constructor
    · rintro ⟨(h | h) | h, hn⟩
      · exact absurd h hn
      · exact .inl h
      · exact .inr h
    · rintro (rfl | rfl)
      · exact ⟨.inl (.inr rfl), fun h => h1 h.symm⟩
      · exact ⟨.inr rfl, fun h => h2 h.symm⟩
  · simp only [Shared, dgHistory, List.foldl_cons, List.foldl_nil, shareStep, anyName, true_and, i1, i2, i3, false_or]
    constructor
    · rintro (⟨((h | h) | h) | h, hn⟩ | h)
      · exact absurd h hn
      · exact .inl h
      · exact .inr h
      · exact absurd h hn
      · exact .inr h
    · rintro (rfl | rfl)
      · exact .inl ⟨.inl (.inl (.inr rfl)), fun h => h1 h.symm⟩
      · exact .inr rfl

theorem dgSigned (ss : List Signer) (h : ss = [signer 2, ecSigner] ∨ ss = [signer 1, signer 2]) :
    ∃ m, SignedBy edEnv { signed := dgDoc, signatures := some [] } ss m := by
  have w : ∀ s ∈ edStaff, Works edEnv s := by
    intro s hs
    obtain ⟨pk, key, w, hk⟩ := edStaff_ok.work s hs
    exact ⟨fun p => (w.signs p).elim fun sig e => ⟨sig, e.1⟩, _, _, w.public, hk⟩
  have hd := edIDs
  simp only [List.nodup_cons, List.mem_cons, List.not_mem_nil, or_false, not_or, not_false_eq_true, and_true, List.nodup_nil] at hd
  have i1 := fun id => edSignerID (s := signer 1) rfl edKey1_made id
  have i2 := fun id => edSignerID (s := signer 2) rfl edKey2_made id
  have i3 := fun id => edSignerID (s := ecSigner) rfl edKey9_made id
  obtain ⟨m, _, h, _⟩ := (C116_targets (env := pemEnv) (exCalendar_year (y := 2030) (by decide)) edTargetsFine).2 ss true (by
    rcases h with rfl | rfl
    · intro s hs
      exact w s (by simp only [List.mem_cons, List.not_mem_nil, or_false] at hs; rcases hs with rfl | rfl <;> simp [edStaff])
    · intro s hs
      exact w s (by simp only [List.mem_cons, List.not_mem_nil, or_false] at hs; rcases hs with rfl | rfl <;> simp [edStaff])) (by
    rcases h with rfl | rfl
    · simp only [List.pairwise_cons, List.mem_cons, List.not_mem_nil, or_false, forall_eq, false_imp_iff, implies_true, List.Pairwise.nil, and_true, i2, i3]
      exact hd.2
    · simp only [List.pairwise_cons, List.mem_cons, List.not_mem_nil, or_false, forall_eq, false_imp_iff, implies_true, List.Pairwise.nil, and_true, i1, i2]
      exact hd.1.1)
  exact ⟨m, h⟩

/-- Two of the keys: enough of the second and the third signer, not of the first and the second. -/
theorem dgCounts {g : Str → Prop} (hg : ∀ id, g id ↔ id = edIDof edKey2 ∨ id = edIDof edKey9) :
    ((∃ id, g id) ∧ ∃ S : List Str, S.Nodup ∧ (2 : Int) ≤ (S.length : Int) ∧ ∀ id ∈ S, g id ∧ ∃ s ∈ [signer 2, ecSigner], SignerID edEnv s id) ∧
    ¬ ((∃ id, g id) ∧ ∃ S : List Str, S.Nodup ∧ (2 : Int) ≤ (S.length : Int) ∧ ∀ id ∈ S, g id ∧ ∃ s ∈ [signer 1, signer 2], SignerID edEnv s id) := by
  have i1 := fun id => edSignerID (s := signer 1) rfl edKey1_made id
  have i2 := fun id => edSignerID (s := signer 2) rfl edKey2_made id
  have i3 := fun id => edSignerID (s := ecSigner) rfl edKey9_made id
  have hd := edIDs
  simp only [List.nodup_cons, List.mem_cons, List.not_mem_nil, or_false, not_or, not_false_eq_true, and_true, List.nodup_nil] at hd
  constructor
  · refine ⟨⟨_, (hg _).2 (.inl rfl)⟩, [edIDof edKey2, edIDof edKey9], by simp [hd.2], by decide, ?_⟩
    intro id hid
    simp only [List.mem_cons, List.not_mem_nil, or_false] at hid
    refine ⟨(hg id).2 hid, ?_⟩
    rcases hid with rfl | rfl
    · exact ⟨signer 2, by simp, (i2 _).2 rfl⟩
    · exact ⟨ecSigner, by simp, (i3 _).2 rfl⟩
  · rintro ⟨_, S, hS, hle, hin⟩
    have all : ∀ id ∈ S, id = edIDof edKey2 := by
      intro id hid
      obtain ⟨h1, s, h2, h3⟩ := hin id hid
      rw [hg] at h1
      simp only [List.mem_cons, List.not_mem_nil, or_false] at h2
      rcases h2 with rfl | rfl
      · rw [i1] at h3
        subst h3
        rcases h1 with h1 | h1
        · exact absurd h1 hd.1.1
        · exact absurd h1 hd.1.2
      · exact (i2 _).1 h3
    match S, hS, hle, all with
    | [], _, hle, _ => simp at hle
    | [_], _, hle, _ => simp at hle
    | a :: b :: _, hS, _, all =>
      have e := (all a (by simp)).trans (all b (by simp)).symm
      rw [List.nodup_cons] at hS
      exact hS.1 (by rw [e]; simp)

/-- What the second and third signer sign is accepted, what the first and the second sign is not: the first key was revoked, though another role still has it. -/
example : ∃ m m' : Metadata TargetsType,
    SignedBy edEnv { signed := dgDoc, signatures := some [] } [signer 2, ecSigner] m ∧ SignedBy edEnv { signed := dgDoc, signatures := some [] } [signer 1, signer 2] m' ∧
    (let t : Metadata TargetsType := { signed := dgHistory.foldl (KeyEdit.run edEnv) dgNamed }
     verifyDelegate edEnv (.targets t) b!"go" (.targets m) = .ok () ∧ verifyDelegate edEnv (.targets t) b!"go" (.targets m') ≠ .ok ()) ∧
    (let t : Metadata TargetsType := { signed := dgHistory.foldl (KeyEdit.run edEnv) dgSuccinct }
     verifyDelegate edEnv (.targets t) b!"bin-3" (.targets m) = .ok () ∧ verifyDelegate edEnv (.targets t) b!"bin-3" (.targets m') ≠ .ok ()) := by
  obtain ⟨m, hm⟩ := dgSigned _ (.inl rfl)
  obtain ⟨m', hm'⟩ := dgSigned _ (.inr rfl)
  have hp := (C116_targets (env := pemEnv) (exCalendar_year (y := 2030) (by decide)) edTargetsFine).1
  have hpay : ∃ p, payload dgDoc = .ok p := (targets_payload hp).2 (targetsInv_whole (targetsInv_after (exCalendar_year (by decide)) edTargetsFine))
  have a1 : ∀ s ∈ [signer 2, ecSigner], s ∈ edStaff := by simp [edStaff]
  have a2 : ∀ s ∈ [signer 1, signer 2], s ∈ edStaff := by simp [edStaff]
  have hT := C08_all_types.2.2.2
  have s1 : NamedStart dgNamed dgRoles := ⟨_, rfl, rfl, rfl, by decide⟩
  have s2 : SuccinctStart dgSuccinct dgBins := ⟨_, rfl, rfl, rfl, rfl, rfl⟩
  have key1 := fun (ss : List Signer) (x : Metadata TargetsType) (a : ∀ s ∈ ss, s ∈ edStaff) hx => C151_named (env := edEnv) hT edSane edStaff_ok s1 dgAdds
    (r := { name := b!"go", keyIDs := some [], threshold := 2, terminating := true, paths := some [b!"*.go"] }) ⟨[_], [_], rfl, by decide, rfl⟩ (role := b!"go")
    (m0 := { signed := dgDoc, signatures := some [] }) (m := x) a rfl hpay hx { signed := dgHistory.foldl (KeyEdit.run edEnv) dgNamed } rfl
  have key2 := fun (ss : List Signer) (x : Metadata TargetsType) (a : ∀ s ∈ ss, s ∈ edStaff) hx => C151_succinct (env := edEnv) hT edSane edStaff_ok s2 dgAdds b!"bin-3"
    (m0 := { signed := dgDoc, signatures := some [] }) (m := x) a rfl hpay hx { signed := dgHistory.foldl (KeyEdit.run edEnv) dgSuccinct } rfl
  obtain ⟨c1, c2⟩ := dgCounts fun id => (dgShared id).1
  obtain ⟨c3, c4⟩ := dgCounts fun id => (dgShared id).2
  exact ⟨m, m', hm, hm', ⟨(key1 _ _ a1 hm).2 c1, fun h => c2 ((key1 _ _ a2 hm').1 h)⟩, ⟨(key2 _ _ a1 hm).2 c3, fun h => c4 ((key2 _ _ a2 hm').1 h)⟩⟩

end Tuf
