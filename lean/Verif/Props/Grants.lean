import Verif.Spec.Grants
import Verif.Props.Edits
import Verif.Props.KeyIds

/-! # C117: who may sign -/

namespace Tuf
open Tuf.Spec Tuf.Std

variable {env : Env}

def topLevel : List Str := [ROOT, SNAPSHOT, TARGETS, TIMESTAMP]

/-- The stored key is one of the staff, with this key ID. -/
def StaffKey (env : Env) (staff : List Signer) (id : Str) (k : Key) : Prop :=
  ∃ s ∈ staff, ∃ pk key key', s.publicKey = some pk ∧ keyFromPublicKey env pk = .ok key ∧ key.ID env = .ok (id, key') ∧ readKey k = readKey key

theorem ID_read {key key' : Key} {id : Str} (h : key.ID env = .ok (id, key')) : readKey key' = readKey key := by
  unfold Key.ID at h
  split at h
  · split at h
    · cases h; rfl
    · cases h
  · cases h; rfl

/-- What is invariably true of edited roots. -/
structure GrantInv (env : Env) (staff : List Signer) (g : Str → Str → Prop) (t : Str → Int) (r : RootType) : Prop where
  edit : EditInv r
  keys : ∀ id k, r.keys.get? id = some (some k) → StaffKey env staff id k
  roles : ∀ role ∈ topLevel, ∃ a, r.roles.get? role = some (some a) ∧ (∀ id, id ∈ a.keyIDs.elems ↔ g role id) ∧ a.threshold = t role

theorem goMap_get_set {α : Type} {m m' : GoMap α} {k : Str} {v : α} (h : m.set k v = .ok m') (k' : Str) : m'.get? k' = if k = k' then some v else m.get? k' := by
  cases m with
  | none => cases h
  | some es =>
    cases h
    split
    · next he => subst he; exact Entries.get?_set_self _ _ _
    · next he => exact Entries.get?_set_ne _ _ he

theorem roles_map_set {r : RootType} {role : Str} {a : Role} (ha : r.roles.get? role = some (some a)) (b : Role) (ro : Str) :
    GoMap.get? (r.roles.map (fun es => es.set role (some b))) ro = if role = ro then some (some b) else r.roles.get? ro := by
  obtain ⟨es, he, hg⟩ := roles_some ha
  rw [he]
  exact goMap_get_set (m := some es) (m' := some (es.set role (some b))) rfl ro

theorem grantInv_edit {r : RootType} (h : EditInv r) (e : RootEdit) : EditInv (e.run env r) := by
  cases e with
  | add key role => exact edit_inv env r (.add key role) h
  | revoke id role => exact edit_inv env r (.revoke id role) h
  | version n => exact ⟨h.good, h.keys, h.cons.listed, h.cons.stored⟩
  | expires e => exact ⟨h.good, h.keys, h.cons.listed, h.cons.stored⟩
  | consistent b => exact ⟨h.good, h.keys, h.cons.listed, h.cons.stored⟩
  | reread =>
    have hiff : ∀ id k, (mapValues readKey r.keys).get? id = some k ↔ ∃ k0, r.keys.get? id = some k0 ∧ k0.map readKey = k := by
      intro id k
      cases hk : r.keys with
      | none => simp [mapValues, GoMap.get?, GoMap.entries]
      | some ks =>
        show Entries.get? (ks.map (fun e => (e.1, e.2.map readKey))) id = _ ↔ _
        rw [get?_map (fun p : Option Key => p.map readKey), Option.map_eq_some_iff]
        rfl
    refine ⟨h.good, ?_, ?_, ?_⟩
    · obtain ⟨ks, hk⟩ := Option.isSome_iff_exists.1 h.keys
      show (mapValues readKey r.keys).isSome = true
      rw [hk]
      rfl
    · intro role id hl
      obtain ⟨k, hk⟩ := h.cons.listed role id hl
      exact ⟨readKey k, (hiff id _).2 ⟨_, hk, rfl⟩⟩
    · intro id hs
      obtain ⟨k, hk⟩ := Option.isSome_iff_exists.1 hs
      obtain ⟨k0, h1, _⟩ := (hiff id k).1 hk
      exact h.cons.stored id (by rw [h1]; rfl)
  | threshold role n =>
    simp only [RootEdit.run]
    split
    · next a ha =>
      obtain ⟨es, he, hg⟩ := roles_some ha
      have hl : ∀ ro id, ListsKey { r with roles := r.roles.map (fun es => es.set role (some { a with threshold := n })) } ro id ↔ ListsKey r ro id := by
        intro ro id
        unfold ListsKey
        rw [show ({ r with roles := r.roles.map (fun es => es.set role (some { a with threshold := n })) } : RootType).roles.get? ro = _ from roles_map_set ha _ ro]
        split
        · next hro =>
          subst hro
          rw [ha]
          constructor
          · rintro ⟨x, hx, hm⟩
            cases hx
            exact ⟨a, rfl, hm⟩
          · rintro ⟨x, hx, hm⟩
            cases hx
            exact ⟨_, rfl, hm⟩
        · rfl
      refine ⟨?_, h.keys, ?_, ?_⟩
      · show GoodRoles (r.roles.map _)
        rw [he]
        exact goodRoles_set (he ▸ h.good) _ _
      · intro ro id hx
        exact h.cons.listed ro id ((hl ro id).1 hx)
      · intro id hx
        obtain ⟨ro, h1⟩ := h.cons.stored id hx
        exact ⟨ro, (hl ro id).2 h1⟩
    · exact h

theorem grantInv_run {staff : List Signer} {g : Str → Str → Prop} {t : Str → Int} {r : RootType} (h : GrantInv env staff g t r) {e : RootEdit}
    (he : ∀ key role, e = .add key role → ∃ s ∈ staff, ∃ pk, s.publicKey = some pk ∧ keyFromPublicKey env pk = .ok key) :
    GrantInv env staff (grantStep env g e) (thresholdStep t e) (e.run env r) := by
  refine ⟨grantInv_edit h.edit e, ?_, ?_⟩
  · cases e with
    | add key role =>
      intro id k hk
      rcases addKey_keys (env := env) (s := r) (key := key) (role := role) with h1 | ⟨i, key', h1, h2⟩
      · exact h.keys id k (by rw [← h1]; exact hk)
      · replace hk : (r.addKey env key role).2.keys.get? id = some (some k) := hk
        rw [goMap_get_set h2] at hk
        split at hk
        · next hi =>
          subst hi
          cases hk
          obtain ⟨s, hs, pk, a, b⟩ := he key role rfl
          exact ⟨s, hs, pk, key, _, a, b, h1, ID_read h1⟩
        · exact h.keys id k hk
    | revoke i role =>
      intro id k hk
      rcases revokeKey_keys (s := r) (id := i) (role := role) with h1 | h1
      · exact h.keys id k (by rw [← h1]; exact hk)
      · refine h.keys id k ?_
        have hk : (r.revokeKey i role).2.keys.get? id = some (some k) := hk
        rw [h1, goMap_get_del] at hk
        split at hk
        · cases hk
        · exact hk
    | threshold role n =>
      have : (RootEdit.run env r (.threshold role n)).keys = r.keys := by
        simp only [RootEdit.run]
        split <;> rfl
      rw [this]
      exact h.keys
    | version n => exact h.keys
    | expires e => exact h.keys
    | consistent b => exact h.keys
    | reread =>
      intro id k hk
      obtain ⟨ks, hks⟩ := Option.isSome_iff_exists.1 h.edit.keys
      have hk : (mapValues readKey r.keys).get? id = some (some k) := hk
      rw [hks] at hk
      have hk : Entries.get? (ks.map (fun e => (e.1, e.2.map readKey))) id = some (some k) := hk
      rw [get?_map (fun p : Option Key => p.map readKey), Option.map_eq_some_iff] at hk
      obtain ⟨k0, h1, h2⟩ := hk
      obtain ⟨k1, rfl, rfl⟩ := Option.map_eq_some_iff.1 h2
      obtain ⟨s, hs, pk, key, key', a, b, c, d⟩ := h.keys id k1 (by rw [hks]; exact h1)
      exact ⟨s, hs, pk, key, key', a, b, c, by rw [← d]; rfl⟩
  · intro role hrole
    obtain ⟨a, ha, hm, ht⟩ := h.roles role hrole
    cases e with
    | version n => exact ⟨a, ha, hm, ht⟩
    | expires e => exact ⟨a, ha, hm, ht⟩
    | consistent b => exact ⟨a, ha, hm, ht⟩
    | reread => exact ⟨a, ha, hm, ht⟩
    | threshold ro n =>
      simp only [RootEdit.run, thresholdStep, grantStep]
      by_cases hr : role = ro
      · subst hr
        rw [ha]
        refine ⟨{ a with threshold := n }, ?_, hm, by rw [if_pos rfl]⟩
        dsimp only
        rw [roles_map_set ha, if_pos rfl]
      · refine ⟨a, ?_, hm, by rw [if_neg hr]; exact ht⟩
        split
        · next b hb =>
          dsimp only
          rw [roles_map_set hb, if_neg (Ne.symm hr)]
          exact ha
        · exact ha
    | add key ro =>
      simp only [RootEdit.run, thresholdStep, grantStep]
      obtain ⟨ks, hks⟩ := Option.isSome_iff_exists.1 h.edit.keys
      obtain ⟨s, hs, pk, _, hkey⟩ := he key ro rfl
      obtain ⟨_, d1, d2, d3⟩ := C104_declared hkey
      have hid := C103_text (env := env) d1 d2 d3
      by_cases hr : role = ro
      · subst hr
        obtain ⟨s', q1, ⟨r', q2, q3, _, q4⟩, _⟩ := C56_add_key_partial env r key _ role _ a ks ha hks hid
        rw [q1]
        refine ⟨r', q2, ?_, by rw [q3]; exact ht⟩
        intro id
        rw [q4, List.mem_append, hm, hid]
        constructor
        · rintro (h1 | h1)
          · exact .inl h1
          · split at h1
            · cases h1
            · rw [List.mem_singleton] at h1
              subst h1
              exact .inr ⟨rfl, _, rfl⟩
        · rintro (h1 | ⟨_, key', h1⟩)
          · exact .inl h1
          · cases h1
            split
            · next hx => exact .inl ((hm _).1 hx)
            · exact .inr (by simp)
      · refine ⟨a, ?_, ?_, ht⟩
        · cases hro : r.roles.get? ro with
          | none =>
            obtain ⟨e, he⟩ := C56_no_role env r key ro hro
            rw [he]
            exact ha
          | some x =>
            cases x with
            | none =>
              have := h.edit.good.present _ (Entries.mem_of_get? hro)
              cases this
            | some b =>
              obtain ⟨s', q1, _, q2, _⟩ := C56_add_key_partial env r key _ ro _ b ks hro hks hid
              rw [q1]
              show s'.roles.get? role = _
              rw [q2 role hr]
              exact ha
        · intro id
          rw [hm]
          constructor
          · exact .inl
          · rintro (h1 | ⟨h1, _⟩)
            · exact h1
            · exact absurd h1 hr
    | revoke i ro =>
      simp only [RootEdit.run, thresholdStep, grantStep]
      by_cases hl : ListsKey r ro i
      · obtain ⟨b, hb, hi⟩ := hl
        obtain ⟨s', q1, ⟨r', q2, q3, _, _, q4⟩, q5, _⟩ := C57_revoke_key r i ro b h.edit.good hb hi
        rw [q1]
        by_cases hr : role = ro
        · subst hr
          rw [ha] at hb
          cases hb
          refine ⟨r', q2, ?_, by rw [q3]; exact ht⟩
          intro id
          rw [q4, List.mem_filter, hm]
          simp
        · refine ⟨a, ?_, ?_, ht⟩
          · show s'.roles.get? role = _
            rw [q5 role hr]
            exact ha
          · intro id
            rw [hm]
            exact ⟨fun h => ⟨h, fun hx => hr hx.1⟩, fun h => h.1⟩
      · obtain ⟨e, he⟩ := C57_not_listed r i ro h.edit.good hl
        rw [he]
        refine ⟨a, ha, ?_, ht⟩
        intro id
        rw [hm]
        refine ⟨fun h => ⟨h, ?_⟩, fun h => h.1⟩
        rintro ⟨rfl, rfl⟩
        exact hl ⟨a, ha, (hm _).2 h⟩

theorem grantInv_after {staff : List Signer} {edits : List RootEdit} (h : AddsStaff env staff edits) (e : Time) :
    GrantInv env staff (Granted env edits) (thresholdAfter edits) (rootAfter env e edits) := by
  unfold Granted thresholdAfter rootAfter
  induction edits using snoc_induction with
  | h0 =>
    obtain ⟨h1, h2, h3⟩ := C58_fresh_root e
    refine ⟨⟨h1, Option.isSome_iff_ne_none.2 h2, h3⟩, (fun id k hk => by cases hk), ?_⟩
    intro role hr
    simp only [topLevel, List.mem_cons, List.not_mem_nil, or_false] at hr
    rcases hr with rfl | rfl | rfl | rfl <;> exact ⟨newRole, rfl, fun id => ⟨fun h => (by cases h), fun h => h.elim⟩, rfl⟩
  | hs xs x ih =>
    rw [List.foldl_append, List.foldl_append, List.foldl_append]
    exact grantInv_run (ih fun k r hk => h k r (by simp [hk])) fun k r hk => h k r (by rw [hk]; simp)

/-- Stored keys of the staff verify. -/
theorem staffKey_verifier {staff : List Signer} (hs : Staff env staff) {id : Str} {k : Key} (h : StaffKey env staff id k) :
    ∃ s ∈ staff, ∃ pk, SignerID env s id ∧ WorkingSigner env s pk ∧ VerifierOf env k pk (hashOf pk) := by
  obtain ⟨s, h1, pk, key, key', h2, h3, h4, h5⟩ := h
  obtain ⟨pk', _, w, _⟩ := hs.work s h1
  have := w.public
  rw [h2] at this
  cases this
  refine ⟨s, h1, pk, ⟨pk, key, key', h2, h3, h4⟩, w, ?_⟩
  have hv := verifierOf_read (key_verifier w.readable w.usable.1 w.usable.2 h3)
  rw [← h5] at hv
  generalize hk : readKey k = k' at hv
  cases hv with
  | rsa a b c d => subst hk; exact .rsa a b c d
  | ecdsa a b c d => subst hk; exact .ecdsa a b c d
  | ed25519 a b c d => subst hk; exact .ed25519 a b c d

/-- Signatures of a document come from its signers. -/
theorem pick_signed {T : Type} [RoleType T] {m0 m : Metadata T} {ss : List Signer} (hs : SignedBy env m0 ss m) (h0 : m0.signatures.elems = []) {id : Str}
    (hno : ∀ s ∈ ss, ¬ SignerID env s id) : (pickSignature id m.signatures.elems).sig = [] := by
  induction hs with
  | nil => rw [h0]; rfl
  | @snoc m1 m2 ss s sig h1 h2 ih =>
    obtain ⟨_, _, c, d, _⟩ := C08_sign_appends h2
    rw [c]
    have : sig.keyID ≠ id := fun hc => hno s (by simp) (hc ▸ d)
    have ih := ih fun s hs => hno s (by simp [hs])
    simp only [pickSignature, List.foldl_append, List.foldl_cons, List.foldl_nil, if_neg this] at ih ⊢
    exact ih

/-- C117: after any history of `AddKey`, `RevokeKey`, threshold and other changes (and of writing and reading), documents of a top-level role that members of the staff signed are
accepted exactly if at least the threshold of different key IDs that the role still has belong to the signers (and the role has any key). -/
theorem C117_exactly {T : Type} [RoleType T]
    (hT : ∀ m : Metadata T, (RoleType.any m).signatures = m.signatures.elems ∧ (RoleType.any m).payload = payload m.signed)
    (sane : SaneVerifiers env) {staff : List Signer} (hstaff : Staff env staff) {edits : List RootEdit} (hadd : AddsStaff env staff edits) (e : Time)
    {role : Str} (hrole : role ∈ topLevel) {m0 m : Metadata T} {ss : List Signer} (hss : ∀ s ∈ ss, s ∈ staff) (h0 : m0.signatures.elems = [])
    (hpay : ∃ p, payload m0.signed = .ok p) (hs : SignedBy env m0 ss m) (root : Metadata RootType) (hroot : root.signed = rootAfter env e edits) :
    verifyDelegate env (.root root) role (RoleType.any m) = .ok () ↔
      (∃ id, Granted env edits role id) ∧
      ∃ S : List Str, S.Nodup ∧ thresholdAfter edits role ≤ (S.length : Int) ∧ ∀ id ∈ S, Granted env edits role id ∧ ∃ s ∈ ss, SignerID env s id := by
  have inv := grantInv_after hadd e
  rw [← hroot] at inv
  obtain ⟨a, ha, hm, ht⟩ := inv.roles role hrole
  obtain ⟨p, hp⟩ := hpay
  have hc : Carries (RoleType.any m) m.signatures.elems p := any_carries hT (by rw [signedBy_signed hs, hp])
  have hver : ∀ id, Granted env edits role id → ∃ k s pk, root.signed.keys.get? id = some (some k) ∧ s ∈ staff ∧ SignerID env s id ∧ WorkingSigner env s pk ∧ VerifierOf env k pk (hashOf pk) := by
    intro id hg
    obtain ⟨k, hk⟩ := inv.edit.cons.listed role id ⟨a, ha, (hm id).2 hg⟩
    obtain ⟨s, h1, pk, h2, h3, h4⟩ := staffKey_verifier hstaff (inv.keys id k hk)
    exact ⟨k, s, pk, hk, h1, h2, h3, h4⟩
  rw [C02_exact_rule]
  constructor
  · rintro ⟨keys, ids, t, hd, hne, _, S, hS, hle, hin⟩
    cases hd with
    | @root _ _ r hr =>
      rw [ha] at hr
      cases hr
      refine ⟨?_, S, hS, by rw [← ht]; exact hle, ?_⟩
      · obtain ⟨id, l, hl⟩ := List.exists_cons_of_ne_nil hne
        exact ⟨id, (hm id).1 (by rw [hl]; simp)⟩
      · intro id hid
        obtain ⟨h1, pk, hf, sig, p', ⟨key, sigs, q1, q2, q3, q4⟩, hv⟩ := hin id hid
        refine ⟨(hm id).1 h1, Classical.byContradiction fun hno => ?_⟩
        have hnil := pick_signed hs h0 (id := id) fun s hs hid => hno ⟨s, hs, hid⟩
        have hsame : sigs = m.signatures.elems := (carries_iff.1 q3).1.trans (carries_iff.1 hc).1.symm
        subst hsame
        have : sig = (pickSignature id m.signatures.elems).sig := signatureFor_unique q4 (signatureFor_pick _ _)
        rw [hnil] at this
        subst this
        exact sane _ _ _ hv
  · rintro ⟨⟨id0, hid0⟩, S, hS, hle, hin⟩
    refine ⟨_, _, _, .root ha, List.ne_nil_of_mem ((hm id0).2 hid0), ?_, S, hS, by rw [ht]; exact hle, ?_⟩
    · intro id hid
      obtain ⟨k, s, pk, h1, _, _, h4, h5⟩ := hver id ((hm id).1 hid)
      exact ⟨pk, _, _, p, ⟨k, _, h1, h5, hc, signatureFor_pick _ _⟩, h4.total _ _⟩
    · intro id hid
      obtain ⟨hg, s, hs1, hs2⟩ := hin id hid
      refine ⟨(hm id).2 hg, ?_⟩
      obtain ⟨k, s0, pk, h1, h2, h3, h4, h5⟩ := hver id hg
      obtain ⟨s', q1, q2, p', q3, q4⟩ := signedBy_signature hs hs1 hs2
      rw [hp] at q3
      cases q3
      have hpk := hstaff.distinct s' (hss s' q1) s0 h2 id q2 h3
      obtain ⟨pk', _, w, _⟩ := hstaff.work s' (hss s' q1)
      rw [w.public, h4.public] at hpk
      cases hpk
      obtain ⟨sig, w1, w2⟩ := w.signs p
      rw [w1] at q4
      cases q4
      exact ⟨pk, _, _, p, ⟨k, _, h1, h5, hc, signatureFor_pick _ _⟩, w2⟩

end Tuf
