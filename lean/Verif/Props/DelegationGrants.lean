import Verif.Spec.DelegationGrants
import Verif.Props.Grants
import Verif.Props.KeyMgmt

/-! # C151: who may sign for delegated roles -/

namespace Tuf
open Tuf.Spec Tuf.Std

variable {env : Env}

/-- The rule, for any delegation whose key IDs are a known set and whose stored keys are keys of the staff. -/
theorem accepts_exactly {T : Type} [RoleType T]
    (hT : ∀ m : Metadata T, (RoleType.any m).signatures = m.signatures.elems ∧ (RoleType.any m).payload = payload m.signed)
    (sane : SaneVerifiers env) {staff : List Signer} (hstaff : Staff env staff)
    {m0 m : Metadata T} {ss : List Signer} (hss : ∀ s ∈ ss, s ∈ staff) (h0 : m0.signatures.elems = [])
    (hpay : ∃ p, payload m0.signed = .ok p) (hs : SignedBy env m0 ss m)
    {D : AnyMeta} {role : Str} {keys : GoMap (Option Key)} {ids : List Str} {t : Int} {g : Str → Prop} (hd : Delegates D role keys ids t)
    (huniq : ∀ keys' ids' t', Delegates D role keys' ids' t' → keys' = keys ∧ ids' = ids ∧ t' = t)
    (hm : ∀ id, id ∈ ids ↔ g id) (hkeys : ∀ id, g id → ∃ k, keys.get? id = some (some k) ∧ StaffKey env staff id k) :
    verifyDelegate env D role (RoleType.any m) = .ok () ↔
      (∃ id, g id) ∧ ∃ S : List Str, S.Nodup ∧ t ≤ (S.length : Int) ∧ ∀ id ∈ S, g id ∧ ∃ s ∈ ss, SignerID env s id := by
  obtain ⟨p, hp⟩ := hpay
  have hc : Carries (RoleType.any m) m.signatures.elems p := any_carries hT (by rw [signedBy_signed hs, hp])
  have hver : ∀ id, g id → ∃ k s pk, keys.get? id = some (some k) ∧ s ∈ staff ∧ SignerID env s id ∧ WorkingSigner env s pk ∧ VerifierOf env k pk (hashOf pk) := by
    intro id hg
    obtain ⟨k, hk, hsk⟩ := hkeys id hg
    obtain ⟨s, h1, pk, h2, h3, h4⟩ := staffKey_verifier hstaff hsk
    exact ⟨k, s, pk, hk, h1, h2, h3, h4⟩
  rw [C02_exact_rule]
  constructor
  · rintro ⟨keys', ids', t', hd', hne, _, S, hS, hle, hin⟩
    obtain ⟨rfl, rfl, rfl⟩ := huniq _ _ _ hd'
    refine ⟨?_, S, hS, hle, ?_⟩
    · obtain ⟨id, l, hl⟩ := List.exists_cons_of_ne_nil hne
      exact ⟨id, (hm id).1 (by rw [hl]; simp)⟩
    · intro id hid
      obtain ⟨h1, pk, hf, sig, p', ⟨key, sigs, q1, q2, q3, q4⟩, hv⟩ := hin id hid
      refine ⟨(hm id).1 h1, Classical.byContradiction fun hno => ?_⟩
      have hnil := pick_signed hs h0 (id := id) fun s hs hid => hno ⟨s, hs, hid⟩
      have hsame : sigs = m.signatures.elems := (carries_iff.1 q3).1.trans (carries_iff.1 hc).1.symm
      subst hsame
      have : sig = (pickSignature id m.signatures.elems).sig := signatureFor_unique q4 (signatureFor_pick _ _)
      rw [hnil] at this
      subst this
      exact sane _ _ _ hv
  · rintro ⟨⟨id0, hid0⟩, S, hS, hle, hin⟩
    refine ⟨_, _, _, hd, List.ne_nil_of_mem ((hm id0).2 hid0), ?_, S, hS, hle, ?_⟩
    · intro id hid
      obtain ⟨k, s, pk, h1, _, _, h4, h5⟩ := hver id ((hm id).1 hid)
      exact ⟨pk, _, _, p, ⟨k, _, h1, h5, hc, signatureFor_pick _ _⟩, h4.total _ _⟩
    · intro id hid
      obtain ⟨hg, s, hs1, hs2⟩ := hin id hid
      refine ⟨(hm id).2 hg, ?_⟩
      obtain ⟨k, s0, pk, h1, h2, h3, h4, h5⟩ := hver id hg
      obtain ⟨s', q1, q2, p', q3, q4⟩ := signedBy_signature hs hs1 hs2
      rw [hp] at q3
      cases q3
      have hpk := hstaff.distinct s' (hss s' q1) s0 h2 id q2 h3
      obtain ⟨pk', _, w, _⟩ := hstaff.work s' (hss s' q1)
      rw [w.public, h4.public] at hpk
      cases hpk
      obtain ⟨sig, w1, w2⟩ := w.signs p
      rw [w1] at q4
      cases q4
      exact ⟨pk, _, _, p, ⟨k, _, h1, h5, hc, signatureFor_pick _ _⟩, w2⟩

theorem revoke_keys_some {s : TargetsType} {id role : Str} (h : ∃ d, s.delegations = some d ∧ d.keys.isSome = true) :
    ∃ d, (s.revokeKey id role).2.delegations = some d ∧ d.keys.isSome = true := by
  obtain ⟨d, hd, hk⟩ := h
  obtain ⟨ks, hks⟩ := Option.isSome_iff_exists.1 hk
  unfold TargetsType.revokeKey
  rw [hd]
  dsimp only
  repeat' split
  all_goals first
    | exact ⟨d, hd, hk⟩
    | exact ⟨_, rfl, hk⟩
    | exact ⟨_, rfl, by simp [hks, GoMap.del]⟩

/-- The role that a name stands for. -/
def firstNamed (rs : List DelegatedRole) (n : Str) : Option DelegatedRole := rs.find? (fun r => r.name = n)

theorem firstNamed_iff {rs : List DelegatedRole} {n : Str} {r : DelegatedRole} : firstNamed rs n = some r ↔ FirstOf rs n r := by
  unfold firstNamed FirstOf
  rw [List.find?_eq_some_iff_append]
  simp only [decide_eq_true_eq, Bool.not_eq_true', decide_eq_false_iff_not]
  constructor
  · rintro ⟨h1, pre, post, h2, h3⟩
    exact ⟨pre, post, h2, h3, h1⟩
  · rintro ⟨pre, post, h2, h3, h1⟩
    exact ⟨h1, pre, post, h2, h3⟩

theorem firstNamed_none {rs : List DelegatedRole} {n : Str} : firstNamed rs n = none ↔ ∀ r ∈ rs, r.name ≠ n := by
  unfold firstNamed
  rw [List.find?_eq_none]
  simp

theorem firstNamed_mem {rs : List DelegatedRole} {n : Str} {r : DelegatedRole} (h : firstNamed rs n = some r) : r ∈ rs ∧ r.name = n := by
  obtain ⟨pre, post, rfl, _, hn⟩ := firstNamed_iff.1 h
  exact ⟨by simp, hn⟩

/-- What a name stands for if one role of the list is exchanged. -/
theorem firstNamed_middle (pre post : List DelegatedRole) (r : DelegatedRole) (n : Str) :
    firstNamed (pre ++ r :: post) n = (firstNamed pre n).or (if r.name = n then some r else firstNamed post n) := by
  unfold firstNamed
  rw [List.find?_append, List.find?_cons]
  by_cases h : r.name = n <;> simp [h]

/-- What is invariably true of edited delegations to named roles. -/
structure NamedInv (env : Env) (staff : List Signer) (g : Str → Str → Prop) (rs0 : List DelegatedRole) (s : TargetsType) (d : Delegations) (rs : List DelegatedRole) : Prop where
  deleg : s.delegations = some d
  roles : d.roles = some rs
  keys : d.keys.isSome = true
  shape : rs.map (fun r => (r.name, r.threshold)) = rs0.map (fun r => (r.name, r.threshold))
  ids : ∀ n r, firstNamed rs n = some r → ∀ id, id ∈ r.keyIDs.elems ↔ g n id
  stored : ∀ id, DelegatedLists rs id → ∃ k, d.keys.get? id = some (some k) ∧ StaffKey env staff id k

theorem namedInv_run {staff : List Signer} {g : Str → Str → Prop} {rs0 rs : List DelegatedRole} {s : TargetsType} {d : Delegations}
    (h : NamedInv env staff g rs0 s d rs) {e : KeyEdit}
    (he : ∀ key role, e = .add key role → ∃ s ∈ staff, ∃ pk, s.publicKey = some pk ∧ keyFromPublicKey env pk = .ok key) :
    ∃ d' rs', NamedInv env staff (shareStep env Eq g e) rs0 (e.run env s) d' rs' := by
  obtain ⟨ks, hks⟩ := Option.isSome_iff_exists.1 h.keys
  cases e with
  | add key role =>
    obtain ⟨sg, hsg, pk, hpk, hkey⟩ := he key role rfl
    obtain ⟨_, d1, d2, d3⟩ := C104_declared hkey
    obtain ⟨kid, key1, hid⟩ : ∃ kid key1, key.ID env = .ok (kid, key1) := ⟨_, _, C103_text (env := env) d1 d2 d3⟩
    have hgr : ∀ n id, shareStep env Eq g (.add key role) n id ↔ g n id ∨ (n = role ∧ id = kid) := by
      intro n id
      show (g n id ∨ (n = role ∧ ∃ key', key.ID env = .ok (id, key'))) ↔ _
      rw [hid]
      constructor
      · rintro (hg | ⟨hn, _, hk⟩)
        · exact .inl hg
        · cases hk; exact .inr ⟨hn, rfl⟩
      · rintro (hg | ⟨hn, rfl⟩)
        · exact .inl hg
        · exact .inr ⟨hn, _, rfl⟩
    simp only [KeyEdit.run]
    by_cases hex : ∃ r ∈ rs, r.name = role
    · obtain ⟨rs', ks', hrun, ⟨r1, hr1, hm1⟩, hrs, hk1, hk2⟩ := C59_add_to_role env s d rs ks key _ role _ h.deleg h.roles hks hid hex
      rw [← firstNamed_iff] at hr1
      rw [hrun]
      have hstored : ∀ i, (i = kid ∨ ∃ k, d.keys.get? i = some (some k) ∧ StaffKey env staff i k) → ∃ k, ks'.get? i = some (some k) ∧ StaffKey env staff i k := by
        intro i hi
        by_cases hii : i = kid
        · exact ⟨_, by rw [hii]; exact hk1, sg, hsg, pk, key, _, hpk, hkey, by rw [hii]; exact hid, ID_read hid⟩
        · rcases hi with hi | ⟨k, hk, hs⟩
          · exact absurd hi hii
          · exact ⟨k, by rw [hk2 _ hii]; rw [hks] at hk; exact hk, hs⟩
      -- a role that was not touched and is what its name stands for
      have hold : ∀ n r, firstNamed rs n = some r → firstNamed rs' n = some r → ∀ id, id ∈ r.keyIDs.elems ↔ shareStep env Eq g (.add key role) n id := by
        intro n r hr hr' id
        rw [hgr, h.ids n r hr]
        refine ⟨.inl, ?_⟩
        rintro (hg | ⟨rfl, rfl⟩)
        · exact hg
        · rw [hr1] at hr'
          cases hr'
          exact (h.ids _ _ hr _).1 hm1
      rcases hrs with rfl | ⟨pre, r, post, rfl, hname, hnot, rfl⟩
      · exact ⟨_, rs', rfl, rfl, rfl, h.shape, fun n r hr => hold n r hr hr, fun id hl => hstored id (.inr (h.stored id hl))⟩
      · refine ⟨_, _, rfl, rfl, rfl, ?_, ?_, ?_⟩
        · rw [← h.shape]; simp
        · intro n x hx
          have hx0 := hx
          rw [firstNamed_middle] at hx
          have hrn := firstNamed_middle pre post r n
          cases hp : firstNamed pre n with
          | some y =>
            rw [hp] at hx hrn
            cases hx
            exact hold n _ hrn hx0
          | none =>
            rw [hp] at hx hrn
            by_cases hn : r.name = n
            · simp only [hn, if_pos, Option.none_or] at hx hrn
              cases hx
              intro id
              show id ∈ r.keyIDs.elems ++ [kid] ↔ _
              rw [List.mem_append, List.mem_singleton, h.ids n r hrn, hgr, ← hname, hn]
              simp
            · simp only [hn, if_neg, not_false_eq_true, Option.none_or] at hx hrn
              exact hold n x (hrn.trans hx) hx0
        · rintro id ⟨x, hx, hm⟩
          refine hstored id ?_
          rw [List.mem_append, List.mem_cons] at hx
          rcases hx with hx | rfl | hx
          · exact .inr (h.stored id ⟨x, by simp [hx], hm⟩)
          · have hm : id ∈ r.keyIDs.elems ++ [kid] := hm
            rw [List.mem_append, List.mem_singleton] at hm
            rcases hm with hm | hm
            · exact .inr (h.stored id ⟨r, by simp, hm⟩)
            · exact .inl hm
          · exact .inr (h.stored id ⟨x, by simp [hx], hm⟩)
    · obtain ⟨er, herr⟩ := C59_add_unknown env s key role (.inr ⟨d, rs, h.deleg, h.roles, fun r hr hc => hex ⟨r, hr, hc⟩⟩)
      rw [herr]
      refine ⟨d, rs, h.deleg, h.roles, h.keys, h.shape, ?_, h.stored⟩
      intro n r hr id
      obtain ⟨h1, h2⟩ := firstNamed_mem hr
      rw [hgr, h.ids n r hr]
      exact ⟨.inl, fun hg => hg.elim (fun y => y) fun hy => absurd ⟨r, h1, h2.trans hy.1⟩ hex⟩
  | revoke i role =>
    simp only [KeyEdit.run, shareStep]
    by_cases hex : ∃ r, firstNamed rs role = some r ∧ i ∈ r.keyIDs.elems
    · obtain ⟨r, hr, hi⟩ := hex
      have hrid := h.ids role r hr
      obtain ⟨pre, post, rfl, hpre, hname⟩ := firstNamed_iff.1 hr
      obtain ⟨rs', keys', hrun, hrs, _, hk1, hk2⟩ := C59_revoke_from_role s d _ pre post r role i h.deleg h.roles rfl hpre hname hi
      obtain ⟨d', hd', hks'⟩ := revoke_keys_some (id := i) (role := role) ⟨d, h.deleg, h.keys⟩
      rw [hrun] at hd' ⊢
      cases hd'
      refine ⟨_, rs', rfl, rfl, hks', ?_, ?_, ?_⟩
      · rw [← h.shape, hrs]; simp
      · intro n x hx id
        rw [hrs, firstNamed_middle] at hx
        have hrn := firstNamed_middle pre post r n
        by_cases hn : n = role
        · subst hn
          rw [firstNamed_none.2 hpre] at hx
          simp only [hname, if_pos, Option.none_or] at hx
          cases hx
          show id ∈ r.keyIDs.elems.filter (fun k => k ≠ i) ↔ _
          rw [List.mem_filter, hrid]
          simp
        · have hne : ¬ r.name = n := fun hc => hn (hc.symm.trans hname)
          simp only [hne, if_neg, not_false_eq_true] at hx hrn
          rw [h.ids n x (hrn.trans hx)]
          exact ⟨fun hg => ⟨hg, fun hc => hn hc.1⟩, fun hg => hg.1⟩
      · rintro id ⟨x, hx, hm⟩
        have hl : DelegatedLists (pre ++ r :: post) id := by
          have hx' := hx
          rw [hrs, List.mem_append, List.mem_cons] at hx'
          rcases hx' with hx | rfl | hx
          · exact ⟨x, by simp [hx], hm⟩
          · exact ⟨r, by simp, (List.mem_filter.1 hm).1⟩
          · exact ⟨x, by simp [hx], hm⟩
        obtain ⟨k, hk, hs⟩ := h.stored id hl
        refine ⟨k, ?_, hs⟩
        show keys'.get? id = _
        by_cases hdl : DelegatedLists rs' i
        · rw [hk1 hdl]; exact hk
        · rw [hk2 hdl, if_neg]
          · exact hk
          · rintro rfl; exact hdl ⟨x, hx, hm⟩
    · have hfail : ∃ er, s.revokeKey i role = (.err er, s) := by
        refine C59_revoke_failure s i role (.inr ⟨d, h.deleg, .inl ⟨rs, h.roles, ?_⟩⟩)
        cases hf : firstNamed rs role with
        | none => exact .inl (firstNamed_none.1 hf)
        | some r => exact .inr ⟨r, firstNamed_iff.1 hf, fun hi => hex ⟨r, hf, hi⟩⟩
      obtain ⟨er, herr⟩ := hfail
      rw [herr]
      refine ⟨d, rs, h.deleg, h.roles, h.keys, h.shape, ?_, h.stored⟩
      intro n r hr id
      rw [h.ids n r hr]
      refine ⟨fun hg => ⟨hg, ?_⟩, fun hg => hg.1⟩
      rintro ⟨rfl, rfl⟩
      exact hex ⟨r, hr, (h.ids n r hr _).2 hg⟩

theorem namedInv_after {staff : List Signer} {rs0 : List DelegatedRole} {s : TargetsType} (h0 : NamedStart s rs0) {edits : List KeyEdit} (h : EditsStaff env staff edits) :
    ∃ d rs, NamedInv env staff (Shared env Eq edits) rs0 (edits.foldl (KeyEdit.run env) s) d rs := by
  obtain ⟨d, h1, h2, h3, h5⟩ := h0
  unfold Shared
  induction edits using snoc_induction with
  | h0 =>
    refine ⟨d, rs0, h1, h2, h3, rfl, ?_, ?_⟩
    · intro n r hr id
      rw [h5 r (firstNamed_mem hr).1]
      exact ⟨fun h => (by cases h), fun h => h.elim⟩
    · rintro id ⟨r, hr, hm⟩
      rw [h5 r hr] at hm
      cases hm
  | hs xs x ih =>
    rw [List.foldl_append, List.foldl_append]
    obtain ⟨d', rs', ih⟩ := ih fun k r hk => h k r (by simp [hk])
    exact namedInv_run ih fun k r hk => h k r (by rw [hk]; simp)

/-- C151, roles by name: after any history of `AddKey` and `RevokeKey`, documents of a delegated role (the first of its name) that members of the staff signed are accepted
exactly if at least the threshold of different key IDs that the name still has belong to the signers (and there is any key). -/
theorem C151_named {T : Type} [RoleType T]
    (hT : ∀ m : Metadata T, (RoleType.any m).signatures = m.signatures.elems ∧ (RoleType.any m).payload = payload m.signed)
    (sane : SaneVerifiers env) {staff : List Signer} (hstaff : Staff env staff) {s0 : TargetsType} {rs0 : List DelegatedRole} (hstart : NamedStart s0 rs0)
    {edits : List KeyEdit} (hadd : EditsStaff env staff edits) {role : Str} {r : DelegatedRole} (hr : FirstOf rs0 role r)
    {m0 m : Metadata T} {ss : List Signer} (hss : ∀ s ∈ ss, s ∈ staff) (h0 : m0.signatures.elems = [])
    (hpay : ∃ p, payload m0.signed = .ok p) (hs : SignedBy env m0 ss m) (t : Metadata TargetsType) (ht : t.signed = edits.foldl (KeyEdit.run env) s0) :
    verifyDelegate env (.targets t) role (RoleType.any m) = .ok () ↔
      (∃ id, Shared env Eq edits role id) ∧
      ∃ S : List Str, S.Nodup ∧ r.threshold ≤ (S.length : Int) ∧ ∀ id ∈ S, Shared env Eq edits role id ∧ ∃ s ∈ ss, SignerID env s id := by
  obtain ⟨d, rs, inv⟩ := namedInv_after hstart hadd
  rw [← ht] at inv
  obtain ⟨v, hv, hvt⟩ : ∃ v, firstNamed rs role = some v ∧ v.threshold = r.threshold := by
    have hsh := congrArg (List.find? (fun q => decide (q.1 = role))) inv.shape
    rw [List.find?_map, List.find?_map] at hsh
    have hsh : (firstNamed rs role).map (fun r => (r.name, r.threshold)) = (firstNamed rs0 role).map (fun r => (r.name, r.threshold)) := hsh
    rw [firstNamed_iff.2 hr] at hsh
    obtain ⟨v, h1, h2⟩ := Option.map_eq_some_iff.1 hsh
    exact ⟨v, h1, (Prod.mk.inj h2).2⟩
  have hvm := (firstNamed_mem hv).1
  obtain ⟨pre, post, rfl, hpre, hvn⟩ := firstNamed_iff.1 hv
  rw [← hvt]
  refine accepts_exactly hT sane hstaff hss h0 hpay hs (.targets inv.deleg inv.roles hvn hpre) ?_ (inv.ids role v hv) fun id hg => inv.stored id ⟨v, hvm, (inv.ids role v hv id).2 hg⟩
  intro keys' ids' t' hd
  cases hd with
  | @targets _ _ d2 before after u h1 h2 h3 h4 =>
    rw [inv.deleg] at h1
    cases h1
    rw [inv.roles] at h2
    have hu : firstNamed (pre ++ v :: post) role = some u := firstNamed_iff.2 ⟨before, after, Option.some.inj h2, h4, h3⟩
    rw [hv] at hu
    cases hu
    exact ⟨rfl, rfl, rfl⟩
  | succinct h1 h2 h3 =>
    rw [inv.deleg] at h1
    cases h1
    rw [inv.roles] at h2
    cases h2

/-- What is invariably true of edited succinct delegations. -/
structure SuccinctInv (env : Env) (staff : List Signer) (g : Str → Str → Prop) (n : Int) (s : TargetsType) (d : Delegations) (sr : SuccinctRoles) : Prop where
  deleg : s.delegations = some d
  roles : d.roles = none
  succinct : d.succinctRoles = some sr
  keys : d.keys.isSome = true
  threshold : sr.threshold = n
  ids : ∀ ro id, id ∈ sr.keyIDs.elems ↔ g ro id
  stored : ∀ id, id ∈ sr.keyIDs.elems → ∃ k, d.keys.get? id = some (some k) ∧ StaffKey env staff id k

theorem succinctInv_run {staff : List Signer} {g : Str → Str → Prop} {n : Int} {sr : SuccinctRoles} {s : TargetsType} {d : Delegations}
    (h : SuccinctInv env staff g n s d sr) {e : KeyEdit}
    (he : ∀ key role, e = .add key role → ∃ s ∈ staff, ∃ pk, s.publicKey = some pk ∧ keyFromPublicKey env pk = .ok key) :
    ∃ d' sr', SuccinctInv env staff (shareStep env anyName g e) n (e.run env s) d' sr' := by
  obtain ⟨ks, hks⟩ := Option.isSome_iff_exists.1 h.keys
  cases e with
  | add key role =>
    obtain ⟨sg, hsg, pk, hpk, hkey⟩ := he key role rfl
    obtain ⟨_, d1, d2, d3⟩ := C104_declared hkey
    obtain ⟨kid, key1, hid⟩ : ∃ kid key1, key.ID env = .ok (kid, key1) := ⟨_, _, C103_text (env := env) d1 d2 d3⟩
    simp only [KeyEdit.run, shareStep]
    obtain ⟨sr', ks', hrun, hm, hsr, hids, hk1, hk2⟩ := C59_add_succinct env s d sr ks key _ role _ h.deleg h.roles h.succinct hks hid
    rw [hrun]
    refine ⟨_, sr', rfl, h.roles, rfl, rfl, by rw [hsr]; exact h.threshold, ?_, ?_⟩
    · intro ro id
      rw [hids, List.mem_append, h.ids ro, hid]
      constructor
      · rintro (hg | hg)
        · exact .inl hg
        · split at hg
          · cases hg
          · rw [List.mem_singleton] at hg
            subst hg
            exact .inr ⟨trivial, _, rfl⟩
      · rintro (hg | ⟨_, _, hk⟩)
        · exact .inl hg
        · cases hk
          split
          · next hx => exact .inl ((h.ids ro _).1 hx)
          · exact .inr (by simp)
    · intro id hm
      show ∃ k, GoMap.get? (some ks') id = _ ∧ _
      by_cases hii : id = kid
      · exact ⟨_, by rw [hii]; exact hk1, sg, hsg, pk, key, _, hpk, hkey, by rw [hii]; exact hid, ID_read hid⟩
      · rw [hids, List.mem_append] at hm
        rcases hm with hm | hm
        · obtain ⟨k, hk, hs⟩ := h.stored id hm
          exact ⟨k, by rw [hks] at hk; exact (hk2 _ hii).trans hk, hs⟩
        · split at hm
          · cases hm
          · exact absurd (List.mem_singleton.1 hm) hii
  | revoke i role =>
    simp only [KeyEdit.run, shareStep]
    by_cases hi : i ∈ sr.keyIDs.elems
    · obtain ⟨sr', keys', hrun, hsr, _, hk⟩ := C59_revoke_succinct s d sr role i h.deleg h.roles h.succinct hi
      obtain ⟨d', hd', hks'⟩ := revoke_keys_some (id := i) (role := role) ⟨d, h.deleg, h.keys⟩
      rw [hrun] at hd' ⊢
      cases hd'
      have hmem : ∀ id, id ∈ sr'.keyIDs.elems ↔ id ∈ sr.keyIDs.elems ∧ id ≠ i := by
        intro id
        rw [hsr]
        show id ∈ sr.keyIDs.elems.filter (fun k => k ≠ i) ↔ _
        rw [List.mem_filter]
        simp
      refine ⟨_, sr', rfl, h.roles, rfl, hks', by rw [hsr]; exact h.threshold, ?_, ?_⟩
      · intro ro id
        rw [hmem, h.ids ro]
        exact ⟨fun hg => ⟨hg.1, fun hc => hg.2 hc.2⟩, fun hg => ⟨hg.1, fun hc => hg.2 ⟨trivial, hc⟩⟩⟩
      · intro id hm
        obtain ⟨h1, h2⟩ := (hmem id).1 hm
        obtain ⟨k, hk0, hs⟩ := h.stored id h1
        exact ⟨k, by show keys'.get? id = _; rw [hk, if_neg h2]; exact hk0, hs⟩
    · obtain ⟨er, herr⟩ := C59_revoke_failure s i role (.inr ⟨d, h.deleg, .inr ⟨h.roles, fun x hx => by rw [h.succinct] at hx; cases hx; exact hi⟩⟩)
      rw [herr]
      refine ⟨d, sr, h.deleg, h.roles, h.succinct, h.keys, h.threshold, ?_, h.stored⟩
      intro ro id
      rw [h.ids ro]
      refine ⟨fun hg => ⟨hg, ?_⟩, fun hg => hg.1⟩
      rintro ⟨_, rfl⟩
      exact hi ((h.ids ro _).2 hg)

theorem succinctInv_after {staff : List Signer} {sr0 : SuccinctRoles} {s : TargetsType} (h0 : SuccinctStart s sr0) {edits : List KeyEdit} (h : EditsStaff env staff edits) :
    ∃ d sr, SuccinctInv env staff (Shared env anyName edits) sr0.threshold (edits.foldl (KeyEdit.run env) s) d sr := by
  obtain ⟨d, h1, h2, h3, h4, h5⟩ := h0
  unfold Shared
  induction edits using snoc_induction with
  | h0 =>
    refine ⟨d, sr0, h1, h2, h3, h4, rfl, ?_, ?_⟩
    · intro ro id
      rw [h5]
      exact ⟨fun h => (by cases h), fun h => h.elim⟩
    · intro id hm
      rw [h5] at hm
      cases hm
  | hs xs x ih =>
    rw [List.foldl_append, List.foldl_append]
    obtain ⟨d', sr', ih⟩ := ih fun k r hk => h k r (by simp [hk])
    exact succinctInv_run ih fun k r hk => h k r (by rw [hk]; simp)

/-- C151, succinct delegations: the same, with one set of keys for all bins, whatever role name the calls were given. -/
theorem C151_succinct {T : Type} [RoleType T]
    (hT : ∀ m : Metadata T, (RoleType.any m).signatures = m.signatures.elems ∧ (RoleType.any m).payload = payload m.signed)
    (sane : SaneVerifiers env) {staff : List Signer} (hstaff : Staff env staff) {s0 : TargetsType} {sr0 : SuccinctRoles} (hstart : SuccinctStart s0 sr0)
    {edits : List KeyEdit} (hadd : EditsStaff env staff edits) (bin : Str)
    {m0 m : Metadata T} {ss : List Signer} (hss : ∀ s ∈ ss, s ∈ staff) (h0 : m0.signatures.elems = [])
    (hpay : ∃ p, payload m0.signed = .ok p) (hs : SignedBy env m0 ss m) (t : Metadata TargetsType) (ht : t.signed = edits.foldl (KeyEdit.run env) s0) :
    verifyDelegate env (.targets t) bin (RoleType.any m) = .ok () ↔
      (∃ id, Shared env anyName edits bin id) ∧
      ∃ S : List Str, S.Nodup ∧ sr0.threshold ≤ (S.length : Int) ∧ ∀ id ∈ S, Shared env anyName edits bin id ∧ ∃ s ∈ ss, SignerID env s id := by
  obtain ⟨d, sr, inv⟩ := succinctInv_after hstart hadd
  rw [← ht] at inv
  rw [← inv.threshold]
  refine accepts_exactly hT sane hstaff hss h0 hpay hs (.succinct inv.deleg inv.roles inv.succinct) ?_ (inv.ids bin) fun id hg => inv.stored id ((inv.ids bin id).2 hg)
  intro keys' ids' t' hd
  cases hd with
  | targets h1 h2 h3 h4 =>
    rw [inv.deleg] at h1
    cases h1
    rw [inv.roles] at h2
    cases h2
  | succinct h1 h2 h3 =>
    rw [inv.deleg] at h1
    cases h1
    rw [inv.succinct] at h3
    cases h3
    exact ⟨rfl, rfl, rfl⟩

end Tuf
