import Verif.Spec.BasicRepository
import Verif.Props.Grants
import Verif.Props.Cosign
import Verif.Props.EditsCase

/-! # C118: the second example repository -/

namespace Tuf
open Tuf.Spec Tuf.Std

/-! ## Signers -/

section
variable {env : Env}

/-- The key of a signer and its ID. -/
def keyOf (env : Env) (s : Signer) : Key := match s.publicKey with
  | some pk => match keyFromPublicKey env pk with
    | .ok key => key
    | _ => {}
  | none => {}
def idFor (env : Env) (s : Signer) : Str := match (keyOf env s).ID env with
  | .ok (id, _) => id
  | _ => []

/-- The signer works, and the metadata API can describe its key. -/
def Employed (env : Env) (s : Signer) : Prop := ∃ pk key, WorkingSigner env s pk ∧ keyFromPublicKey env pk = .ok key

theorem Employed.made {s : Signer} (h : Employed env s) : ∃ pk, s.publicKey = some pk ∧ keyFromPublicKey env pk = .ok (keyOf env s) := by
  obtain ⟨pk, key, w, hk⟩ := h
  exact ⟨pk, w.public, by unfold keyOf; rw [w.public]; dsimp only; rw [hk]⟩

theorem Employed.id {s : Signer} (h : Employed env s) : ∃ key', (keyOf env s).ID env = .ok (idFor env s, key') := by
  obtain ⟨pk, _, hk⟩ := h.made
  obtain ⟨_, d1, d2, d3⟩ := C104_declared hk
  have := C103_text (env := env) d1 d2 d3
  exact ⟨_, by unfold idFor; rw [this]⟩

theorem Employed.id_iff {s : Signer} (h : Employed env s) (id : Str) : (∃ key', (keyOf env s).ID env = .ok (id, key')) ↔ id = idFor env s := by
  obtain ⟨key', h⟩ := h.id
  rw [h]
  constructor
  · rintro ⟨_, h⟩
    cases h
    rfl
  · rintro rfl
    exact ⟨_, rfl⟩

theorem Employed.signerID {s : Signer} (h : Employed env s) (id : Str) : SignerID env s id ↔ id = idFor env s := by
  rw [← h.id_iff]
  obtain ⟨pk, hp, hk⟩ := h.made
  constructor
  · rintro ⟨pk', k0, k1, h1, h2, h3⟩
    rw [hp] at h1
    cases h1
    rw [hk] at h2
    cases h2
    exact ⟨_, h3⟩
  · rintro ⟨k', h⟩
    exact ⟨pk, _, k', hp, hk, h⟩

theorem Employed.works {s : Signer} (h : Employed env s) : Works env s := by
  obtain ⟨pk, key, w, hk⟩ := h
  exact ⟨fun p => (w.signs p).elim fun sig e => ⟨sig, e.1⟩, _, _, w.public, hk⟩

theorem pairwise_cases {α : Type} {R : α → α → Prop} {l : List α} (h : l.Pairwise R) {a b : α} (ha : a ∈ l) (hb : b ∈ l) : a = b ∨ R a b ∨ R b a := by
  induction h with
  | nil => cases ha
  | @cons x l h1 h2 ih =>
    rcases List.mem_cons.1 ha with rfl | ha'
    · rcases List.mem_cons.1 hb with rfl | hb
      · exact .inl rfl
      · exact .inr (.inl (h1 b hb))
    · rcases List.mem_cons.1 hb with hb | hb'
      · exact .inr (.inr (hb ▸ h1 a ha'))
      · exact ih ha' hb'

theorem staff_of {l : List Signer} (h1 : ∀ s ∈ l, Employed env s) (h2 : l.Pairwise (fun s s' => ∀ id, SignerID env s id → ¬ SignerID env s' id)) : Staff env l where
  work := h1
  distinct s hs s' hs' id a b := by
    rcases pairwise_cases h2 hs hs' with rfl | h | h
    · rfl
    · exact absurd b (h id a)
    · exact absurd a (h id b)

/-- The IDs of different signers. -/
theorem nodup_ids {l : List Signer} (h1 : ∀ s ∈ l, Employed env s) (h2 : l.Pairwise (fun s s' => ∀ id, SignerID env s id → ¬ SignerID env s' id)) : (l.map (idFor env)).Nodup := by
  rw [List.Nodup, List.pairwise_map]
  refine (List.pairwise_iff_forall_sublist.2 ?_)
  intro a b hab
  have ha : a ∈ l := hab.subset (by simp)
  have hb : b ∈ l := hab.subset (by simp)
  have := List.pairwise_iff_forall_sublist.1 h2 hab (idFor env a) (((h1 a ha).signerID _).2 rfl)
  intro he
  exact this (((h1 b hb).signerID _).2 he)

theorem Employed.fine (pem : PemTexts env) {s : Signer} (h : Employed env s) (d : Nat) : FineKey env d (keyOf env s) := by
  obtain ⟨pk, _, hk⟩ := h.made
  exact fineKey_made pem hk d

/-! ## Who suffices -/

/-- Signers with enough of the key IDs that a role has suffice. -/
theorem granted_suffice {staff : List Signer} (hstaff : Staff env staff) {g : Str → Str → Prop} {t : Str → Int} {r : RootType} (inv : GrantInv env staff g t r)
    {role : Str} (hrole : role ∈ topLevel) (ht1 : 1 ≤ t role) {ss : List Signer} (hss : ∀ s ∈ ss, s ∈ staff) {S : List Str} (hS : S.Nodup) (hle : t role ≤ (S.length : Int))
    (hin : ∀ id ∈ S, g role id ∧ ∃ s ∈ ss, SignerID env s id) (root : Metadata RootType) (hroot : root.signed = r) : Suffice env (.root root) role ss := by
  subst hroot
  obtain ⟨a, ha, hm, ht⟩ := inv.roles role hrole
  refine ⟨_, _, _, .root ha, by rw [ht]; exact ht1, ⟨S, hS, by rw [ht]; exact hle, fun id hid => ⟨(hm id).2 (hin id hid).1, (hin id hid).2⟩⟩, ?_⟩
  intro id hid
  obtain ⟨k, hk⟩ := inv.edit.cons.listed role id ⟨a, ha, hid⟩
  obtain ⟨s0, h2, pk, h3, h4, h5⟩ := staffKey_verifier hstaff (inv.keys id k hk)
  refine ⟨k, pk, _, hk, h5, h4.total, ?_⟩
  intro s hs hsid p sig hsig
  have hpk := hstaff.distinct s (hss s hs) s0 h2 id hsid h3
  obtain ⟨pk', _, w, _⟩ := hstaff.work s (hss s hs)
  rw [w.public, h4.public] at hpk
  cases hpk
  obtain ⟨sig', w1, w2⟩ := w.signs p
  rw [w1] at hsig
  cases hsig
  exact w2

/-! ## Steps of the program -/

/-- Adding keys, as edits. -/
def addsOf (env : Env) (l : List (Str × Signer)) : List RootEdit := l.map (fun p => .add (keyOf env p.2) p.1)

theorem genKeys_run {staff : List Signer} (hstaff : ∀ s ∈ staff, Employed env s) {l : List (Str × Signer)} (hl : ∀ p ∈ l, p.1 ∈ topLevel ∧ p.2 ∈ staff)
    {g : Str → Str → Prop} {t : Str → Int} {r : RootType} (inv : GrantInv env staff g t r) : genKeys env l r = .ok ((addsOf env l).foldl (RootEdit.run env) r) := by
  induction l generalizing r g t with
  | nil => rfl
  | cons p l ih =>
    obtain ⟨hp1, hp2⟩ := hl p (by simp)
    obtain ⟨pk, hpk, hk⟩ := (hstaff p.2 hp2).made
    obtain ⟨key', hid⟩ := (hstaff p.2 hp2).id
    obtain ⟨a, ha, _⟩ := inv.roles p.1 hp1
    obtain ⟨ks, hks⟩ := Option.isSome_iff_exists.1 inv.edit.keys
    obtain ⟨s', q1, _⟩ := C56_add_key_partial env r _ _ p.1 _ a ks ha hks hid
    have inv' := grantInv_run inv (e := .add (keyOf env p.2) p.1) (by
      intro key role he
      cases he
      exact ⟨p.2, hp2, pk, hpk, hk⟩)
    have hrun : RootEdit.run env r (.add (keyOf env p.2) p.1) = s' := by
      show (r.addKey env _ _).2 = _
      rw [q1]
    rw [hrun] at inv'
    unfold genKeys
    rw [hpk]
    simp only [Res.ofOption, Res.bind_ok, hk, q1]
    rw [ih (fun q hq => hl q (by simp [hq])) inv']
    show _ = Res.ok ((addsOf env l).foldl _ (RootEdit.run env r (.add (keyOf env p.2) p.1)))
    rw [hrun]

theorem setThreshold_run {staff : List Signer} {g : Str → Str → Prop} {t : Str → Int} {r : RootType} (inv : GrantInv env staff g t r) {role : Str} (hr : role ∈ topLevel) (n : Int) :
    setThreshold r role n = .ok (RootEdit.run env r (.threshold role n)) := by
  obtain ⟨a, ha, _⟩ := inv.roles role hr
  unfold setThreshold
  simp only [RootEdit.run, ha]

theorem signAll_append {T : Type} [RoleType T] (l l' : List Signer) (m : Metadata T) : signAll env (l ++ l') m = signAll env l m >>= signAll env l' := by
  induction l generalizing m with
  | nil => rfl
  | cons s l ih =>
    show (sign env m s >>= fun x => signAll env (l ++ l') x.2) = (sign env m s >>= fun x => signAll env l x.2) >>= _
    cases sign env m s with
    | ok x => exact ih x.2
    | err e => rfl
    | panic => rfl

theorem signAll_signed {T : Type} [RoleType T] {m m' : Metadata T} {ss : List Signer} (h : SignedBy env m ss m') : signAll env ss m = .ok m' := by
  induction h with
  | nil => rfl
  | snoc _ h2 ih =>
    rw [signAll_append, ih]
    simp only [Res.bind_ok, signAll, h2]

/-- Signing and writing a document. -/
theorem doc_of {T : Type} [RoleType T] {a read : T} (hc : CanBePublished env a read) {ss : List Signer} (hw : ∀ s ∈ ss, Employed env s)
    (hd : ss.Pairwise (fun s s' => ∀ id, SignerID env s id → ¬ SignerID env s' id))
    (hpub : ∀ m data, SignedBy env { signed := a, signatures := some [] } ss m → toBytes env m true = .ok data → Publishes env a ss data) :
    ∃ m data, SignedBy env { signed := a, signatures := some [] } ss m ∧ signAll env ss { signed := a, signatures := some [] } = .ok m ∧ m.signed = a ∧ m.unrec = [] ∧
      toBytes env m true = .ok data ∧ Publishes env a ss data ∧ fromBytes env data = .ok { m with signed := read } := by
  obtain ⟨m, data, h1, h2, h3⟩ := hc ss true (fun s hs => (hw s hs).works) hd
  exact ⟨m, data, h1, signAll_signed h1, signedBy_signed h1, signedBy_unrec h1, h2, hpub m data h1 h2, h3⟩

theorem clear_of {T : Type} {m : Metadata T} (h : m.unrec = []) (a : T) : clearSignatures { m with signed := a } = { signed := a, signatures := some [] } := by
  unfold clearSignatures
  rw [h]

/-! ## The history of the root -/

theorem run_rest (r : RootType) (e : RootEdit) : (∀ n, e ≠ .version n) → (∀ t, e ≠ .expires t) → (∀ b, e ≠ .consistent b) →
    (e.run env r).version = r.version ∧ (e.run env r).expires = r.expires ∧ (e.run env r).consistentSnapshot = r.consistentSnapshot := by
  intro h1 h2 h3
  cases e with
  | add key role =>
    simp only [RootEdit.run, RootType.addKey]
    repeat' split
    all_goals exact ⟨rfl, rfl, rfl⟩
  | revoke id role =>
    simp only [RootEdit.run, RootType.revokeKey]
    repeat' split
    all_goals exact ⟨rfl, rfl, rfl⟩
  | threshold role n =>
    simp only [RootEdit.run]
    split <;> exact ⟨rfl, rfl, rfl⟩
  | version n => exact absurd rfl (h1 n)
  | expires t => exact absurd rfl (h2 t)
  | consistent b => exact absurd rfl (h3 b)
  | reread => exact ⟨rfl, rfl, rfl⟩

def basicKeys1 (k : BasicSigners) : List (Str × Signer) := [(TARGETS, k.targets), (SNAPSHOT, k.snapshot), (TIMESTAMP, k.timestamp), (ROOT, k.root), (ROOT, k.another)]
def basicHist1 (env : Env) (k : BasicSigners) : List RootEdit := addsOf env (basicKeys1 k) ++ [.threshold ROOT 2]
def basicHist1' (env : Env) (k : BasicSigners) : List RootEdit := basicHist1 env k ++ [.reread]
def basicHist2 (env : Env) (k : BasicSigners) : List RootEdit := basicHist1' env k ++ ([.revoke (idFor env k.root) ROOT] ++ addsOf env [(ROOT, k.newRoot)] ++ [.version 2])
def basicHist3 (env : Env) (k : BasicSigners) : List RootEdit := basicHist2 env k ++ (addsOf env [(ROOT, k.rsa), (ROOT, k.ecdsa)] ++ [.threshold ROOT 4, .version 3])

theorem rootAfter_append (e : Time) (a b : List RootEdit) : rootAfter env e (a ++ b) = b.foldl (RootEdit.run env) (rootAfter env e a) := List.foldl_append ..

theorem basic_adds {k : BasicSigners} (hk : BasicKeys env k) : AddsStaff env k.all (basicHist3 env k) := by
  intro key role h
  have key : ∃ s ∈ k.all, key = keyOf env s := by
    simp only [basicHist3, basicHist2, basicHist1', basicHist1, basicKeys1, addsOf, List.map_cons, List.map_nil, List.cons_append, List.nil_append, List.mem_cons, List.not_mem_nil, or_false,
      RootEdit.add.injEq, reduceCtorEq, false_or] at h
    rcases h with ⟨rfl, _⟩ | ⟨rfl, _⟩ | ⟨rfl, _⟩ | ⟨rfl, _⟩ | ⟨rfl, _⟩ | ⟨rfl, _⟩ | ⟨rfl, _⟩ | ⟨rfl, _⟩ <;> exact ⟨_, by simp [BasicSigners.all], rfl⟩
  obtain ⟨s, hs, rfl⟩ := key
  obtain ⟨pk, h1, h2⟩ := Employed.made (hk.work s hs)
  exact ⟨s, hs, pk, h1, h2⟩

theorem basic_fine (pem : PemTexts env) {k : BasicSigners} (hk : BasicKeys env k) : ∀ x ∈ basicHist3 env k, x.Fine env := by
  intro x h
  cases x with
  | add key role =>
    obtain ⟨s, hs, pk, h1, h2⟩ := basic_adds hk key role h
    exact fineKey_made pem h2 _
  | threshold role n =>
    simp only [basicHist3, basicHist2, basicHist1', basicHist1, basicKeys1, addsOf, List.map_cons, List.map_nil, List.cons_append, List.nil_append, List.mem_cons, List.not_mem_nil, or_false,
      RootEdit.threshold.injEq, reduceCtorEq, false_or] at h
    rcases h with ⟨_, rfl⟩ | ⟨_, rfl⟩ <;> (show inInt64 _ = true; decide)
  | version n =>
    simp only [basicHist3, basicHist2, basicHist1', basicHist1, basicKeys1, addsOf, List.map_cons, List.map_nil, List.cons_append, List.nil_append, List.mem_cons, List.not_mem_nil, or_false,
      RootEdit.version.injEq, reduceCtorEq, false_or] at h
    rcases h with rfl | rfl <;> (show inInt64 _ = true; decide)
  | expires e =>
    simp [basicHist3, basicHist2, basicHist1', basicHist1, basicKeys1, addsOf] at h
  | revoke _ _ => trivial
  | consistent _ => trivial
  | reread => trivial

theorem basicHist_sub {k : BasicSigners} : (∀ x ∈ basicHist1 env k, x ∈ basicHist3 env k) ∧ (∀ x ∈ basicHist1' env k, x ∈ basicHist3 env k) ∧ (∀ x ∈ basicHist2 env k, x ∈ basicHist3 env k) := by
  have h3 : ∀ x ∈ basicHist2 env k, x ∈ basicHist3 env k := fun x hx => List.mem_append_left _ hx
  have h2 : ∀ x ∈ basicHist1' env k, x ∈ basicHist3 env k := fun x hx => h3 x (List.mem_append_left _ hx)
  exact ⟨fun x hx => h2 x (List.mem_append_left _ hx), h2, h3⟩

/-- Who has which role, after each part. -/
theorem basic_granted {k : BasicSigners} (hk : BasicKeys env k) (id : Str) :
    (Granted env (basicHist1 env k) ROOT id ↔ id = idFor env k.root ∨ id = idFor env k.another) ∧
    (Granted env (basicHist2 env k) ROOT id ↔ (id = idFor env k.another ∨ id = idFor env k.newRoot)) ∧
    (Granted env (basicHist3 env k) ROOT id ↔ (id = idFor env k.another ∨ id = idFor env k.newRoot ∨ id = idFor env k.rsa ∨ id = idFor env k.ecdsa)) ∧
    (∀ h, h = basicHist1 env k ∨ h = basicHist2 env k ∨ h = basicHist3 env k → (Granted env h TARGETS id ↔ id = idFor env k.targets) ∧ (Granted env h SNAPSHOT id ↔ id = idFor env k.snapshot) ∧
      (Granted env h TIMESTAMP id ↔ id = idFor env k.timestamp)) := by
  have hn := nodup_ids hk.work hk.distinct
  have i := fun s hs => Employed.id_iff (hk.work s hs) id
  simp only [BasicSigners.all, List.mem_cons, List.not_mem_nil, or_false, forall_eq_or_imp, forall_eq] at i
  obtain ⟨i1, i2, i3, i4, i5, i6, i7, i8, i9⟩ := i
  have n1 : (TARGETS : Str) ≠ ROOT := by decide
  have n2 : (TARGETS : Str) ≠ SNAPSHOT := by decide
  have n3 : (TARGETS : Str) ≠ TIMESTAMP := by decide
  have n4 : (SNAPSHOT : Str) ≠ ROOT := by decide
  have n5 : (SNAPSHOT : Str) ≠ TIMESTAMP := by decide
  have n6 : (TIMESTAMP : Str) ≠ ROOT := by decide
  have d1 : idFor env k.root ≠ idFor env k.another := by
    simp only [BasicSigners.all, List.map_cons, List.map_nil, List.nodup_cons, List.mem_cons, List.not_mem_nil, or_false, not_or] at hn
    exact hn.2.2.2.1.1
  have d2 : idFor env k.root ≠ idFor env k.newRoot := by
    simp only [BasicSigners.all, List.map_cons, List.map_nil, List.nodup_cons, List.mem_cons, List.not_mem_nil, or_false, not_or] at hn
    exact hn.2.2.2.1.2.2.1
  have key : ∀ ro h, h = basicHist1 env k ∨ h = basicHist2 env k ∨ h = basicHist3 env k → ro ≠ ROOT →
      (Granted env h ro id ↔ (((ro = TARGETS ∧ id = idFor env k.targets) ∨ ro = SNAPSHOT ∧ id = idFor env k.snapshot) ∨ ro = TIMESTAMP ∧ id = idFor env k.timestamp)) := by
    intro ro h hh hro
    rcases hh with rfl | rfl | rfl <;>
      simp only [Granted, basicHist3, basicHist2, basicHist1', basicHist1, basicKeys1, addsOf, List.map_cons, List.map_nil, List.cons_append, List.nil_append, List.foldl_cons, List.foldl_nil,
        grantStep, i1, i2, i3, i4, i5, i7, i8, i9, hro, false_and, or_false, false_or, not_false_eq_true, and_true]
  refine ⟨?_, ?_, ?_, ?_⟩
  · simp only [Granted, basicHist1, basicKeys1, addsOf, List.map_cons, List.map_nil, List.cons_append, List.nil_append, List.foldl_cons, List.foldl_nil,
        grantStep, i1, i2, i3, i4, i5, n1.symm, n4.symm, n6.symm, false_and, or_false, false_or, true_and]
  · simp only [Granted, basicHist2, basicHist1', basicHist1, basicKeys1, addsOf, List.map_cons, List.map_nil, List.cons_append, List.nil_append, List.foldl_cons, List.foldl_nil,
        grantStep, i1, i2, i3, i4, i5, i7, n1.symm, n4.symm, n6.symm, false_and, or_false, false_or, true_and]
    constructor
    · rintro (⟨h | h, hn⟩ | h)
      · exact absurd h hn
      · exact .inl h
      · exact .inr h
    · rintro (rfl | h)
      · exact .inl ⟨.inr rfl, fun h => d1 h.symm⟩
      · exact .inr h
  · simp only [Granted, basicHist3, basicHist2, basicHist1', basicHist1, basicKeys1, addsOf, List.map_cons, List.map_nil, List.cons_append, List.nil_append, List.foldl_cons, List.foldl_nil,
        grantStep, i1, i2, i3, i4, i5, i7, i8, i9, n1.symm, n4.symm, n6.symm, false_and, or_false, false_or, true_and]
    constructor
    · rintro (((⟨h | h, hn⟩ | h) | h) | h)
      · exact absurd h hn
      · exact .inl h
      · exact .inr (.inl h)
      · exact .inr (.inr (.inl h))
      · exact .inr (.inr (.inr h))
    · rintro (rfl | h | h | h)
      · exact .inl (.inl (.inl ⟨.inr rfl, fun h => d1 h.symm⟩))
      · exact .inl (.inl (.inr h))
      · exact .inl (.inr h)
      · exact .inr h
  · intro h hh
    rw [key _ h hh n1, key _ h hh n4, key _ h hh n6]
    simp only [n2, n3, n5, n2.symm, n3.symm, n5.symm, false_and, or_false, false_or, true_and]

theorem basic_threshold (k : BasicSigners) :
    thresholdAfter (basicHist1 env k) ROOT = 2 ∧ thresholdAfter (basicHist2 env k) ROOT = 2 ∧ thresholdAfter (basicHist3 env k) ROOT = 4 ∧
    ∀ h, h = basicHist1 env k ∨ h = basicHist2 env k ∨ h = basicHist3 env k → thresholdAfter h TARGETS = 1 ∧ thresholdAfter h SNAPSHOT = 1 ∧ thresholdAfter h TIMESTAMP = 1 := by
  have n1 : (TARGETS : Str) ≠ ROOT := by decide
  have n4 : (SNAPSHOT : Str) ≠ ROOT := by decide
  have n6 : (TIMESTAMP : Str) ≠ ROOT := by decide
  refine ⟨?_, ?_, ?_, ?_⟩
  · rfl
  · rfl
  · rfl
  · rintro h (rfl | rfl | rfl) <;> exact ⟨rfl, rfl, rfl⟩

end

/-! ## Documents -/

section
variable {env : Env}

abbrev Apart (env : Env) (ss : List Signer) : Prop := ss.Pairwise (fun s s' => ∀ id, SignerID env s id → ¬ SignerID env s' id)

/-- A document that was signed and written. -/
structure Doc {T : Type} [RoleType T] (env : Env) (a read : T) (ss : List Signer) (m : Metadata T) (data : Bytes) : Prop where
  made : SignedBy env { signed := a, signatures := some [] } ss m
  signed : signAll env ss { signed := a, signatures := some [] } = .ok m
  value : m.signed = a
  fields : m.unrec = []
  bytes : toBytes env m true = .ok data
  published : Publishes env a ss data
  back : fromBytes env data = .ok { m with signed := read }

theorem root_doc {e : Time} (he : CalendarTime e) {edits : List RootEdit} (hf : ∀ x ∈ edits, x.Fine (std env)) {ss : List Signer} (hw : ∀ s ∈ ss, Employed (std env) s) (hd : Apart (std env) ss) :
    ∃ m data, Doc (std env) (rootAfter (std env) e edits) (readRoot (rootAfter (std env) e edits)) ss m data := by
  obtain ⟨m, data, h1, h2, h3, h4, h5, h6, h7⟩ := doc_of (C116_root he hf).2 hw hd fun m data h1 h2 => C99_publish_root (m0 := { signed := rootAfter (std env) e edits, signatures := some [] }) hd rfl rfl rfl (rootInv_text (rootInv_after he hf)) h1 h2
  exact ⟨m, data, h1, h2, h3, h4, h5, h6, h7⟩

theorem targets_doc {e : Time} (he : CalendarTime e) {edits : List TargetsEdit} (hf : ∀ x ∈ edits, x.Fine (std env)) {ss : List Signer} (hw : ∀ s ∈ ss, Employed (std env) s) (hd : Apart (std env) ss) :
    ∃ m data, Doc (std env) (targetsAfter (std env) e edits) (readTargets (targetsAfter (std env) e edits)) ss m data := by
  obtain ⟨m, data, h1, h2, h3, h4, h5, h6, h7⟩ := doc_of (C116_targets he hf).2 hw hd fun m data h1 h2 => C99_publish_targets (m0 := { signed := targetsAfter (std env) e edits, signatures := some [] }) hd rfl rfl rfl (targetsInv_text (targetsInv_after he hf)) h1 h2
  exact ⟨m, data, h1, h2, h3, h4, h5, h6, h7⟩

theorem snapshot_doc {e : Time} (he : CalendarTime e) {edits : List MetaEdit} (hf : ∀ x ∈ edits, x.Fine (std env)) {ss : List Signer} (hw : ∀ s ∈ ss, Employed (std env) s) (hd : Apart (std env) ss) :
    ∃ m data, Doc (std env) (snapshotAfter e edits) (viewSnapshot (snapshotAfter e edits)) ss m data := by
  obtain ⟨m, data, h1, h2, h3, h4, h5, h6, h7⟩ := doc_of (C116_snapshot he hf).2 hw hd fun m data h1 h2 => C99_publish_snapshot (m0 := { signed := snapshotAfter e edits, signatures := some [] }) hd rfl rfl rfl (snapshotInv_text (snapshotInv_after he hf)) h1 h2
  exact ⟨m, data, h1, h2, h3, h4, h5, h6, h7⟩

theorem timestamp_doc {e : Time} (he : CalendarTime e) {edits : List MetaEdit} (hf : ∀ x ∈ edits, x.Fine (std env)) {ss : List Signer} (hw : ∀ s ∈ ss, Employed (std env) s) (hd : Apart (std env) ss) :
    ∃ m data, Doc (std env) (timestampAfter e edits) (viewTimestamp (timestampAfter e edits)) ss m data := by
  obtain ⟨m, data, h1, h2, h3, h4, h5, h6, h7⟩ := doc_of (C116_timestamp he hf).2 hw hd fun m data h1 h2 => C99_publish_timestamp (m0 := { signed := timestampAfter e edits, signatures := some [] }) hd rfl rfl rfl (timestampInv_text (timestampInv_after he hf)) h1 h2
  exact ⟨m, data, h1, h2, h3, h4, h5, h6, h7⟩

/-- What the reader signs too is what both had signed. -/
theorem cosign_doc {a : RootType} {s s' : Signer} {m1 m2 : Metadata RootType} {d1 d2 : Bytes} (h1 : Doc (std env) a (readRoot a) [s] m1 d1)
    (h2 : Doc (std env) (readRoot a) (readRoot (readRoot a)) [s, s'] m2 d2) : signAll (std env) [s'] { m1 with signed := readRoot a } = .ok m2 := by
  have hp : payload (readRoot a) = payload a := (rereadsRoot (std_laws env)).payload a
  have q := h2.signed
  simp only [signAll] at q ⊢
  have q1 := h1.signed
  simp only [signAll] at q1
  obtain ⟨⟨sig, n⟩, e1, e2⟩ := Res.bind_eq_ok.1 q1
  cases e2
  have t := sign_same (m := { signed := a, signatures := some [] }) (m' := { signed := readRoot a, signatures := some [] }) hp e1
  have t' := sign_same (m := { signed := a, signatures := some [] }) (m' := { signed := a, signatures := some [] }) (Eq.refl (payload a)) e1
  rw [e1] at t'
  have t'' := (Prod.mk.inj (Res.ok.inj t')).2
  rw [t'']
  rw [t, Res.bind_ok] at q
  exact q

/-! ## What the program builds -/

/-- The entry of the target file. -/
def basicFile (env : Env) (localPath : Str) (data : Bytes) : TargetFiles := { length := (data.length : Int), hashes := some [(b!"sha256", env.sha256 data)], path := localPath }

theorem basicFile_made (localPath : Str) (data : Bytes) : targetFileFromBytes env localPath data [b!"sha256"] = .ok (basicFile env localPath data) := rfl

/-- The key with its ID. -/
def filedOf (env : Env) (s : Signer) : Key := { keyOf env s with id := idFor env s }

def basicDelegation (env : Env) (s : Signer) : Delegations :=
  { keys := some [(idFor env s, some (filedOf env s))]
    roles := some [{ name := basicDelegatee, keyIDs := some [idFor env s], threshold := 1, terminating := true, paths := some [b!"*.go"] }] }

theorem Employed.filed {s : Signer} (h : Employed env s) : (keyOf env s).ID env = .ok (idFor env s, filedOf env s) ∧ (filedOf env s).ID env = .ok (idFor env s, filedOf env s) := by
  obtain ⟨pk, _, hk⟩ := h.made
  obtain ⟨_, d1, d2, d3⟩ := C104_declared hk
  have h0 := C103_text (env := env) d1 d2 d3
  have hid : idFor env s = hexEncode (env.sha256 (keyText (keyOf env s).type (keyOf env s).scheme (keyOf env s).value.publicKey)) := by unfold idFor; rw [h0]
  refine ⟨by rw [h0]; unfold filedOf; rw [hid], ?_⟩
  by_cases he : idFor env s = []
  · have : filedOf env s = keyOf env s := by
      unfold filedOf
      rw [he, ← d1]
    rw [this, h0, hid]
    rw [← hid, he, ← d1]
  · unfold Key.ID
    rw [if_neg (show (filedOf env s).id ≠ [] from he)]
    rfl

theorem delegation_made {s : Signer} (h : Employed env s) : basicDelegations env s = .ok (basicDelegation env s) := by
  obtain ⟨pk, hp, hk⟩ := h.made
  obtain ⟨h1, h2⟩ := h.filed
  unfold basicDelegations
  rw [hp]
  simp only [Res.ofOption, Res.bind_ok, hk, h1, h2]
  rfl

theorem keyID_made {s : Signer} (h : Employed env s) : signerKeyID env s = .ok (idFor env s) := by
  obtain ⟨pk, hp, hk⟩ := h.made
  obtain ⟨h1, h2⟩ := h.filed
  unfold signerKeyID
  rw [hp]
  simp only [Res.ofOption, Res.bind_ok, hk, h1]

theorem fine_target {localPath : Str} {data : Bytes} (hl : data.length < 2 ^ 63) : (TargetsEdit.target basicTarget (basicFile (std env) localPath data)).Fine (std env) := by
  refine ⟨utf8_name (by rfl), ⟨goodFields_nil _, ?_, by simp [basicFile, Entries.Sorted, GoMap.entries], fun c hc => by cases hc⟩, ⟨wholeNil, fun c hc => by cases hc⟩,
    ⟨fun y hy => ?_, fun c hc => (by cases hc), fieldsText_nil⟩⟩
  · show inInt64 (data.length : Int) = true
    unfold inInt64
    simp only [Bool.and_eq_true, decide_eq_true_eq]
    omega
  · simp only [basicFile, GoMap.entries, Option.getD_some, List.mem_singleton] at hy
    subst hy
    exact ⟨utf8_name (by rfl), trivial⟩

theorem fine_delegation (pem : PemTexts (std env)) {s : Signer} (h : Employed (std env) s) : (TargetsEdit.delegate (some (basicDelegation (std env) s))).Fine (std env) := by
  intro a ha
  cases ha
  have hk := h.fine pem 9994
  obtain ⟨u1, u2⟩ := fineKey_ID hk h.filed.1
  refine ⟨⟨goodFields_nil _, ⟨?_, ?_⟩, ?_, ?_, .inr rfl⟩, ⟨wholeNil, ?_, ?_, ?_⟩, ⟨?_, ?_, ?_, fieldsText_nil⟩⟩
  · simp [basicDelegation, Entries.Sorted, GoMap.entries]
  · intro e he
    simp only [basicDelegation, GoMap.entries, Option.getD_some, List.mem_singleton] at he
    subst he
    exact ⟨_, rfl, u2.good⟩
  · intro r hr
    simp only [basicDelegation, Slice.elems, Option.getD_some, List.mem_singleton] at hr
    subst hr
    exact ⟨goodFields_nil _, rfl, .inr rfl⟩
  · intro x hx
    cases hx
  · intro e he
    simp only [basicDelegation, GoMap.entries, Option.getD_some, List.mem_singleton] at he
    subst he
    intro a ha
    cases ha
    exact u2.whole
  · intro r hr
    simp only [basicDelegation, Slice.elems, Option.getD_some, List.mem_singleton] at hr
    subst hr
    exact wholeNil
  · intro x hx
    cases hx
  · intro e he
    simp only [basicDelegation, GoMap.entries, Option.getD_some, List.mem_singleton] at he
    subst he
    refine ⟨u1, fun a ha => ?_⟩
    cases ha
    exact u2.text
  · intro r hr
    simp only [basicDelegation, Slice.elems, Option.getD_some, List.mem_singleton] at hr
    subst hr
    refine ⟨utf8_name (by rfl), ?_, ?_, ?_, fieldsText_nil⟩
    · intro i hi
      simp only [Slice.elems, Option.getD_some, List.mem_singleton] at hi
      subst hi
      exact u1
    · intro i hi
      cases hi
    · intro i hi
      simp only [Slice.elems, Option.getD_some, List.mem_singleton] at hi
      subst hi
      exact utf8_name (by rfl)
  · intro x hx
    cases hx

/-! ## The parts of the program -/

section
variable {k : BasicSigners} {e : BasicTimes} {f : TargetFiles}

def basicT1 (env : Env) (e : BasicTimes) (f : TargetFiles) : TargetsType := targetsAfter env e.targets [.target basicTarget f]
def basicT2 (env : Env) (e : BasicTimes) (f : TargetFiles) (k : BasicSigners) : TargetsType :=
  targetsAfter env e.targets [.target basicTarget f, .delegate (some (basicDelegation env k.delegatee)), .remove basicTarget, .expires e.targets2, .version 2]
def basicD (env : Env) (e : BasicTimes) (f : TargetFiles) : TargetsType := targetsAfter env e.delegatee [.target basicTarget f]
def basicS1 (e : BasicTimes) : SnapshotType := snapshotAfter e.snapshot []
def basicS2 (e : BasicTimes) : SnapshotType := snapshotAfter e.snapshot [.file b!"targets.json" (newMetaFile 2), .file b!"go-scripts.json" (newMetaFile 1), .version 2]
def basicI1 (e : BasicTimes) : TimestampType := timestampAfter e.timestamp []
def basicI2 (e : BasicTimes) : TimestampType := timestampAfter e.timestamp [.file b!"snapshot.json" (newMetaFile 2), .version 2]
def basicR1 (env : Env) (e : BasicTimes) (k : BasicSigners) : RootType := rootAfter env e.root (basicHist1 env k)
def basicR1' (env : Env) (e : BasicTimes) (k : BasicSigners) : RootType := rootAfter env e.root (basicHist1' env k)
def basicR2 (env : Env) (e : BasicTimes) (k : BasicSigners) : RootType := rootAfter env e.root (basicHist2 env k)
def basicR3 (env : Env) (e : BasicTimes) (k : BasicSigners) : RootType := rootAfter env e.root (basicHist3 env k)

theorem basic_inv (hk : BasicKeys env k) (e : Time) : (∀ es, (∀ x ∈ es, x ∈ basicHist3 env k) → GrantInv env k.all (Granted env es) (thresholdAfter es) (rootAfter env e es)) :=
  fun _ hes => grantInv_after (fun key role h => basic_adds hk key role (hes _ h)) e

theorem basicR1'_eq : basicR1' env e k = readRoot (basicR1 env e k) := rootAfter_append _ _ _

theorem basicR2_eq : basicR2 env e k = ([RootEdit.revoke (idFor env k.root) ROOT] ++ addsOf env [(ROOT, k.newRoot)] ++ [RootEdit.version 2]).foldl (RootEdit.run env) (basicR1' env e k) := by
  unfold basicR2 basicR1' basicHist2
  rw [rootAfter_append]

theorem basicR3_eq : basicR3 env e k = (addsOf env [(ROOT, k.rsa), (ROOT, k.ecdsa)] ++ [RootEdit.threshold ROOT 4, RootEdit.version 3]).foldl (RootEdit.run env) (basicR2 env e k) := by
  unfold basicR3 basicR2 basicHist3
  rw [rootAfter_append]

/-- Neither version nor expiry time nor the use of consistent snapshots are changed. -/
def Quiet : RootEdit → Prop
  | .version _ => False
  | .expires _ => False
  | .consistent _ => False
  | _ => True

theorem quiet_rest {edits : List RootEdit} (h : ∀ x ∈ edits, Quiet x) (r : RootType) : (edits.foldl (RootEdit.run env) r).version = r.version ∧ (edits.foldl (RootEdit.run env) r).expires = r.expires ∧
    (edits.foldl (RootEdit.run env) r).consistentSnapshot = r.consistentSnapshot := by
  induction edits generalizing r with
  | nil => exact ⟨rfl, rfl, rfl⟩
  | cons x l ih =>
    have hq := h x (by simp)
    obtain ⟨a, b, c⟩ := run_rest (env := env) r x (fun n he => by subst he; exact hq) (fun n he => by subst he; exact hq) (fun n he => by subst he; exact hq)
    obtain ⟨a', b', c'⟩ := ih (fun y hy => h y (by simp [hy])) (RootEdit.run env r x)
    rw [List.foldl_cons]
    exact ⟨a'.trans a, b'.trans b, c'.trans c⟩

theorem quiet_adds (l : List (Str × Signer)) : ∀ x ∈ addsOf env l, Quiet x := by
  intro x hx
  obtain ⟨p, _, rfl⟩ := List.mem_map.1 hx
  trivial

theorem version_last (r : RootType) (edits : List RootEdit) (n : Int) (h : ∀ x ∈ edits, Quiet x) : ((edits ++ [RootEdit.version n]).foldl (RootEdit.run env) r).version = n ∧
    ((edits ++ [RootEdit.version n]).foldl (RootEdit.run env) r).expires = r.expires ∧ ((edits ++ [RootEdit.version n]).foldl (RootEdit.run env) r).consistentSnapshot = r.consistentSnapshot := by
  obtain ⟨a, b, c⟩ := quiet_rest (env := env) h r
  rw [List.foldl_append]
  generalize edits.foldl (RootEdit.run env) r = r' at *
  exact ⟨rfl, b, c⟩

theorem basic_versions : (basicR1 env e k).version = 1 ∧ (basicR2 env e k).version = 2 ∧ (basicR3 env e k).version = 3 ∧
    (basicR1 env e k).expires = e.root ∧ (basicR2 env e k).expires = e.root ∧ (basicR3 env e k).expires = e.root ∧
    (basicR1 env e k).consistentSnapshot = true ∧ (basicR2 env e k).consistentSnapshot = true ∧ (basicR3 env e k).consistentSnapshot = true := by
  obtain ⟨a1, b1, c1⟩ : (basicR1 env e k).version = 1 ∧ (basicR1 env e k).expires = e.root ∧ (basicR1 env e k).consistentSnapshot = true := by
    refine quiet_rest (env := env) (edits := basicHist1 env k) ?_ (newRoot e.root).signed
    intro x hx
    rcases List.mem_append.1 hx with hx | hx
    · exact quiet_adds _ x hx
    · rw [List.mem_singleton] at hx
      subst hx
      trivial
  have h1 : (basicR1' env e k).expires = e.root ∧ (basicR1' env e k).consistentSnapshot = true := by
    rw [basicR1'_eq]
    exact ⟨b1, c1⟩
  obtain ⟨a2, b2, c2⟩ : (basicR2 env e k).version = 2 ∧ (basicR2 env e k).expires = (basicR1' env e k).expires ∧ (basicR2 env e k).consistentSnapshot = (basicR1' env e k).consistentSnapshot := by
    have := version_last (env := env) (basicR1' env e k) ([.revoke (idFor env k.root) ROOT] ++ addsOf env [(ROOT, k.newRoot)]) 2 (by
      intro x hx
      rcases List.mem_append.1 hx with hx | hx
      · rw [List.mem_singleton] at hx
        subst hx
        trivial
      · exact quiet_adds _ x hx)
    rw [basicR2_eq]
    exact this
  obtain ⟨a3, b3, c3⟩ : (basicR3 env e k).version = 3 ∧ (basicR3 env e k).expires = (basicR2 env e k).expires ∧ (basicR3 env e k).consistentSnapshot = (basicR2 env e k).consistentSnapshot := by
    have := version_last (env := env) (basicR2 env e k) (addsOf env [(ROOT, k.rsa), (ROOT, k.ecdsa)] ++ [.threshold ROOT 4]) 3 (by
      intro x hx
      rcases List.mem_append.1 hx with hx | hx
      · exact quiet_adds _ x hx
      · rw [List.mem_singleton] at hx
        subst hx
        trivial)
    rw [List.append_assoc] at this
    rw [basicR3_eq]
    exact this
  exact ⟨a1, a2, a3, b1, b2.trans h1.1, b3.trans (b2.trans h1.1), c1, c2.trans h1.2, c3.trans (c2.trans h1.2)⟩

theorem write_doc {T : Type} [RoleType T] {m : Metadata T} {data : Bytes} (h : toBytes env m true = .ok data) (dir : Entries Bytes) (name : Str) :
    basicWrite env dir name m = .ok (dir.set name data) := by
  unfold basicWrite
  rw [h, Res.bind_ok]

variable {mt1 mt2 md : Metadata TargetsType} {ms1 ms2 : Metadata SnapshotType} {mi1 mi2 : Metadata TimestampType} {mr0 mr1 mr2 mr3 : Metadata RootType}
  {dt1 dt2 dd ds1 ds2 di1 di2 dr0 dr1 dr2 dr3 : Bytes}

theorem create_run (hk : BasicKeys env k) (ht : Doc env (basicT1 env e f) (readTargets (basicT1 env e f)) [k.targets] mt1 dt1) (hs : Doc env (basicS1 e) (viewSnapshot (basicS1 e)) [k.snapshot] ms1 ds1)
    (hi : Doc env (basicI1 e) (viewTimestamp (basicI1 e)) [k.timestamp] mi1 di1) (hr : Doc env (basicR1 env e k) (readRoot (basicR1 env e k)) [k.root] mr0 dr0) :
    basicCreate env e f k = .ok { root := mr0, targets := mt1, snapshot := ms1, timestamp := mi1, dir := [(b!"1.root.json", dr0), (b!"1.snapshot.json", ds1), (b!"1.targets.json", dt1), (b!"timestamp.json", di1)] } := by
  have inv0 := basic_inv hk e.root [] (fun _ h => by cases h)
  have hg : genKeys env (basicKeys1 k) (newRoot e.root).signed = .ok (rootAfter env e.root (addsOf env (basicKeys1 k))) := by
    refine genKeys_run hk.work ?_ inv0
    intro p hp
    simp only [basicKeys1, List.mem_cons, List.not_mem_nil, or_false] at hp
    rcases hp with rfl | rfl | rfl | rfl | rfl <;> simp [topLevel, BasicSigners.all]
  have inv1 := basic_inv hk e.root (addsOf env (basicKeys1 k)) (fun x h => basicHist_sub.1 x (List.mem_append_left _ h))
  have hth := setThreshold_run inv1 (role := ROOT) (by simp [topLevel]) 2
  have hR : RootEdit.run env (rootAfter env e.root (addsOf env (basicKeys1 k))) (.threshold ROOT 2) = basicR1 env e k := by
    unfold basicR1 basicHist1
    rw [rootAfter_append]
    rfl
  rw [hR] at hth
  have eT : ({ newTargets e.targets with signed := { (newTargets e.targets).signed with targets := (basicT1 env e f).targets } } : Metadata TargetsType) =
      { signed := basicT1 env e f, signatures := some [] } := rfl
  have eS : newSnapshot e.snapshot = { signed := basicS1 e, signatures := some [] } := rfl
  have eI : newTimestamp e.timestamp = { signed := basicI1 e, signatures := some [] } := rfl
  have eR : ({ newRoot e.root with signed := basicR1 env e k } : Metadata RootType) = { signed := basicR1 env e k, signatures := some [] } := rfl
  have eK : [(TARGETS, k.targets), (SNAPSHOT, k.snapshot), (TIMESTAMP, k.timestamp), (ROOT, k.root), (ROOT, k.another)] = basicKeys1 k := rfl
  unfold basicCreate
  rw [show (newTargets e.targets).signed.targets.set basicTarget (some f) = .ok (basicT1 env e f).targets from rfl, Res.bind_ok, eK, hg, Res.bind_ok, hth, Res.bind_ok, eT, ht.signed, Res.bind_ok,
    eS, hs.signed, Res.bind_ok, eI, hi.signed, Res.bind_ok, eR, hr.signed, Res.bind_ok, write_doc ht.bytes, Res.bind_ok, write_doc hs.bytes, Res.bind_ok, write_doc hi.bytes, Res.bind_ok,
    write_doc hr.bytes, Res.bind_ok, ht.value, hs.value, hr.value, basic_versions.1]
  rfl

end

end

end Tuf
