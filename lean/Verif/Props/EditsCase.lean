import Verif.Props.Grants
import Verif.Props.ExampleCase

/-! # Cases of C116 and C117: histories of edits -/

namespace Tuf
open Tuf.Spec Tuf.Sample Tuf.Std

/-- Keys made by `KeyFromPublicKey` are fine (the PEM form of a public key is a text). -/
theorem fineKey_made {env : Env} {pk : PublicKey} {key : Key} (pem : ∀ pk s, env.toPem pk = some s → Utf8 s) (h : keyFromPublicKey env pk = .ok key) (d : Nat) : FineKey env d key := by
  cases pk with
  | rsa m =>
    simp only [keyFromPublicKey] at h
    split at h
    · next s hs =>
      cases h
      exact ⟨⟨goodFields_nil _, goodFields_nil _⟩, ⟨wholeNil, wholeNil⟩, ⟨utf8_name (by rfl), utf8_name (by rfl), ⟨pem _ _ hs, fieldsText_nil⟩, fieldsText_nil⟩, utf8_name (by rfl)⟩
    · cases h
  | ecdsa m =>
    simp only [keyFromPublicKey] at h
    split at h
    · next s hs =>
      cases h
      exact ⟨⟨goodFields_nil _, goodFields_nil _⟩, ⟨wholeNil, wholeNil⟩, ⟨utf8_name (by rfl), utf8_name (by rfl), ⟨pem _ _ hs, fieldsText_nil⟩, fieldsText_nil⟩, utf8_name (by rfl)⟩
    · cases h
  | ed25519 m =>
    cases h
    exact ⟨⟨goodFields_nil _, goodFields_nil _⟩, ⟨wholeNil, wholeNil⟩, ⟨utf8_name (by rfl), utf8_name (by rfl), ⟨hexEncode_utf8 _, fieldsText_nil⟩, fieldsText_nil⟩, utf8_name (by rfl)⟩
  | unknown m => cases h

namespace Sample

abbrev edEnv : Env := std pemEnv
def edStaff : List Signer := [signer 1, signer 2, ecSigner]
/-- The keys of the staff. -/
def edKey1 : Key := { type := b!"ed25519", scheme := b!"ed25519", value := { publicKey := b!"01" } }
def edKey2 : Key := { type := b!"ed25519", scheme := b!"ed25519", value := { publicKey := b!"02" } }
def edKey9 : Key := { type := b!"ecdsa", scheme := b!"ecdsa-sha2-nistp256", value := { publicKey := [2, 9] } }
def edIDof (k : Key) : Str := match k.ID edEnv with
  | .ok (id, _) => id
  | _ => []
/-- Three root keys, of which two have to sign; a new version, without the first key, which becomes the timestamp key. -/
def edHistory : List RootEdit :=
  [.add edKey1 ROOT, .add edKey2 ROOT, .add edKey9 ROOT, .threshold ROOT 2, .reread, .version 2, .expires (timeOf (exCivil 2033)), .revoke (edIDof edKey1) ROOT, .add edKey1 TIMESTAMP,
    .consistent false]

end Sample

theorem edKey1_made : keyFromPublicKey edEnv (.ed25519 [1]) = .ok edKey1 := rfl
theorem edKey2_made : keyFromPublicKey edEnv (.ed25519 [2]) = .ok edKey2 := rfl
theorem edKey9_made : keyFromPublicKey edEnv (.ecdsa [9]) = .ok edKey9 := rfl

theorem edIDs : [edIDof edKey1, edIDof edKey2, edIDof edKey9].Nodup := by decide +kernel

theorem edID_ok (k : Key) (hk : k.id = []) (hu : k.unrec = []) (hv : k.value.unrec = []) : ∃ k', k.ID edEnv = .ok (edIDof k, k') := by
  have h := C103_text (env := edEnv) hk hu hv
  exact ⟨_, by unfold edIDof; rw [h]⟩

theorem edID_iff {k : Key} (hk : k.id = []) (hu : k.unrec = []) (hv : k.value.unrec = []) (id : Str) : (∃ k', k.ID edEnv = .ok (id, k')) ↔ id = edIDof k := by
  obtain ⟨k', h⟩ := edID_ok k hk hu hv
  rw [h]
  constructor
  · rintro ⟨_, h⟩
    cases h
    rfl
  · rintro rfl
    exact ⟨_, rfl⟩

theorem edSignerID {s : Signer} {pk : PublicKey} {k : Key} (hp : s.publicKey = some pk) (hm : keyFromPublicKey edEnv pk = .ok k) (id : Str) : SignerID edEnv s id ↔ id = edIDof k := by
  obtain ⟨_, a, b, c⟩ := C104_declared hm
  rw [← edID_iff a b c]
  constructor
  · rintro ⟨pk', k0, k1, h1, h2, h3⟩
    rw [hp] at h1
    cases h1
    rw [hm] at h2
    cases h2
    exact ⟨_, h3⟩
  · rintro ⟨k', h⟩
    exact ⟨pk, k, k', hp, hm, h⟩

theorem edWorking (pk : PublicKey) (b : UInt8) (hm : material pk = [b]) : WorkingSigner edEnv { signMessage := fun _ => some [b], publicKey := some pk } pk where
  «public» := rfl
  readable := pemEnv_laws pk
  usable := ⟨rfl, rfl⟩
  total := by
    intro sig p hp
    have : (if sig = material pk ∧ sig ≠ [] then Res.ok () else .err (.other "bad signature")) = (.panic : Res Unit) := hp
    split at this <;> cases this
  signs := fun p => ⟨[b], rfl, if_pos ⟨hm.symm, by simp⟩⟩

theorem edStaff_ok : Staff edEnv edStaff where
  work := by
    intro s hs
    simp only [edStaff, List.mem_cons, List.not_mem_nil, or_false] at hs
    rcases hs with rfl | rfl | rfl
    · exact ⟨_, _, edWorking (.ed25519 [1]) 1 rfl, edKey1_made⟩
    · exact ⟨_, _, edWorking (.ed25519 [2]) 2 rfl, edKey2_made⟩
    · exact ⟨_, _, edWorking (.ecdsa [9]) 9 rfl, edKey9_made⟩
  distinct := by
    have h := edIDs
    simp only [List.nodup_cons, List.mem_cons, List.not_mem_nil, or_false, not_or, not_false_eq_true, and_true, List.nodup_nil] at h
    have i1 := fun id => edSignerID (s := signer 1) rfl edKey1_made id
    have i2 := fun id => edSignerID (s := signer 2) rfl edKey2_made id
    have i3 := fun id => edSignerID (s := ecSigner) rfl edKey9_made id
    intro s hs s' hs' id h1 h2
    simp only [edStaff, List.mem_cons, List.not_mem_nil, or_false] at hs hs'
    rcases hs with rfl | rfl | rfl <;> rcases hs' with rfl | rfl | rfl <;> first | rfl | (simp only [i1, i2, i3] at h1 h2; subst h1; simp_all)

theorem edAdds : AddsStaff edEnv edStaff edHistory := by
  intro key role h
  simp only [edHistory, List.mem_cons, List.not_mem_nil, or_false, RootEdit.add.injEq, reduceCtorEq, false_or] at h
  rcases h with ⟨rfl, _⟩ | ⟨rfl, _⟩ | ⟨rfl, _⟩ | ⟨rfl, _⟩
  · exact ⟨signer 1, by simp [edStaff], _, rfl, edKey1_made⟩
  · exact ⟨signer 2, by simp [edStaff], _, rfl, edKey2_made⟩
  · exact ⟨ecSigner, by simp [edStaff], _, rfl, edKey9_made⟩
  · exact ⟨signer 1, by simp [edStaff], _, rfl, edKey1_made⟩

theorem exCalendar_year {y : Nat} (h : y ≤ 9999) : CalendarTime (timeOf (exCivil y)) := by
  refine ⟨_, ⟨?_, ?_, ?_, ?_, ?_, ?_, ?_, ?_⟩, rfl⟩ <;> simp only [exCivil] <;> first | omega | decide | skip
  unfold daysIn
  simp

theorem edFine : ∀ x ∈ edHistory, x.Fine edEnv := by
  have hk : ∀ k, k = edKey1 ∨ k = edKey2 ∨ k = edKey9 → FineKey edEnv 9995 k := by
    intro k hk
    refine ⟨?_, ?_, ?_, ?_⟩ <;> rcases hk with rfl | rfl | rfl <;>
      first
      | exact ⟨goodFields_nil _, goodFields_nil _⟩
      | exact ⟨wholeNil, wholeNil⟩
      | exact ⟨utf8_name (by rfl), utf8_name (by rfl), ⟨utf8_name (by rfl), fieldsText_nil⟩, fieldsText_nil⟩
      | exact utf8_name (by rfl)
  intro x hx
  simp only [edHistory, List.mem_cons, List.not_mem_nil, or_false] at hx
  rcases hx with rfl | rfl | rfl | rfl | rfl | rfl | rfl | rfl | rfl | rfl
  · exact hk _ (.inl rfl)
  · exact hk _ (.inr (.inl rfl))
  · exact hk _ (.inr (.inr rfl))
  · exact (rfl : inInt64 2 = true)
  · trivial
  · exact (rfl : inInt64 2 = true)
  · exact exCalendar_year (by decide)
  · trivial
  · exact hk _ (.inl rfl)
  · trivial

/-- A case of C116: root metadata with this history can be signed, written and read. -/
theorem edPublish : CanBePublished edEnv (rootAfter edEnv (timeOf (exCivil 2030)) edHistory) (readRoot (rootAfter edEnv (timeOf (exCivil 2030)) edHistory)) :=
  (C116_root (env := pemEnv) (exCalendar_year (by decide)) edFine).2

theorem edGranted (id : Str) : Granted edEnv edHistory ROOT id ↔ id = edIDof edKey2 ∨ id = edIDof edKey9 := by
  have h := edIDs
  simp only [List.nodup_cons, List.mem_cons, List.not_mem_nil, or_false, not_or, not_false_eq_true, and_true, List.nodup_nil] at h
  obtain ⟨⟨h1, h2⟩, h3⟩ := h
  have i1 := edID_iff (k := edKey1) rfl rfl rfl id
  have i2 := edID_iff (k := edKey2) rfl rfl rfl id
  have i3 := edID_iff (k := edKey9) rfl rfl rfl id
  have : (ROOT : Str) ≠ TIMESTAMP := by decide
  simp only [Granted, edHistory, List.foldl_cons, List.foldl_nil, grantStep, true_and, i1, i2, i3, this, false_and, or_false, false_or]
  constructor
  · rintro ⟨(h | h) | h, hn⟩
    · exact absurd h hn
    · exact .inl h
    · exact .inr h
  · rintro (rfl | rfl)
    · exact ⟨.inl (.inr rfl), fun h => h1 h.symm⟩
    · exact ⟨.inr rfl, fun h => h2 h.symm⟩

theorem edThreshold : thresholdAfter edHistory ROOT = 2 := by decide

theorem edSane : SaneVerifiers edEnv := by
  intro pk h p hx
  have : (if ([] : Bytes) = material pk ∧ ([] : Bytes) ≠ [] then Res.ok () else .err (.other "bad signature")) = (Res.ok () : Res Unit) := hx
  rw [if_neg (by simp)] at this
  cases this

/-- Documents signed by members of the staff exist. -/
theorem edSigned (ss : List Signer) (h : ss = [signer 2, ecSigner] ∨ ss = [signer 1, signer 2]) :
    ∃ m, SignedBy edEnv { signed := rootAfter edEnv (timeOf (exCivil 2030)) edHistory, signatures := some [] } ss m := by
  have w : ∀ s ∈ edStaff, Works edEnv s := by
    intro s hs
    obtain ⟨pk, key, w, hk⟩ := edStaff_ok.work s hs
    exact ⟨fun p => (w.signs p).elim fun sig e => ⟨sig, e.1⟩, _, _, w.public, hk⟩
  have hd := edIDs
  simp only [List.nodup_cons, List.mem_cons, List.not_mem_nil, or_false, not_or, not_false_eq_true, and_true, List.nodup_nil] at hd
  have i1 := fun id => edSignerID (s := signer 1) rfl edKey1_made id
  have i2 := fun id => edSignerID (s := signer 2) rfl edKey2_made id
  have i3 := fun id => edSignerID (s := ecSigner) rfl edKey9_made id
  obtain ⟨m, _, h, _⟩ := edPublish ss true (by
    rcases h with rfl | rfl
    · intro s hs
      exact w s (by simp only [List.mem_cons, List.not_mem_nil, or_false] at hs; rcases hs with rfl | rfl <;> simp [edStaff])
    · intro s hs
      exact w s (by simp only [List.mem_cons, List.not_mem_nil, or_false] at hs; rcases hs with rfl | rfl <;> simp [edStaff])) (by
    rcases h with rfl | rfl
    · simp only [List.pairwise_cons, List.mem_cons, List.not_mem_nil, or_false, forall_eq, false_imp_iff, implies_true, List.Pairwise.nil, and_true, i2, i3]
      exact hd.2
    · simp only [List.pairwise_cons, List.mem_cons, List.not_mem_nil, or_false, forall_eq, false_imp_iff, implies_true, List.Pairwise.nil, and_true, i1, i2]
      exact hd.1.1)
  exact ⟨m, h⟩

/-- A case of C117: what the second and third signer sign is accepted, what the first and the second sign is not: the first key was revoked. -/
example : ∃ m m' : Metadata RootType,
    SignedBy edEnv { signed := rootAfter edEnv (timeOf (exCivil 2030)) edHistory, signatures := some [] } [signer 2, ecSigner] m ∧
    SignedBy edEnv { signed := rootAfter edEnv (timeOf (exCivil 2030)) edHistory, signatures := some [] } [signer 1, signer 2] m' ∧
    verifyDelegate edEnv (.root m) ROOT (.root m) = .ok () ∧ verifyDelegate edEnv (.root m) ROOT (.root m') ≠ .ok () := by
  obtain ⟨m, hm⟩ := edSigned _ (.inl rfl)
  obtain ⟨m', hm'⟩ := edSigned _ (.inr rfl)
  have hp := (C116_root (env := pemEnv) (exCalendar_year (y := 2030) (by decide)) edFine).1
  have hpay := (root_payload hp).2 (rootInv_whole (rootInv_after (exCalendar_year (by decide)) edFine))
  have i1 := fun id => edSignerID (s := signer 1) rfl edKey1_made id
  have i2 := fun id => edSignerID (s := signer 2) rfl edKey2_made id
  have i3 := fun id => edSignerID (s := ecSigner) rfl edKey9_made id
  have hd := edIDs
  simp only [List.nodup_cons, List.mem_cons, List.not_mem_nil, or_false, not_or, not_false_eq_true, and_true, List.nodup_nil] at hd
  have a1 : ∀ s ∈ [signer 2, ecSigner], s ∈ edStaff := by simp [edStaff]
  have a2 : ∀ s ∈ [signer 1, signer 2], s ∈ edStaff := by simp [edStaff]
  have key := fun (ss : List Signer) (x : Metadata RootType) (a : ∀ s ∈ ss, s ∈ edStaff) hx => C117_exactly (env := edEnv) C08_all_types.1 edSane edStaff_ok edAdds
    (timeOf (exCivil 2030)) (role := ROOT) (List.mem_cons_self ..) (m0 := { signed := rootAfter edEnv (timeOf (exCivil 2030)) edHistory, signatures := some [] }) (m := x) a rfl hpay hx m
    (signedBy_signed hm)
  refine ⟨m, m', hm, hm', ?_, ?_⟩
  · refine (key _ _ a1 hm).2 ?_
    refine ⟨⟨_, (edGranted _).2 (.inl rfl)⟩, [edIDof edKey2, edIDof edKey9], by simp [hd.2], by rw [edThreshold]; decide, ?_⟩
    intro id hid
    simp only [List.mem_cons, List.not_mem_nil, or_false] at hid
    rw [edGranted]
    refine ⟨hid, ?_⟩
    rcases hid with rfl | rfl
    · exact ⟨signer 2, by simp, (i2 _).2 rfl⟩
    · exact ⟨ecSigner, by simp, (i3 _).2 rfl⟩
  · intro h
    obtain ⟨_, S, hS, hle, hin⟩ := (key _ _ a2 hm').1 h
    rw [edThreshold] at hle
    have all : ∀ id ∈ S, id = edIDof edKey2 := by
      intro id hid
      obtain ⟨h1, s, h2, h3⟩ := hin id hid
      rw [edGranted] at h1
      simp only [List.mem_cons, List.not_mem_nil, or_false] at h2
      rcases h2 with rfl | rfl
      · rw [i1] at h3
        subst h3
        rcases h1 with h1 | h1
        · exact absurd h1 hd.1.1
        · exact absurd h1 hd.1.2
      · exact (i2 _).1 h3
    match S, hS, hle, all with
    | [], _, hle, _ => simp at hle
    | [_], _, hle, _ => simp at hle
    | a :: b :: _, hS, _, all =>
      have e := (all a (by simp)).trans (all b (by simp)).symm
      rw [List.nodup_cons] at hS
      exact hS.1 (by rw [e]; simp)

namespace Sample

/-- A target file, a delegation of `*.go` to a role whose key is added afterwards, and the removal of the file. -/
def edTargets : List TargetsEdit :=
  [.target b!"a.go" { length := 3, hashes := some [(b!"sha256", [1, 2])] },
    .delegate (some { keys := some [], roles := some [{ name := b!"go-scripts", keyIDs := some [], threshold := 1, terminating := true, paths := some [b!"*.go"] }] }),
    .add edKey1 b!"go-scripts", .reread, .remove b!"a.go", .revoke (edIDof edKey1) b!"go-scripts", .add edKey2 b!"go-scripts", .version 2]
def edMetas : List MetaEdit :=
  [.file b!"go-scripts.json" { version := 1 }, .file b!"old.json" { length := 5, version := 3 }, .reread, .remove b!"old.json", .version 2, .expires (timeOf (exCivil 2033))]

end Sample

theorem edMetasFine : ∀ x ∈ edMetas, x.Fine edEnv := by
  intro x hx
  simp only [edMetas, List.mem_cons, List.not_mem_nil, or_false] at hx
  rcases hx with rfl | rfl | rfl | rfl | rfl | rfl
  · exact ⟨utf8_name (by rfl), ⟨goodFields_nil _, rfl, rfl, Entries.sorted_nil⟩, wholeNil, ⟨fun e he => (by cases he), fieldsText_nil⟩⟩
  · exact ⟨utf8_name (by rfl), ⟨goodFields_nil _, rfl, rfl, Entries.sorted_nil⟩, wholeNil, ⟨fun e he => (by cases he), fieldsText_nil⟩⟩
  · trivial
  · trivial
  · exact (rfl : inInt64 2 = true)
  · exact exCalendar_year (by decide)

/-- Cases of C116 for snapshot and timestamp metadata. -/
example : CanBePublished edEnv (snapshotAfter (timeOf (exCivil 2030)) edMetas) (viewSnapshot (snapshotAfter (timeOf (exCivil 2030)) edMetas)) ∧
    CanBePublished edEnv (timestampAfter (timeOf (exCivil 2030)) edMetas) (viewTimestamp (timestampAfter (timeOf (exCivil 2030)) edMetas)) :=
  ⟨(C116_snapshot (env := pemEnv) (exCalendar_year (by decide)) edMetasFine).2, (C116_timestamp (env := pemEnv) (exCalendar_year (by decide)) edMetasFine).2⟩

theorem edKeyFine {k : Key} (h : k = edKey1 ∨ k = edKey2) (d : Nat) : FineKey edEnv d k := by
  rcases h with rfl | rfl <;>
    exact ⟨⟨goodFields_nil _, goodFields_nil _⟩, ⟨wholeNil, wholeNil⟩, ⟨utf8_name (by rfl), utf8_name (by rfl), ⟨utf8_name (by rfl), fieldsText_nil⟩, fieldsText_nil⟩, utf8_name (by rfl)⟩

theorem edTargetsFine : ∀ x ∈ edTargets, x.Fine edEnv := by
  intro x hx
  simp only [edTargets, List.mem_cons, List.not_mem_nil, or_false] at hx
  rcases hx with rfl | rfl | rfl | rfl | rfl | rfl | rfl | rfl
  · refine ⟨utf8_name (by rfl), ⟨goodFields_nil _, rfl, by simp [GoMap.entries, Entries.Sorted], fun c hc => (by cases hc)⟩, ⟨wholeNil, fun c hc => (by cases hc)⟩, ?_, fun c hc => (by cases hc), fieldsText_nil⟩
    intro e he
    simp only [GoMap.entries, Option.getD_some, List.mem_singleton] at he
    subst he
    exact ⟨utf8_name (by rfl), trivial⟩
  · intro a ha
    cases ha
    refine ⟨⟨goodFields_nil _, ⟨Entries.sorted_nil, fun e he => (by cases he)⟩, ?_, fun s hs => (by cases hs), .inr rfl⟩, ⟨wholeNil, fun e he => (by cases he), ?_, fun s hs => (by cases hs)⟩,
      ⟨fun e he => (by cases he), ?_, fun s hs => (by cases hs), fieldsText_nil⟩⟩
    · intro r hr
      simp only [Slice.elems, Option.getD_some, List.mem_singleton] at hr
      subst hr
      exact ⟨goodFields_nil _, rfl, .inr rfl⟩
    · intro r hr
      simp only [Slice.elems, Option.getD_some, List.mem_singleton] at hr
      subst hr
      exact wholeNil
    · intro r hr
      simp only [Slice.elems, Option.getD_some, List.mem_singleton] at hr
      subst hr
      refine ⟨utf8_name (by rfl), fun e he => (by cases he), fun e he => (by cases he), ?_, fieldsText_nil⟩
      intro e he
      simp only [Slice.elems, Option.getD_some, List.mem_singleton] at he
      subst he
      exact utf8_name (by rfl)
  · exact edKeyFine (.inl rfl) _
  · trivial
  · trivial
  · trivial
  · exact edKeyFine (.inr rfl) _
  · exact (rfl : inInt64 2 = true)

/-- A case of C116 for targets metadata. -/
example : CanBePublished edEnv (targetsAfter edEnv (timeOf (exCivil 2030)) edTargets) (readTargets (targetsAfter edEnv (timeOf (exCivil 2030)) edTargets)) :=
  (C116_targets (env := pemEnv) (exCalendar_year (by decide)) edTargetsFine).2

end Tuf
