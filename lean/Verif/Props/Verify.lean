import Verif.Proofs.Verify
import Verif.Props.Sample

/-!
# Signature thresholds (C01-C10)
-/

namespace Tuf
open Spec Sample

/-! ## Concrete documents for the examples -/

namespace Sample

/-- Root with keys `a` (0xaa), `b` (0xbb) for role `r`, in the given listing and threshold. -/
def rootKeys (ids : List Str) (t : Int) : Metadata RootType where
  signed :=
    { type := ROOT
      version := 1
      keys := some [(b!"a", some (edKey b!"aa")), (b!"b", some (edKey b!"bb")), (b!"c", some (edKey b!"aa"))]
      roles := some [(b!"r", some { keyIDs := some ids, threshold := t })] }

/-- A timestamp with the given signatures. -/
def stamp (sigs : List Signature) : Metadata TimestampType where
  signed := { type := TIMESTAMP, version := 7 }
  signatures := some sigs

def sigA : Signature := sigOf b!"a" [0xaa]
def sigB : Signature := sigOf b!"b" [0xbb]
def badB : Signature := sigOf b!"b" [0xcc]

end Sample

/-! ## C01 -/

/-- C01: what `VerifyDelegate` accepts meets the threshold rule: at least `threshold` different key IDs, each listed for the role, each resolved in the
delegator's key map, each with a signature (`Spec.SignatureFor`) accepted over the canonical JSON of the signed part. -/
theorem C01_threshold_soundness {env : Env} {delegator d : AnyMeta} {role : Str}
    (h : verifyDelegate env delegator role d = .ok ()) : Trusts env delegator role d :=
  verifyDelegate_trusts h

/-- C01, second form: if verifiers refuse the empty signature, each of the counted signatures is one of the document's signatures. -/
theorem C01_signatures_are_present {env : Env} {delegator d : AnyMeta} {role : Str} (sane : SaneVerifiers env)
    (h : verifyDelegate env delegator role d = .ok ()) :
    ∃ (keys : GoMap (Option Key)) (ids : List Str) (t : Int) (S : List Str) (sigs : List Signature) (p : Bytes),
      Delegates delegator role keys ids t ∧ S.Nodup ∧ t ≤ (S.length : Int) ∧ Carries d sigs p ∧
      ∀ id ∈ S, id ∈ ids ∧ ∃ key pk hf, keys.get? id = some (some key) ∧ VerifierOf env key pk hf ∧
        ∃ s ∈ sigs, s.keyID = id ∧ env.verifySig pk hf s.sig p = .ok () := by
  obtain ⟨keys, ids, t, hd, hne, hdec, S, hS, ht, hacc⟩ := verifyDelegate_ok_iff.1 h
  cases ids with
  | nil => exact absurd rfl hne
  | cons i0 ids =>
  obtain ⟨_, _, _, p, ⟨_, sigs, _, _, hc, _⟩, _⟩ := hdec i0 (by simp)
  refine ⟨keys, i0 :: ids, t, S, sigs, p, hd, hS, ht, hc, ?_⟩
  intro id hid
  obtain ⟨hmem, pk, hf, sig, p', ⟨key, sigs', hk, hv, hc', hsig⟩, hok⟩ := hacc id hid
  obtain ⟨rfl, hp⟩ := carries_iff.1 hc
  obtain ⟨rfl, hp'⟩ := carries_iff.1 hc'
  have : p = p' := by rw [hp] at hp'; injection hp'
  subst this
  refine ⟨hmem, key, pk, hf, hk, hv, ?_⟩
  rcases hsig with ⟨x, s, y, h1, h2, _, rfl⟩ | ⟨_, rfl⟩
  · exact ⟨s, by rw [h1]; simp, h2, hok⟩
  · exact absurd hok (sane pk hf p)

/-- Two of two signatures: accepted. -/
example : verifyDelegate env0 (.root (rootKeys [b!"a", b!"b"] 2)) b!"r" (.timestamp (stamp [sigA, sigB])) = .ok () := by decide +kernel
/-- One good and one bad signature with threshold 2: refused. -/
example : verifyDelegate env0 (.root (rootKeys [b!"a", b!"b"] 2)) b!"r" (.timestamp (stamp [sigA, badB])) ≠ .ok () := by decide +kernel
example : SaneVerifiers env0 := by
  intro pk h p
  simp [env0, envOf]

/-! ## C02 -/

/-- C02: completeness. If every listed key ID resolves to a usable key whose verifier does not crash, the document has a canonical form, and `t` different
listed key IDs are accepted, then `VerifyDelegate` returns nil. -/
theorem C02_threshold_completeness {env : Env} {delegator d : AnyMeta} {role : Str} {keys : GoMap (Option Key)} {ids : List Str} {t : Int}
    {sigs : List Signature} {p : Bytes}
    (hd : Delegates delegator role keys ids t) (hne : ids ≠ [])
    (usable : ∀ id ∈ ids, ∃ key pk hf, keys.get? id = some (some key) ∧ VerifierOf env key pk hf ∧ ∀ sig, env.verifySig pk hf sig p ≠ .panic)
    (hc : Carries d sigs p)
    (enough : MeetsThreshold env keys d ids t) : verifyDelegate env delegator role d = .ok () := by
  refine verifyDelegate_ok_iff.2 ⟨keys, ids, t, hd, hne, ?_, enough⟩
  intro id hid
  obtain ⟨key, pk, hf, hk, hv, nopanic⟩ := usable id hid
  exact ⟨pk, hf, _, p, ⟨key, sigs, hk, hv, hc, signatureFor_pick id sigs⟩, nopanic _⟩

/-- C01 and C02 together: the exact acceptance condition. -/
theorem C02_exact_rule {env : Env} {delegator d : AnyMeta} {role : Str} :
    verifyDelegate env delegator role d = .ok () ↔ Verifies env delegator role d :=
  verifyDelegate_ok_iff

/-- The hypotheses of C02 are met, with a superfluous bad signature. -/
example : verifyDelegate env0 (.root (rootKeys [b!"a", b!"b"] 1)) b!"r" (.timestamp (stamp [badB, sigA])) = .ok () := by decide +kernel

/-! ## C03 and C07 -/

/-- Acceptance depends only on the set of listed key IDs, the threshold and the verifiers that the key IDs resolve to. -/
theorem verdict_congr {env : Env} {D D' d : AnyMeta} {role : Str} {keys keys' : GoMap (Option Key)} {ids ids' : List Str} {t : Int}
    (h : Delegates D role keys ids t) (h' : Delegates D' role keys' ids' t) (same : ∀ id, id ∈ ids ↔ id ∈ ids')
    (hk : ∀ id key pk hf, keys.get? id = some (some key) → VerifierOf env key pk hf →
      ∃ key', keys'.get? id = some (some key') ∧ VerifierOf env key' pk hf)
    (hv : verifyDelegate env D role d = .ok ()) : verifyDelegate env D' role d = .ok () := by
  obtain ⟨k, i, t', h1, h2, h3, S, h4, h5, h6⟩ := verifyDelegate_ok_iff.1 hv
  obtain ⟨rfl, rfl, rfl⟩ := h.functional h1
  have hQ : ∀ id pk hf sig p, Question env keys d id pk hf sig p → Question env keys' d id pk hf sig p := by
    rintro id pk hf sig p ⟨key, sigs, a, b, c⟩
    obtain ⟨key', a', b'⟩ := hk id key pk hf a b
    exact ⟨key', sigs, a', b', c⟩
  refine verifyDelegate_ok_iff.2 ⟨keys', ids', t, h', ?_, ?_, S, h4, h5, ?_⟩
  · rintro rfl
    cases ids with
    | nil => exact h2 rfl
    | cons x r => simpa using (same x).1 (by simp)
  · intro id hid
    obtain ⟨pk, hf, sig, p, q, n⟩ := h3 id ((same id).2 hid)
    exact ⟨pk, hf, sig, p, hQ _ _ _ _ _ q, n⟩
  · intro id hid
    obtain ⟨hm, pk, hf, sig, p, q, n⟩ := h6 id hid
    exact ⟨(same id).1 hm, pk, hf, sig, p, hQ _ _ _ _ _ q, n⟩

/-- C03: repeating key IDs (any list with the same members) never changes acceptance. -/
theorem C03_key_id_counts_once {env : Env} {D D' d : AnyMeta} {role : Str} {keys : GoMap (Option Key)} {ids ids' : List Str} {t : Int}
    (h : Delegates D role keys ids t) (h' : Delegates D' role keys ids' t) (same : ∀ id, id ∈ ids ↔ id ∈ ids') :
    verifyDelegate env D role d = .ok () ↔ verifyDelegate env D' role d = .ok () :=
  ⟨verdict_congr h h' same (fun _ key _ _ a b => ⟨key, a, b⟩),
   verdict_congr h' h (fun id => (same id).symm) (fun _ key _ _ a b => ⟨key, a, b⟩)⟩

/-- C03, consequence: however often one key ID is listed, it never meets a threshold above one. -/
theorem C03_one_id_never_two {env : Env} {D d : AnyMeta} {role : Str} {keys : GoMap (Option Key)} {ids : List Str} {t : Int} {id : Str}
    (h : Delegates D role keys ids t) (all : ∀ x ∈ ids, x = id) (ht : 2 ≤ t) : verifyDelegate env D role d ≠ .ok () := by
  intro hv
  obtain ⟨k, i, t', h1, _, _, S, h4, h5, h6⟩ := verifyDelegate_ok_iff.1 hv
  obtain ⟨rfl, rfl, rfl⟩ := h.functional h1
  have : S.length ≤ [id].length := h4.length_le_of_subset (fun x hx => by simp [all x (h6 x hx).1])
  simp at this
  omega

/-- Key ID `a` listed three times, threshold 2. -/
example : verifyDelegate env0 (.root (rootKeys [b!"a", b!"a", b!"a"] 2)) b!"r" (.timestamp (stamp [sigA])) ≠ .ok () := by decide +kernel
example : Delegates (.root (rootKeys [b!"a", b!"a", b!"a"] 2)) b!"r" (rootKeys [] 0).signed.keys [b!"a", b!"a", b!"a"] 2 :=
  .root (r := { keyIDs := some [b!"a", b!"a", b!"a"], threshold := 2 }) rfl

/-- Lookup in a map does not depend on the order of its entries. -/
theorem Entries.get?_perm {α : Type} {es es' : Entries α} (hp : es.Perm es') (hn : es.keys.Nodup) (k : Str) :
    es.get? k = es'.get? k := by
  have hn' : es'.keys.Nodup := (hp.map Prod.fst).nodup_iff.1 hn
  cases h : es.get? k with
  | some v => exact (get?_of_mem hn' (hp.subset (mem_of_get? h))).symm
  | none =>
    cases h' : es'.get? k with
    | none => rfl
    | some v =>
      have := get?_of_mem hn (hp.symm.subset (mem_of_get? h'))
      rw [h] at this
      cases this

/-- C07: reordering the key IDs or the entries of the key map never changes acceptance. -/
theorem C07_order_irrelevant {env : Env} {D D' d : AnyMeta} {role : Str} {es es' : Entries (Option Key)} {ids ids' : List Str} {t : Int}
    (h : Delegates D role (some es) ids t) (h' : Delegates D' role (some es') ids' t)
    (hids : ids.Perm ids') (hes : es.Perm es') (unique : es.keys.Nodup) :
    verifyDelegate env D role d = .ok () ↔ verifyDelegate env D' role d = .ok () :=
  have hk : ∀ id, GoMap.get? (some es) id = GoMap.get? (some es') id := fun id => Entries.get?_perm hes unique id
  ⟨verdict_congr h h' (fun _ => hids.mem_iff) (fun id key _ _ a b => ⟨key, hk id ▸ a, b⟩),
   verdict_congr h' h (fun _ => hids.symm.mem_iff) (fun id key _ _ a b => ⟨key, (hk id).symm ▸ a, b⟩)⟩

example : Delegates (.root (rootKeys [b!"b", b!"a"] 2)) b!"r" (rootKeys [] 0).signed.keys [b!"b", b!"a"] 2 :=
  .root (r := { keyIDs := some [b!"b", b!"a"], threshold := 2 }) rfl
example : verifyDelegate env0 (.root (rootKeys [b!"b", b!"a"] 2)) b!"r" (.timestamp (stamp [sigA, sigB])) = .ok () := by decide +kernel

/-! ## C04 -/

/-- C04 is false: with threshold 0 a document without any signature is accepted. -/
theorem C04_unsigned_accepted :
    ∃ (env : Env) (D : AnyMeta) (role : Str) (m : Metadata TimestampType), SaneVerifiers env ∧ m.signatures = some [] ∧
      verifyDelegate env D role (.timestamp m) = .ok () :=
  ⟨env0, .root (rootKeys [b!"a"] 0), b!"r", stamp [], by intro pk h p; simp [env0, envOf], rfl, by decide +kernel⟩

/-- C04, what holds: with a threshold of at least one, an accepted document carries an acceptable signature by a listed key. The
full statement (no hypothesis on the threshold) is refuted above. -/
theorem C04_partial {env : Env} {D d : AnyMeta} {role : Str} {keys : GoMap (Option Key)} {ids : List Str} {t : Int}
    (sane : SaneVerifiers env) (h : Delegates D role keys ids t) (ht : 1 ≤ t) (hv : verifyDelegate env D role d = .ok ()) :
    ∃ sigs p id key pk hf, Carries d sigs p ∧ id ∈ ids ∧ keys.get? id = some (some key) ∧ VerifierOf env key pk hf ∧
      ∃ s ∈ sigs, s.keyID = id ∧ env.verifySig pk hf s.sig p = .ok () := by
  obtain ⟨k, i, t', S, sigs, p, hd, hS, hle, hc, hall⟩ := C01_signatures_are_present sane hv
  obtain ⟨rfl, rfl, rfl⟩ := h.functional hd
  cases S with
  | nil => simp at hle; omega
  | cons id S =>
    obtain ⟨hm, key, pk, hf, hk, hvf, hs⟩ := hall id (by simp)
    exact ⟨sigs, p, id, key, pk, hf, hc, hm, hk, hvf, hs⟩

/-- C04, exact extent: acceptance without any acceptable signature happens only for thresholds of at most zero. -/
theorem C04_extent_partial {env : Env} {D d : AnyMeta} {role : Str} {keys : GoMap (Option Key)} {ids : List Str} {t : Int}
    (h : Delegates D role keys ids t) (none : ∀ id ∈ ids, ¬ Accepted env keys d id)
    (hv : verifyDelegate env D role d = .ok ()) : t ≤ 0 := by
  obtain ⟨k, i, t', h1, _, _, S, h4, h5, h6⟩ := verifyDelegate_ok_iff.1 hv
  obtain ⟨rfl, rfl, rfl⟩ := h.functional h1
  cases S with
  | nil => simpa using h5
  | cons id S => exact absurd (h6 id (by simp)).2 (none id (h6 id (by simp)).1)

/-! ## C05 -/

/-- C05 is false: key IDs `a` and `c` name the same public key and count twice. -/
theorem C05_same_key_counts_twice :
    verifyDelegate env0 (.root (rootKeys [b!"a", b!"c"] 2)) b!"r" (.timestamp (stamp [sigA, sigOf b!"c" [0xaa]])) = .ok () ∧
      (∀ id ∈ [b!"a", b!"c"], ∀ key pk hf, (rootKeys [] 0).signed.keys.get? id = some (some key) → VerifierOf env0 key pk hf →
        pk = .ed25519 [0xaa]) := by
  refine ⟨by decide +kernel, ?_⟩
  intro id hid key pk hf hk hv
  have hkey : key = edKey b!"aa" := by
    simp only [List.mem_cons, List.not_mem_nil, or_false] at hid
    rcases hid with rfl | rfl <;> exact (Option.some.inj (Option.some.inj hk)).symm
  subst hkey
  have := (verifierOf_iff.1 hv).1
  have h2 : Key.toPublicKey env0 (edKey b!"aa") = .ok (.ed25519 [0xaa]) := rfl
  rw [h2] at this
  injection this with this
  exact this.symm

theorem map_nodup_of_inj {α β : Type} {f : α → β} {l : List α} (hn : l.Nodup)
    (hinj : ∀ a ∈ l, ∀ b ∈ l, f a = f b → a = b) : (l.map f).Nodup := by
  induction l with
  | nil => simp
  | cons x r ih =>
    rw [List.nodup_cons] at hn
    rw [List.map_cons, List.nodup_cons]
    refine ⟨?_, ih hn.2 (fun a ha b hb => hinj a (by simp [ha]) b (by simp [hb]))⟩
    intro hm
    obtain ⟨y, hy, hfy⟩ := List.mem_map.1 hm
    have := hinj y (by simp [hy]) x (by simp) hfy
    exact hn.1 (this ▸ hy)

/-- C05, what holds: if different listed key IDs never resolve to the same public key, at least `t` different public keys accepted a signature.
Without that hypothesis the claim is refuted above. -/
theorem C05_partial {env : Env} {D d : AnyMeta} {role : Str} {keys : GoMap (Option Key)} {ids : List Str} {t : Int}
    (h : Delegates D role keys ids t)
    (distinct : ∀ i ∈ ids, ∀ j ∈ ids, ∀ k k' pk hf hf', keys.get? i = some (some k) → keys.get? j = some (some k') →
      VerifierOf env k pk hf → VerifierOf env k' pk hf' → i = j)
    (hv : verifyDelegate env D role d = .ok ()) :
    ∃ P : List PublicKey, P.Nodup ∧ t ≤ (P.length : Int) ∧
      ∀ pk ∈ P, ∃ id ∈ ids, ∃ hf sig p, Question env keys d id pk hf sig p ∧ env.verifySig pk hf sig p = .ok () := by
  obtain ⟨k, i, t', h1, _, _, S, h4, h5, h6⟩ := verifyDelegate_ok_iff.1 hv
  obtain ⟨rfl, rfl, rfl⟩ := h.functional h1
  have choose : ∀ id : Str, ∃ pk : PublicKey, id ∈ S → ∃ hf sig p, Question env keys d id pk hf sig p ∧ env.verifySig pk hf sig p = .ok () := by
    intro id
    by_cases hid : id ∈ S
    · obtain ⟨_, pk, hf, sig, p, q⟩ := h6 id hid
      exact ⟨pk, fun _ => ⟨hf, sig, p, q⟩⟩
    · exact ⟨.unknown [], fun h => absurd h hid⟩
  obtain ⟨f, hf⟩ := Classical.skolem.1 choose
  refine ⟨S.map f, map_nodup_of_inj h4 ?_, by simpa using h5, ?_⟩
  · intro a ha b hb hab
    obtain ⟨hf1, _, _, ⟨k1, _, a1, a2, _⟩, _⟩ := hf a ha
    obtain ⟨hf2, _, _, ⟨k2, _, b1, b2, _⟩, _⟩ := hf b hb
    exact distinct a (h6 a ha).1 b (h6 b hb).1 k1 k2 (f a) hf1 hf2 a1 b1 a2 (hab ▸ b2)
  · intro pk hpk
    obtain ⟨id, hid, rfl⟩ := List.mem_map.1 hpk
    obtain ⟨h', sig, p, q⟩ := hf id hid
    exact ⟨id, (h6 id hid).1, h', sig, p, q⟩

/-! ## C06 -/

/-- The document with another list of signatures. -/
def Spec.withSignatures : AnyMeta → List Signature → AnyMeta
  | .root m, l => .root { m with signatures := some l }
  | .snapshot m, l => .snapshot { m with signatures := some l }
  | .timestamp m, l => .timestamp { m with signatures := some l }
  | .targets m, l => .targets { m with signatures := some l }
  | .other, _ => .other

theorem verifyLoop_congr {env : Env} {keys : GoMap (Option Key)} {d d' : AnyMeta} {ids : List Str}
    (h : ∀ id ∈ ids, verifyWithKey env keys d id = verifyWithKey env keys d' id) (acc : List Str) :
    verifyLoop env keys d ids acc = verifyLoop env keys d' ids acc := by
  induction ids generalizing acc with
  | nil => rfl
  | cons id r ih =>
    simp only [verifyLoop]
    rw [h id (by simp)]
    cases verifyWithKey env keys d' id with
    | ok b => simp only [Res.bind_ok]; exact ih (fun x hx => h x (by simp [hx])) _
    | err e => rfl
    | panic => rfl

/-- C06: a signature under a key ID that is not listed for the role, at any position, has no influence on the result. -/
theorem C06_foreign_signature_irrelevant {env : Env} {D d : AnyMeta} {role : Str} (before after : List Signature) (s : Signature)
    (foreign : ∀ keys ids t, Delegates D role keys ids t → s.keyID ∉ ids) :
    verifyDelegate env D role (withSignatures d (before ++ s :: after)) =
      verifyDelegate env D role (withSignatures d (before ++ after)) := by
  unfold verifyDelegate
  cases hd : delegationOf D role with
  | err e => rfl
  | panic => rfl
  | ok x =>
    obtain ⟨keys, ids, t⟩ := x
    simp only [Res.bind_ok]
    by_cases hne : ids = []
    · simp [hne]
    · have hf := foreign keys ids t ((delegationOf_ok_iff hne).1 hd)
      simp only [hne, if_false]
      rw [verifyLoop_congr (d' := withSignatures d (before ++ after))]
      intro id hid
      have hid' : s.keyID ≠ id := fun h => hf (h ▸ hid)
      have hp : pickSignature id (before ++ s :: after) = pickSignature id (before ++ after) := by
        simp [pickSignature, List.foldl_append, hid']
      have hp' : (pickSignature id (withSignatures d (before ++ s :: after)).signatures) =
          pickSignature id (withSignatures d (before ++ after)).signatures := by
        cases d <;> first | exact hp | rfl
      have hpay : (withSignatures d (before ++ s :: after)).payload = (withSignatures d (before ++ after)).payload := by
        cases d <;> rfl
      unfold verifyWithKey
      rw [hp', hpay]

example : verifyDelegate env0 (.root (rootKeys [b!"a", b!"b"] 2)) b!"r"
    (withSignatures (.timestamp (stamp [])) [sigA, sigOf b!"x" [1, 2], sigB]) = .ok () := by decide +kernel

/-! ## C08 -/

/-- C08, first part: `Sign` appends one signature, made over the canonical JSON of the signed part and filed under the key ID of the
signer's public key, and changes nothing else. -/
theorem C08_sign_appends {T : Type} [RoleType T] {env : Env} {m m' : Metadata T} {s : Signer} {sig : Signature}
    (h : sign env m s = .ok (sig, m')) :
    m'.signed = m.signed ∧ m'.unrec = m.unrec ∧ m'.signatures.elems = m.signatures.elems ++ [sig] ∧ SignerID env s sig.keyID ∧
      ∃ p, payload m.signed = .ok p ∧ s.signMessage p = some sig.sig := by
  unfold sign at h
  obtain ⟨p, hp, h⟩ := Res.bind_eq_ok.1 h
  obtain ⟨sb, hsb, h⟩ := Res.bind_eq_ok.1 h
  obtain ⟨pk, hpk, h⟩ := Res.bind_eq_ok.1 h
  obtain ⟨key, hkey, h⟩ := Res.bind_eq_ok.1 h
  obtain ⟨⟨id, key'⟩, hid, h⟩ := Res.bind_eq_ok.1 h
  rw [Res.ofOption_eq_ok] at hsb hpk
  cases h
  exact ⟨rfl, rfl, rfl, ⟨pk, key, key', hpk, hkey, hid⟩, p, hp, hsb⟩

theorem signedBy_signed {T : Type} [RoleType T] {env : Env} {m m' : Metadata T} {ss : List Signer} (h : SignedBy env m ss m') :
    m'.signed = m.signed := by
  induction h with
  | nil => rfl
  | snoc _ h2 ih => rw [(C08_sign_appends h2).1, ih]

/-- The signature that counts for a signer's key ID was made by a signer with that key ID. -/
theorem signedBy_signature {T : Type} [RoleType T] {env : Env} {m m' : Metadata T} {ss : List Signer} (h : SignedBy env m ss m')
    {s : Signer} (hs : s ∈ ss) {id : Str} (hid : SignerID env s id) :
    ∃ s' ∈ ss, SignerID env s' id ∧ ∃ p, payload m.signed = .ok p ∧ s'.signMessage p = some (pickSignature id m'.signatures.elems).sig := by
  induction h with
  | nil => simp at hs
  | @snoc m1 m2 ss s0 sig h1 h2 ih =>
    obtain ⟨a, b, c, d, p, e, f⟩ := C08_sign_appends h2
    by_cases hc : sig.keyID = id
    · refine ⟨s0, by simp, hc ▸ d, p, by rw [← signedBy_signed h1]; exact e, ?_⟩
      rw [c]
      simp [pickSignature, hc, f]
    · have hs' : s ∈ ss := by
        rcases List.mem_append.1 hs with hs | hs
        · exact hs
        · simp only [List.mem_singleton] at hs
          subst hs
          exfalso
          obtain ⟨pk, key, key', x1, x2, x3⟩ := hid
          obtain ⟨pk2, key2, key2', y1, y2, y3⟩ := d
          rw [x1] at y1
          cases y1
          rw [x2] at y2
          cases y2
          rw [x3] at y3
          cases y3
          exact hc rfl
      obtain ⟨s', m1, m2, p, m3, m4⟩ := ih hs'
      refine ⟨s', by simp [m1], m2, p, m3, ?_⟩
      rw [c]
      simpa [pickSignature, hc] using m4

theorem any_carries {T : Type} [RoleType T] (hT : ∀ m : Metadata T, (RoleType.any m).signatures = m.signatures.elems ∧
    (RoleType.any m).payload = payload m.signed) {m : Metadata T} {p : Bytes} (hp : payload m.signed = .ok p) :
    Carries (RoleType.any m) m.signatures.elems p :=
  carries_iff.2 ⟨(hT m).1.symm, by rw [(hT m).2, hp]⟩

/-- C08: after signing with the signers `ss`, whatever signatures were there before and in whatever order, verification succeeds if the key IDs of at
least `t` different delegated signers are among the signers, every delegated key ID is usable and the signature scheme is correct for the signers
(`correct`: what a signer signs is accepted by the delegated key filed under its key ID). `T` is any of the four metadata types. -/
theorem C08_sign_then_verify {T : Type} [RoleType T]
    (hT : ∀ m : Metadata T, (RoleType.any m).signatures = m.signatures.elems ∧ (RoleType.any m).payload = payload m.signed)
    {env : Env} {D : AnyMeta} {role : Str} {keys : GoMap (Option Key)} {ids : List Str} {t : Int} {m m' : Metadata T} {ss : List Signer}
    {p : Bytes} (hd : Delegates D role keys ids t) (hne : ids ≠ []) (hs : SignedBy env m ss m') (hp : payload m.signed = .ok p)
    (usable : ∀ id ∈ ids, ∃ key pk hf, keys.get? id = some (some key) ∧ VerifierOf env key pk hf ∧ ∀ sig, env.verifySig pk hf sig p ≠ .panic)
    (correct : ∀ s ∈ ss, ∀ id ∈ ids, SignerID env s id → ∀ key pk hf, keys.get? id = some (some key) → VerifierOf env key pk hf →
      ∀ sb, s.signMessage p = some sb → env.verifySig pk hf sb p = .ok ())
    {S : List Str} (hS : S.Nodup) (enough : t ≤ (S.length : Int)) (signers : ∀ id ∈ S, id ∈ ids ∧ ∃ s ∈ ss, SignerID env s id) :
    verifyDelegate env D role (RoleType.any m') = .ok () := by
  have hp' : payload m'.signed = .ok p := by rw [signedBy_signed hs, hp]
  have hc := any_carries hT hp'
  refine C02_threshold_completeness hd hne usable hc ⟨S, hS, enough, ?_⟩
  intro id hid
  obtain ⟨hmem, s, hss, hsid⟩ := signers id hid
  obtain ⟨s', hs', hid', p', e, f⟩ := signedBy_signature hs hss hsid
  rw [hp] at e
  cases e
  obtain ⟨key, pk, hf, hk, hv, _⟩ := usable id hmem
  exact ⟨hmem, pk, hf, _, p, ⟨key, _, hk, hv, hc, signatureFor_pick _ _⟩, correct s' hs' id hmem hid' key pk hf hk hv _ f⟩

/-- `hT` holds for all four types. -/
theorem C08_all_types :
    (∀ m : Metadata RootType, (RoleType.any m).signatures = m.signatures.elems ∧ (RoleType.any m).payload = payload m.signed) ∧
    (∀ m : Metadata SnapshotType, (RoleType.any m).signatures = m.signatures.elems ∧ (RoleType.any m).payload = payload m.signed) ∧
    (∀ m : Metadata TimestampType, (RoleType.any m).signatures = m.signatures.elems ∧ (RoleType.any m).payload = payload m.signed) ∧
    (∀ m : Metadata TargetsType, (RoleType.any m).signatures = m.signatures.elems ∧ (RoleType.any m).payload = payload m.signed) :=
  ⟨fun _ => ⟨rfl, rfl⟩, fun _ => ⟨rfl, rfl⟩, fun _ => ⟨rfl, rfl⟩, fun _ => ⟨rfl, rfl⟩⟩

namespace Sample
/-- Signer with Ed25519 key `[x]`. -/
def signer (x : UInt8) : Signer := { signMessage := fun _ => some [x], publicKey := some (.ed25519 [x]) }
/-- Key IDs of the signers. -/
def idOf (x : UInt8) : Str := match (edKey (hexEncode [x])).ID env0 with
  | .ok (id, _) => id
  | _ => []
/-- Root that delegates role `r` to two signers. -/
def rootFor : Metadata RootType where
  signed :=
    { type := ROOT
      keys := some [(idOf 1, some (edKey b!"01")), (idOf 2, some (edKey b!"02"))]
      roles := some [(b!"r", some { keyIDs := some [idOf 1, idOf 2], threshold := 2 })] }
/-- Sign with 2, then 1, then 1 again. -/
def signedTwice : Res (Metadata TimestampType) := do
  let (_, m) ← sign env0 (stamp []) (signer 2)
  let (_, m) ← sign env0 m (signer 1)
  let (_, m) ← sign env0 m (signer 1)
  .ok m
end Sample

example : (signedTwice >>= fun m => verifyDelegate env0 (.root rootFor) b!"r" (.timestamp m)) = .ok () := by decide +kernel

/-! ## C09 -/

/-- C09 (all cases but succinct delegations): an error, with the delegator unable to delegate. -/
theorem C09_partial (env : Env) (role : Str) (d : AnyMeta) :
    (∀ m, ∃ msg, verifyDelegate env (.timestamp m) role d = .err (.type msg)) ∧
    (∀ m, ∃ msg, verifyDelegate env (.snapshot m) role d = .err (.type msg)) ∧
    (∃ msg, verifyDelegate env .other role d = .err (.type msg)) ∧
    (∀ m : Metadata RootType, m.signed.roles.get? role = none → ∃ msg, verifyDelegate env (.root m) role d = .err (.value msg)) ∧
    (∀ m : Metadata TargetsType, m.signed.delegations = none → ∃ msg, verifyDelegate env (.targets m) role d = .err (.value msg)) ∧
    (∀ (m : Metadata TargetsType) (dl : Delegations) (rs : List DelegatedRole), m.signed.delegations = some dl → dl.roles = some rs →
      (∀ r ∈ rs, r.name ≠ role) → ∃ msg, verifyDelegate env (.targets m) role d = .err (.value msg)) ∧
    (∀ (m : Metadata TargetsType) (dl : Delegations), m.signed.delegations = some dl → dl.roles = none → dl.succinctRoles = none →
      ∃ msg, verifyDelegate env (.targets m) role d = .err (.value msg)) ∧
    (∀ D keys t, Delegates D role keys [] t → ∃ msg, verifyDelegate env D role d = .err (.value msg)) := by
  refine ⟨fun m => ⟨_, rfl⟩, fun m => ⟨_, rfl⟩, ⟨_, rfl⟩, ?_, ?_, ?_, ?_, ?_⟩
  · intro m h; refine ⟨"no delegation found", ?_⟩; simp [verifyDelegate, delegationOf, h]
  · intro m h; refine ⟨"no delegations found", ?_⟩; simp [verifyDelegate, delegationOf, h]
  · intro m dl rs h1 h2 h3
    refine ⟨"no delegation found", ?_⟩
    have : rs.find? (fun v => decide (v.name = role)) = none := by
      rw [List.find?_eq_none]; intro r hr; simpa using h3 r hr
    simp [verifyDelegate, delegationOf, h1, h2, this]
  · intro m dl h1 h2 h3; refine ⟨"no delegation found", ?_⟩; simp [verifyDelegate, delegationOf, h1, h2, h3]
  · intro D keys t h
    refine ⟨"no delegation found", ?_⟩
    generalize hids : ([] : List Str) = ids at h
    unfold verifyDelegate delegationOf
    cases h with
    | root h => simp [h, ← hids]
    | @targets m _ dl before after v h1 h2 h3 h4 =>
      have : (before ++ v :: after).find? (fun v => decide (v.name = role)) = some v := by
        rw [List.find?_eq_some_iff_append]
        refine ⟨by simpa using h3, before, after, rfl, ?_⟩
        intro u hu
        simpa using h4 u hu
      simp [h1, h2, this, ← hids]
    | succinct h1 h2 h3 => simp [h1, h2, h3, ← hids]

/-- C09, general form: nothing is accepted unless the delegator delegates the role to at least one key ID. -/
theorem C09_nothing_without_delegation_partial {env : Env} {D d : AnyMeta} {role : Str}
    (h : ∀ keys ids t, Delegates D role keys ids t → ids = []) : verifyDelegate env D role d ≠ .ok () := by
  intro hv
  obtain ⟨k, i, t, h1, h2, _⟩ := verifyDelegate_ok_iff.1 hv
  exact h2 (h k i t h1)

namespace Sample
/-- Targets with a succinct delegation to `bin-0`, `bin-1`. -/
def succinctTargets : Metadata TargetsType where
  signed :=
    { type := TARGETS
      delegations := some
        { keys := some [(b!"a", some (edKey b!"aa"))]
          succinctRoles := some { keyIDs := some [b!"a"], threshold := 1, bitLength := 1, namePrefix := b!"bin" } } }
end Sample

/-- C09 is false for succinct delegations: any role name is accepted, also one that is not among the delegated bins. -/
theorem C09_succinct_accepts_any_name :
    ∃ (env : Env) (s : SuccinctRoles) (role : Str) (d : AnyMeta),
      succinctTargets.signed.delegations.bind (fun dl => dl.succinctRoles) = some s ∧
      role ∉ s.getRoles ∧ s.isDelegatedRole role = false ∧
      verifyDelegate env (.targets succinctTargets) role d = .ok () :=
  ⟨env0, _, b!"stranger", .timestamp (stamp [sigA]), rfl, by decide +kernel, by decide +kernel, by decide +kernel⟩

example : ∃ msg, verifyDelegate env0 (.root (rootKeys [b!"a"] 1)) b!"q" (.timestamp (stamp [sigA])) = .err (.value msg) :=
  (C09_partial env0 b!"q" _).2.2.2.1 _ rfl

/-! ## C10 -/

/-- The key with another declared scheme. -/
def Spec.withScheme (scheme : Str) (k : Key) : Key := { k with scheme := scheme }

/-- C10 is false, for every key: replacing all declared schemes by anything leaves the set of accepted documents unchanged. -/
theorem C10_scheme_is_ignored {env : Env} {D D' d : AnyMeta} {role : Str} {es : Entries (Option Key)} {ids : List Str} {t : Int}
    (f : Str → Str) (h : Delegates D role (some es) ids t)
    (h' : Delegates D' role (some (es.map (fun e => (e.1, e.2.map (fun k => withScheme (f k.scheme) k))))) ids t) :
    verifyDelegate env D role d = .ok () ↔ verifyDelegate env D' role d = .ok () := by
  have fwd : ∀ (es : Entries (Option Key)) (id : Str), Entries.get? (es.map (fun e => (e.1, e.2.map (fun k => withScheme (f k.scheme) k)))) id =
      (es.get? id).map (fun o => o.map (fun k => withScheme (f k.scheme) k)) := by
    intro es id
    induction es with
    | nil => rfl
    | cons e es ih =>
      obtain ⟨k, v⟩ := e
      simp only [List.map_cons, Entries.get?_cons]
      split
      · rfl
      · exact ih
  have hs : ∀ (k : Key) (sc : Str) (pk : PublicKey) (hf : HashFn), VerifierOf env (withScheme sc k) pk hf ↔ VerifierOf env k pk hf :=
    fun k sc pk hf => by rw [verifierOf_iff, verifierOf_iff]; exact Iff.rfl
  constructor
  · refine verdict_congr h h' (fun _ => Iff.rfl) ?_
    intro id key pk hf hk hv
    refine ⟨withScheme (f key.scheme) key, ?_, (hs _ _ _ _).2 hv⟩
    simp only [GoMap.get?, GoMap.entries_some]
    rw [fwd, show es.get? id = some (some key) from hk]
    rfl
  · refine verdict_congr h' h (fun _ => Iff.rfl) ?_
    intro id key pk hf hk hv
    have hk' := hk
    simp only [GoMap.get?, GoMap.entries_some] at hk'
    rw [fwd] at hk'
    cases hg : es.get? id with
    | none => rw [hg] at hk'; cases hk'
    | some o =>
      cases o with
      | none => rw [hg] at hk'; cases hk'
      | some k0 =>
        rw [hg] at hk'
        simp at hk'
        subst hk'
        exact ⟨k0, hg, (hs _ _ _ _).1 hv⟩

/-- C10, concrete: an Ed25519 key that declares the scheme `rsassa-pss-sha256` is accepted. -/
theorem C10_wrong_scheme_accepted :
    ∃ (m : Metadata RootType) (key : Key), m.signed.keys.get? b!"a" = some (some key) ∧ key.type = b!"ed25519" ∧
      key.scheme = b!"rsassa-pss-sha256" ∧ verifyDelegate env0 (.root m) b!"r" (.timestamp (stamp [sigA])) = .ok () :=
  ⟨{ signed := { keys := some [(b!"a", some (withScheme b!"rsassa-pss-sha256" (edKey b!"aa")))],
                 roles := some [(b!"r", some { keyIDs := some [b!"a"], threshold := 1 })] } }, _, rfl, rfl, rfl, by decide +kernel⟩

theorem accepted_type {env : Env} {keys : GoMap (Option Key)} {d : AnyMeta} {id : Str} (h : Accepted env keys d id) :
    ∃ key pk hf sig p, keys.get? id = some (some key) ∧ env.verifySig pk hf sig p = .ok () ∧
      ((key.type = b!"rsa" ∧ hf = .sha256 ∧ ∃ m, pk = .rsa m) ∨
       ((key.type = b!"ecdsa" ∨ key.type = b!"ecdsa-sha2-nistp256") ∧ hf = .sha256 ∧ ∃ m, pk = .ecdsa m) ∨
       (key.type = b!"ed25519" ∧ hf = .none ∧ ∃ m, pk = .ed25519 m)) := by
  obtain ⟨pk, hf, sig, p, ⟨key, sigs, hk, hv, _⟩, hok⟩ := h
  refine ⟨key, pk, hf, sig, p, hk, hok, ?_⟩
  cases hv with
  | rsa h1 => exact .inl ⟨h1, rfl, _, rfl⟩
  | ecdsa h1 => exact .inr (.inl ⟨h1, rfl, _, rfl⟩)
  | ed25519 h1 => exact .inr (.inr ⟨h1, rfl, _, rfl⟩)

/-- C10, what holds: the verifier is the one for the key's declared *type*, and an unknown type is never accepted. The declared scheme plays no
role (refuted above). -/
theorem C10_partial {env : Env} {D d : AnyMeta} {role : Str} (h : verifyDelegate env D role d = .ok ()) :
    ∃ (keys : GoMap (Option Key)) (ids : List Str) (t : Int) (S : List Str), Delegates D role keys ids t ∧ S.Nodup ∧ t ≤ (S.length : Int) ∧
      ∀ id ∈ S, id ∈ ids ∧ ∃ key pk hf sig p, keys.get? id = some (some key) ∧ env.verifySig pk hf sig p = .ok () ∧
        ((key.type = b!"rsa" ∧ hf = .sha256 ∧ ∃ m, pk = .rsa m) ∨
         ((key.type = b!"ecdsa" ∨ key.type = b!"ecdsa-sha2-nistp256") ∧ hf = .sha256 ∧ ∃ m, pk = .ecdsa m) ∨
         (key.type = b!"ed25519" ∧ hf = .none ∧ ∃ m, pk = .ed25519 m)) := by
  obtain ⟨keys, ids, t, hd, _, _, S, hS, ht, hacc⟩ := verifyDelegate_ok_iff.1 h
  exact ⟨keys, ids, t, S, hd, hS, ht, fun id hid => ⟨(hacc id hid).1, accepted_type (hacc id hid).2⟩⟩

end Tuf
