import Verif.Spec.KeyIds
import Verif.Proofs.Hex
import Verif.Props.Payload
import Verif.Props.Verify
import Verif.Props.KeyMgmt

/-! # C103 and C104: key IDs; public keys -/

namespace Tuf
open Spec Sample

/-! ## C103 -/

theorem ID_eq {env : Env} {k k' : Key} {id : Str} (hk : k.id = []) (h : k.ID env = .ok (id, k')) :
    ∃ text, canonical k.marshal = .ok text ∧ id = hexEncode (env.sha256 text) ∧ k' = { k with id := id } := by
  unfold Key.ID at h
  rw [if_pos hk] at h
  split at h
  · next text ht =>
    cases h
    exact ⟨text, ht, rfl, rfl⟩
  · cases h

theorem canonical_key (k : Key) (hu : k.unrec = []) (hv : k.value.unrec = []) : canonical k.marshal = .ok (keyText k.type k.scheme k.value.publicKey) := by
  obtain ⟨t, s, ⟨p, vu⟩, id, u⟩ := k
  dsimp only at hu hv
  subst hu hv
  have h : canonical (Key.marshal ⟨t, s, ⟨p, []⟩, id, []⟩) = .ok (123 :: commaJoin [canonStr b!"keytype" ++ 58 :: canonStr t,
      canonStr b!"keyval" ++ 58 :: (123 :: commaJoin [canonStr b!"public" ++ 58 :: canonStr p] ++ [125]), canonStr b!"scheme" ++ 58 :: canonStr s] ++ [125]) := rfl
  rw [h]
  simp [commaJoin, keyText, quoted, canonStr]

/-- C103: the ID of a key whose ID was not asked for before is the hex SHA-256 digest of its canonical text. -/
theorem C103_text {env : Env} {k : Key} (hk : k.id = []) (hu : k.unrec = []) (hv : k.value.unrec = []) :
    k.ID env = .ok (hexEncode (env.sha256 (keyText k.type k.scheme k.value.publicKey)), { k with id := hexEncode (env.sha256 (keyText k.type k.scheme k.value.publicKey)) }) := by
  unfold Key.ID
  rw [if_pos hk, canonical_key k hu hv]

theorem key_fields {a b : Key} (ha : Entries.Sorted a.unrec) (hb : Entries.Sorted b.unrec) (hav : Entries.Sorted a.value.unrec) (hbv : Entries.Sorted b.value.unrec)
    {t : Bytes} (h1 : canonical a.marshal = .ok t) (h2 : canonical b.marshal = .ok t) : a.type = b.type ∧ a.scheme = b.scheme ∧ a.value.publicKey = b.value.publicKey := by
  have hf := obj_inj (mkDict_sorted ha _) (mkDict_sorted hb _) (canonical_inj h1 h2)
  obtain ⟨es, he⟩ := Option.isSome_iff_exists.1 (NFields_isSome (mkDict a.unrec [(b!"keytype", .str a.type), (b!"scheme", .str a.scheme), (b!"keyval", a.value.marshal)]))
  have e1 := toAnyFields_get? he
  have e2 := toAnyFields_get? (hf ▸ he)
  have d1 := mkDict_get? a.unrec [(b!"keytype", .str a.type), (b!"scheme", .str a.scheme), (b!"keyval", a.value.marshal)] (by simp)
  have d2 := mkDict_get? b.unrec [(b!"keytype", .str b.type), (b!"scheme", .str b.scheme), (b!"keyval", b.value.marshal)] (by simp)
  have g : ∀ (x : Str) (u v : Json), Entries.get? [(b!"keytype", .str a.type), (b!"scheme", .str a.scheme), (b!"keyval", a.value.marshal)] x = some u →
      Entries.get? [(b!"keytype", .str b.type), (b!"scheme", .str b.scheme), (b!"keyval", b.value.marshal)] x = some v → N u = N v := by
    intro x u v hu hv
    have a1 := e1 x
    have a2 := e2 x
    rw [d1, hu] at a1
    rw [d2, hv, a1] at a2
    exact a2
  have g1 := g b!"keytype" (.str a.type) (.str b.type) rfl rfl
  have g2 := g b!"scheme" (.str a.scheme) (.str b.scheme) rfl rfl
  have g3 := g b!"keyval" a.value.marshal b.value.marshal rfl rfl
  have hf' := obj_inj (mkDict_sorted hav _) (mkDict_sorted hbv _) g3
  obtain ⟨es', he'⟩ := Option.isSome_iff_exists.1 (NFields_isSome (mkDict a.value.unrec [(b!"public", .str a.value.publicKey)]))
  have a1 := toAnyFields_get? he' b!"public"
  have a2 := toAnyFields_get? (hf' ▸ he') b!"public"
  rw [mkDict_get? _ _ (by simp)] at a1 a2
  rw [a1] at a2
  refine ⟨by simpa [N, Json.toAny] using g1, by simpa [N, Json.toAny] using g2, ?_⟩
  simpa [Entries.get?_cons, Json.toAny] using a2

/-- C103: different keys (in type, scheme or public value) have different IDs, or their two texts collide under SHA-256. The hypotheses on unrecognised fields say that they are maps. -/
theorem C103_distinct {env : Env} {a b a' b' : Key} {id : Str} (ha : a.id = []) (hb : b.id = []) (hua : Entries.Sorted a.unrec) (hub : Entries.Sorted b.unrec)
    (hva : Entries.Sorted a.value.unrec) (hvb : Entries.Sorted b.value.unrec) (h1 : a.ID env = .ok (id, a')) (h2 : b.ID env = .ok (id, b')) :
    (a.type = b.type ∧ a.scheme = b.scheme ∧ a.value.publicKey = b.value.publicKey) ∨ Collide env a b := by
  obtain ⟨t1, c1, e1, _⟩ := ID_eq ha h1
  obtain ⟨t2, c2, e2, _⟩ := ID_eq hb h2
  by_cases ht : t1 = t2
  · subst ht
    exact .inl (key_fields hua hub hva hvb c1 c2)
  · exact .inr ⟨t1, t2, c1, c2, ht, hexEncode_injective (e1.symm.trans e2)⟩

/-- C103: asking again gives the same ID. -/
theorem C103_again {env : Env} {k k' : Key} {id : Str} (h : k.ID env = .ok (id, k')) (hid : id ≠ []) : k'.ID env = .ok (id, k') := by
  unfold Key.ID at h ⊢
  split at h
  · split at h
    · cases h
      rw [if_neg hid]
    · cases h
  · next hk =>
    cases h
    rw [if_neg hk]

/-- C103 is false for keys that are changed after their ID was asked for: the ID stays that of the old key, whatever the new contents. -/
theorem C103_false {env : Env} {k k' : Key} {id : Str} (h : k.ID env = .ok (id, k')) (hid : id ≠ []) (type scheme : Str) (value : KeyVal) (unrec : Fields) :
    ∃ k'', Key.ID env { k' with type := type, scheme := scheme, value := value, unrec := unrec } = .ok (id, k'') := by
  have hk' : k'.id = id := by
    unfold Key.ID at h
    split at h
    · split at h
      · cases h; rfl
      · cases h
    · cases h; rfl
  unfold Key.ID
  rw [if_neg (by rw [hk']; exact hid)]
  exact ⟨_, by rw [hk']⟩

/-- The added keys' IDs were not asked for before. -/
def FreshAdds (edits : List Edit) : Prop := ∀ key role, Edit.add key role ∈ edits → key.id = []

theorem addKey_keys {env : Env} {s : RootType} {key : Key} {role : Str} :
    ((s.addKey env key role).2.keys = s.keys) ∨ ∃ id key', key.ID env = .ok (id, key') ∧ s.keys.set id (some key') = .ok (s.addKey env key role).2.keys := by
  unfold RootType.addKey
  split
  · exact .inl rfl
  · exact .inl rfl
  · split
    · next id key' hid =>
      dsimp only
      split
      · next ks hks => exact .inr ⟨id, key', hid, hks⟩
      · exact .inl rfl
    · exact .inl rfl

theorem revokeKey_keys {s : RootType} {id role : Str} : (s.revokeKey id role).2.keys = s.keys ∨ (s.revokeKey id role).2.keys = s.keys.del id := by
  unfold RootType.revokeKey
  split
  · exact .inl rfl
  · exact .inl rfl
  · split
    · dsimp only
      split
      · exact .inl rfl
      · exact .inr rfl
      · exact .inl rfl
    · exact .inl rfl

theorem filed_edit {env : Env} {s : RootType} {e : Edit} (hf : ∀ key role, e = .add key role → key.id = []) (h : Filed env s.keys) : Filed env (e.run env s).keys := by
  cases e with
  | add key role =>
    show Filed env (s.addKey env key role).2.keys
    rcases addKey_keys (env := env) (s := s) (key := key) (role := role) with hk | ⟨id, key', h1, h2⟩
    · rw [hk]; exact h
    · intro id' k hk
      cases hs : s.keys with
      | none => rw [hs] at h2; cases h2
      | some ks =>
        rw [hs] at h2
        have h2 : (s.addKey env key role).2.keys = some (ks.set id (some key')) := (Res.ok.inj h2).symm
        rw [h2] at hk
        by_cases he : id = id'
        · subst he
          rw [show GoMap.get? (some (ks.set id (some key'))) id = some (some key') from Entries.get?_set_self _ _ _] at hk
          cases hk
          obtain ⟨t, c1, c2, rfl⟩ := ID_eq (hf key role rfl) h1
          exact ⟨t, c1, c2⟩
        · refine h id' k ?_
          rw [hs]
          rw [← hk]
          exact (Entries.get?_set_ne _ _ he).symm
  | revoke id role =>
    show Filed env (s.revokeKey id role).2.keys
    rcases revokeKey_keys (s := s) (id := id) (role := role) with hk | hk
    · rw [hk]; exact h
    · rw [hk]
      intro id' k hk'
      refine h id' k ?_
      cases hs : s.keys with
      | none => rw [hs] at hk'; cases hk'
      | some ks =>
        rw [hs] at hk'
        have : (ks.del id).get? id' = some (some k) := hk'
        rw [Entries.get?_del] at this
        split at this
        · cases this
        · exact this

/-- C103: in new root metadata, after any history of AddKey and RevokeKey calls, every key is stored under its own ID. -/
theorem C103_filed {env : Env} {t : Time} {edits : List Edit} (hf : FreshAdds edits) : Filed env (edits.foldl (Edit.run env) (newRoot t).signed).keys := by
  have key : ∀ (edits : List Edit) (s : RootType), FreshAdds edits → Filed env s.keys → Filed env (edits.foldl (Edit.run env) s).keys := by
    intro edits
    induction edits with
    | nil => intro s _ h; exact h
    | cons e es ih =>
      intro s hf h
      exact ih _ (fun k r hm => hf k r (List.mem_cons_of_mem _ hm)) (filed_edit (fun k r he => hf k r (by rw [he]; exact .head _)) h)
  exact key edits _ hf fun id k h => by cases h

/-- C103 is false for keys in metadata that was read: the stored ID is never compared with the key. In this root metadata the key is stored under the ID `a`, which is not its ID,
and what it signs is accepted. -/
theorem C103_read_false : ¬ Filed env0 (rootKeys [b!"a"] 1).signed.keys ∧
    verifyDelegate env0 (.root (rootKeys [b!"a"] 1)) b!"r" (.timestamp (stamp [sigA])) = .ok () := by
  refine ⟨fun h => ?_, by decide +kernel⟩
  obtain ⟨t, _, h⟩ := h b!"a" (edKey b!"aa") rfl
  have := congrArg List.length h
  rw [hexEncode_length] at this
  simp only [List.length_cons, List.length_nil] at this
  omega

/-- A case: an Ed25519 key, its text and the ID in the toy environment. -/
example : keyText b!"ed25519" b!"ed25519" b!"aa" = b!"{\"keytype\":\"ed25519\",\"keyval\":{\"public\":\"aa\"},\"scheme\":\"ed25519\"}" := by decide +kernel
example : FreshAdds [.add (edKey b!"aa") ROOT, .add (edKey b!"bb") TARGETS, .revoke (idOf 0xaa) ROOT] := by
  intro key role h
  simp at h
  rcases h with ⟨rfl, _⟩ | ⟨rfl, _⟩ <;> rfl

/-! ## C104 -/

/-- C104: the key made from a public key declares the type and the scheme of its kind. Other kinds of keys are refused. -/
theorem C104_declared {env : Env} {pk : PublicKey} {k : Key} (h : keyFromPublicKey env pk = .ok k) : Declared pk k.type k.scheme ∧ k.id = [] ∧ k.unrec = [] ∧ k.value.unrec = [] := by
  cases pk with
  | rsa m =>
    simp only [keyFromPublicKey] at h
    split at h <;> cases h
    exact ⟨.rsa, rfl, rfl, rfl⟩
  | ecdsa m =>
    simp only [keyFromPublicKey] at h
    split at h <;> cases h
    exact ⟨.ecdsa, rfl, rfl, rfl⟩
  | ed25519 m => cases h; exact ⟨.ed25519, rfl, rfl, rfl⟩
  | unknown m => cases h

/-- C104: the key made from a public key stands for that public key. -/
theorem C104_round_trip {env : Env} {pk : PublicKey} (pem : PemReads env pk) {k : Key} (hx : env.pkix pk = true) (h : keyFromPublicKey env pk = .ok k) : k.toPublicKey env = .ok pk := by
  have e1 : KeyTypeECDSA_SHA2_P256 ≠ KeyTypeRSASSA_PSS_SHA256 := by decide
  have e2 : KeyTypeEd25519 ≠ KeyTypeRSASSA_PSS_SHA256 := by decide
  have e3 : ¬ (KeyTypeEd25519 = KeyTypeECDSA_SHA2_P256 ∨ KeyTypeEd25519 = KeyTypeECDSA_SHA2_P256_COMPAT) := by decide
  cases pk with
  | rsa m =>
    simp only [keyFromPublicKey] at h
    split at h
    · next s hs =>
      cases h
      unfold Key.toPublicKey
      rw [if_pos rfl, pem _ hs]
      dsimp only
      rw [if_pos hx]
    · cases h
  | ecdsa m =>
    simp only [keyFromPublicKey] at h
    split at h
    · next s hs =>
      cases h
      unfold Key.toPublicKey
      rw [if_neg e1, if_pos (.inl rfl), pem _ hs]
      dsimp only
      rw [if_pos hx]
    · cases h
  | ed25519 m =>
    cases h
    unfold Key.toPublicKey
    rw [if_neg e2, if_neg e3, if_pos rfl]
    dsimp only
    rw [hexDecode_hexEncode]
    dsimp only
    rw [if_pos hx]
  | unknown m => cases h

theorem key_hash {env : Env} {pk : PublicKey} {k : Key} (h : keyFromPublicKey env pk = .ok k) : hashFor k = hashOf pk := by
  have := (C104_declared h).1
  obtain ⟨t, s, v, i, u⟩ := k
  cases this <;> rfl

theorem key_verifier {env : Env} {pk : PublicKey} (pem : PemReads env pk) {k : Key} (hx : env.pkix pk = true) (hl : env.loadVerifier pk (hashOf pk) = true)
    (h : keyFromPublicKey env pk = .ok k) : VerifierOf env k pk (hashOf pk) :=
  verifierOf_iff.2 ⟨C104_round_trip pem hx h, key_hash h, hl⟩

/-- C104: add the key of a signer to a role of root metadata with AddKey, let the signer sign a document of the role: it is accepted. `T` is any of the four metadata types (`C08_all_types`). -/
theorem C104_add_sign_verify {T : Type} [RoleType T]
    (hT : ∀ m : Metadata T, (RoleType.any m).signatures = m.signatures.elems ∧ (RoleType.any m).payload = payload m.signed)
    {env : Env} {pk : PublicKey} (pem : PemReads env pk) {key : Key} {s s' : RootType} {role : Str} {r : Role} {signer : Signer} {m m' : Metadata T} {sig : Signature}
    (hx : env.pkix pk = true) (hl : env.loadVerifier pk (hashOf pk) = true)
    (hkey : keyFromPublicKey env pk = .ok key)
    (hr : s.roles.get? role = some (some r)) (ht : r.threshold ≤ 1)
    (others : ∀ id ∈ r.keyIDs.elems, ∃ key pk hf, s.keys.get? id = some (some key) ∧ VerifierOf env key pk hf ∧ ∀ sig p, env.verifySig pk hf sig p ≠ .panic)
    (hadd : s.addKey env key role = (.ok (), s'))
    (hpk : signer.publicKey = some pk) (hsign : sign env m signer = .ok (sig, m'))
    (correct : ∀ p sb, signer.signMessage p = some sb → env.verifySig pk (hashOf pk) sb p = .ok ())
    (nopanic : ∀ sig p, env.verifySig pk (hashOf pk) sig p ≠ .panic) (unrec : Fields) (sigs : Slice Signature) :
    verifyDelegate env (.root { signed := s', signatures := sigs, unrec := unrec }) role (RoleType.any m') = .ok () := by
  obtain ⟨_, hid0, _⟩ := C104_declared hkey
  obtain ⟨_, _, _, ⟨pk', key0, key', hp1, hp2, hid⟩, p, hpay, hmsg⟩ := C08_sign_appends hsign
  rw [hpk] at hp1
  cases hp1
  rw [hkey] at hp2
  cases hp2
  -- what AddKey did
  cases hks : s.keys with
  | none =>
    unfold RootType.addKey at hadd
    rw [hr] at hadd
    dsimp only at hadd
    rw [hid, hks] at hadd
    cases hadd
  | some ks =>
    obtain ⟨s1, g1, ⟨r', g2, g3, _, g4⟩, _, g5, g6, _⟩ := C56_add_key_partial env s key key' role sig.keyID r ks hr hks hid
    rw [hadd] at g1
    cases g1
    obtain ⟨t, _, _, hkey'⟩ := ID_eq hid0 hid
    have hver : VerifierOf env key' pk (hashOf pk) := by
      have := verifierOf_iff.1 (key_verifier pem hx hl hkey)
      rw [hkey']
      exact verifierOf_iff.2 this
    have hmem : sig.keyID ∈ r'.keyIDs.elems := by
      rw [g4]
      split
      · next h => simpa using h
      · simp
    refine C08_sign_then_verify hT (D := .root { signed := s', signatures := sigs, unrec := unrec }) (Delegates.root g2) (List.ne_nil_of_mem hmem) (SignedBy.snoc .nil hsign) hpay ?_
      ?_ (S := [sig.keyID]) (by simp) (by rw [g3]; simpa using ht) ?_
    · intro id hm
      by_cases he : id = sig.keyID
      · subst he
        exact ⟨key', pk, _, g5, hver, fun sig => nopanic sig p⟩
      · show ∃ key pk hf, s'.keys.get? id = some (some key) ∧ VerifierOf env key pk hf ∧ ∀ sig, env.verifySig pk hf sig p ≠ .panic
        rw [g6 id he]
        rw [g4, List.mem_append] at hm
        rcases hm with hm | hm
        · obtain ⟨k, pk, hf, a, b, c⟩ := others id hm
          exact ⟨k, pk, hf, a, b, fun sig => c sig p⟩
        · split at hm
          · cases hm
          · simp at hm; exact absurd hm he
    · intro s1 hs1 id hm hsid key1 pk1 hf1 hk1 hv1 sb hsb
      simp only [List.nil_append, List.mem_singleton] at hs1
      subst hs1
      obtain ⟨pk2, key2, key2', q1, q2, q3⟩ := hsid
      rw [hpk] at q1
      cases q1
      rw [hkey] at q2
      cases q2
      rw [hid] at q3
      cases q3
      have hk1 : s'.keys.get? sig.keyID = some (some key1) := hk1
      rw [g5] at hk1
      cases hk1
      obtain ⟨z1, z2, _⟩ := verifierOf_iff.1 hv1
      obtain ⟨w1, w2, _⟩ := verifierOf_iff.1 hver
      rw [w1] at z1
      cases z1
      rw [← z2, w2]
      exact correct p sb hsb
    · intro id hm
      rw [List.mem_singleton] at hm
      subst hm
      exact ⟨hmem, signer, by simp, pk, key, key', hpk, hkey, hid⟩

namespace Sample

/-- The toy environment with PEM texts that say which kind of key they hold. -/
def pemEnv : Env := { env0 with
  pem := fun s => match s with
    | 1 :: m => some (.rsa m)
    | 2 :: m => some (.ecdsa m)
    | 3 :: m => some (.ed25519 m)
    | 4 :: m => some (.unknown m)
    | _ => none
  toPem := fun pk => match pk with
    | .rsa m => some (1 :: m)
    | .ecdsa m => some (2 :: m)
    | .ed25519 m => some (3 :: m)
    | .unknown m => some (4 :: m) }

theorem pemEnv_laws (pk : PublicKey) : PemReads pemEnv pk := by
  intro s h
  cases pk <;> (cases h; rfl)

/-- An ECDSA key with the key type of the TUF specification. -/
def specKey : Key := { type := b!"ecdsa-sha2-nistp256", scheme := b!"ecdsa-sha2-nistp256", value := { publicKey := [2, 9] } }
def ecSigner : Signer := { signMessage := fun _ => some [9], publicKey := some (.ecdsa [9]) }
/-- The key added to a new root, for the timestamp. -/
def specRoot (k : Key) : Metadata RootType := { signed := ((newRoot Time.zero).signed.addKey pemEnv k TIMESTAMP).2 }
def ecStamp : Metadata TimestampType := match sign pemEnv (stamp []) ecSigner with
  | .ok (_, m) => m
  | _ => stamp []

end Sample

/-- C104 is false for keys that are not made by KeyFromPublicKey: an ECDSA key with the key type `ecdsa-sha2-nistp256` of the TUF specification is understood, but what its holder
signs with Sign is filed under another key ID (that of the key with type `ecdsa`), and is not accepted. -/
theorem C104_false : (∀ pk, PemReads pemEnv pk) ∧ ecSigner.publicKey = some (.ecdsa [9]) ∧ VerifierOf pemEnv specKey (.ecdsa [9]) .sha256 ∧
    (∀ p sb, ecSigner.signMessage p = some sb → pemEnv.verifySig (.ecdsa [9]) .sha256 sb p = .ok ()) ∧
    (∃ r, (newRoot Time.zero).signed.roles.get? TIMESTAMP = some (some r) ∧ r.threshold = 1) ∧
    (((newRoot Time.zero).signed.addKey pemEnv specKey TIMESTAMP).1 = .ok ()) ∧
    (∃ sig, sign pemEnv (stamp []) ecSigner = .ok (sig, ecStamp)) ∧
    verifyDelegate pemEnv (.root (specRoot specKey)) TIMESTAMP (.timestamp ecStamp) ≠ .ok () := by
  refine ⟨pemEnv_laws, rfl, .ecdsa (.inr rfl) rfl rfl rfl, ?_, ⟨_, rfl, rfl⟩, by decide +kernel, ⟨_, rfl⟩, by decide +kernel⟩
  intro p sb h
  cases h
  rfl

/-- A case of C104_add_sign_verify: the same signer with the key made from its public key. -/
example : ∃ key, keyFromPublicKey pemEnv (.ecdsa [9]) = .ok key ∧
    verifyDelegate pemEnv (.root (specRoot key)) TIMESTAMP (.timestamp ecStamp) = .ok () := ⟨_, rfl, by decide +kernel⟩

end Tuf
