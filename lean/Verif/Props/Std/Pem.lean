import Verif.Proofs.Std.PemSound
import Verif.Props.BasicCase

/-! # C138: texts of public keys -/

namespace Tuf
open Tuf.Spec Tuf.Std Tuf.Sample

theorem pemPublicKey_written {x : X509} {pk : PublicKey} {d : Bytes} (h : x.parsePKIX d = some pk) (post : Str) : pemPublicKey x (pemEncode b!"PUBLIC KEY" d ++ post) = some pk := by
  unfold pemPublicKey
  rw [pemDecode_written (by decide) (by decide)]
  simp only []
  rw [if_pos trivial, h]

theorem pemPublicKey_preceded {x : X509} {pk : PublicKey} {d : Bytes} (h : x.parsePKIX d = some pk) {pre : Str} (hp : 45 ∉ pre) (post : Str) :
    pemPublicKey x (pre ++ 10 :: pemEncode b!"PUBLIC KEY" d ++ post) = some pk := by
  unfold pemPublicKey
  rw [pemDecode_preceded (by decide) (by decide) d hp]
  simp only []
  rw [if_pos trivial, h]

/-- C138: the PEM text of a key whose DER form crypto/x509 reads back is read back. -/
theorem C138_reads {x : X509} {env : Env} {pk : PublicKey} (h : DerKey x pk) : PemReads (withPem x env) pk := by
  intro s hs
  obtain ⟨d, h1, h2⟩ := h
  have hs : publicKeyPem x pk = some s := hs
  unfold publicKeyPem at hs
  rw [h1] at hs
  cases hs
  have := pemPublicKey_written h2 []
  rw [List.append_nil] at this
  exact this

theorem pkix_of_der {x : X509} {env : Env} {pk : PublicKey} (h : DerKey x pk) : (withPem x env).pkix pk = true := by
  obtain ⟨d, h1, _⟩ := h
  show (x.marshalPKIX pk).isSome = true
  rw [h1]
  rfl

/-- C138: from every RSA, ECDSA or Ed25519 public key whose DER form crypto/x509 writes and reads back, `KeyFromPublicKey` makes a key, which `ToPublicKey` turns back into the public key. -/
theorem C138_round_trip {x : X509} {env : Env} {pk : PublicKey} (h : DerKey x pk) (known : ∀ m, pk ≠ .unknown m) :
    ∃ k, keyFromPublicKey (withPem x env) pk = .ok k ∧ k.toPublicKey (withPem x env) = .ok pk := by
  have hk : ∃ k, keyFromPublicKey (withPem x env) pk = .ok k := by
    obtain ⟨d, h1, _⟩ := h
    have hp : (withPem x env).toPem pk = some (pemEncode b!"PUBLIC KEY" d) := by
      show (x.marshalPKIX pk).map _ = _
      rw [h1]
      rfl
    cases pk with
    | rsa m => exact ⟨_, by simp only [keyFromPublicKey, hp]; rfl⟩
    | ecdsa m => exact ⟨_, by simp only [keyFromPublicKey, hp]; rfl⟩
    | ed25519 m => exact ⟨_, rfl⟩
    | unknown m => exact absurd rfl (known m)
  obtain ⟨k, hk⟩ := hk
  exact ⟨k, hk, C104_round_trip (C138_reads h) (pkix_of_der h) hk⟩

/-- C138: the text of an RSA or ECDSA key that `KeyFromPublicKey` makes is a PEM block `PUBLIC KEY` with the DER form. -/
theorem C138_written {x : X509} {env : Env} {pk : PublicKey} {k : Key} (hk : keyFromPublicKey (withPem x env) pk = .ok k) (hd : ∀ m, pk ≠ .ed25519 m) :
    ∃ d, x.marshalPKIX pk = some d ∧ PemBlock k.value.publicKey b!"PUBLIC KEY" d := by
  have key : ∀ s, (withPem x env).toPem pk = some s → ∃ d, x.marshalPKIX pk = some d ∧ PemBlock s b!"PUBLIC KEY" d := by
    intro s hs
    obtain ⟨d, h1, rfl⟩ := Option.map_eq_some_iff.1 (show (x.marshalPKIX pk).map (pemEncode b!"PUBLIC KEY") = some s from hs)
    have := pemDecode_written (type := b!"PUBLIC KEY") (by decide) (by decide) d []
    rw [List.append_nil] at this
    exact ⟨d, h1, pemDecode_sound this⟩
  cases pk with
  | rsa m =>
    simp only [keyFromPublicKey] at hk
    split at hk
    · next s hs => cases hk; exact key s hs
    · cases hk
  | ecdsa m =>
    simp only [keyFromPublicKey] at hk
    split at hk
    · next s hs => cases hk; exact key s hs
    · cases hk
  | ed25519 m => exact absurd rfl (hd m)
  | unknown m => cases hk

/-- C138: what `ToPublicKey` reads as an RSA or ECDSA key is a text with a PEM block: a `PUBLIC KEY` with the key in PKIX form, or an `RSA PUBLIC KEY` with the key in PKCS #1 form. -/
theorem C138_sound {x : X509} {env : Env} {k : Key} {pk : PublicKey} (h : k.toPublicKey (withPem x env) = .ok pk) (hd : ∀ m, pk ≠ .ed25519 m) :
    ∃ b, (PemBlock k.value.publicKey b!"PUBLIC KEY" b ∧ x.parsePKIX b = some pk) ∨ (PemBlock k.value.publicKey b!"RSA PUBLIC KEY" b ∧ x.parsePKCS1 b = some pk) := by
  have key : ∀ s, pemPublicKey x s = some pk → ∃ b, (PemBlock s b!"PUBLIC KEY" b ∧ x.parsePKIX b = some pk) ∨ (PemBlock s b!"RSA PUBLIC KEY" b ∧ x.parsePKCS1 b = some pk) := by
    intro s hs
    unfold pemPublicKey at hs
    split at hs
    · cases hs
    · next type b hdec =>
      have hb := pemDecode_sound hdec
      split at hs
      · next ht => subst ht; exact ⟨b, .inl ⟨hb, hs⟩⟩
      · split at hs
        · next ht => subst ht; exact ⟨b, .inr ⟨hb, hs⟩⟩
        · cases hs
  unfold Key.toPublicKey at h
  split at h
  · split at h
    · next m hm =>
      split at h
      · cases h; exact key _ hm
      · cases h
    · cases h
  · split at h
    · split at h
      · next m hm =>
        split at h
        · cases h; exact key _ hm
        · cases h
      · cases h
    · split at h
      · split at h
        · split at h
          · cases h; exact absurd rfl (hd _)
          · cases h
        · cases h
      · cases h

/-- C138: what surrounds the text of a key does not matter: text after it, and lines without dashes before it. So one public key has many texts. -/
theorem C138_surroundings {x : X509} {env : Env} {pk : PublicKey} {k : Key} (h : DerKey x pk) (hk : keyFromPublicKey (withPem x env) pk = .ok k) (hd : ∀ m, pk ≠ .ed25519 m)
    {pre : Str} (hp : 45 ∉ pre) (post : Str) :
    ({ k with value := { k.value with publicKey := pre ++ 10 :: k.value.publicKey ++ post } } : Key).toPublicKey (withPem x env) = .ok pk := by
  have hx := pkix_of_der (env := env) h
  obtain ⟨d, h1, h2⟩ := h
  have htext : ∀ s, (withPem x env).toPem pk = some s → (withPem x env).pem (pre ++ 10 :: s ++ post) = some pk := by
    intro s hs
    have hs : (x.marshalPKIX pk).map (pemEncode b!"PUBLIC KEY") = some s := hs
    rw [h1] at hs
    cases hs
    exact pemPublicKey_preceded h2 hp post
  have e1 : KeyTypeECDSA_SHA2_P256 ≠ KeyTypeRSASSA_PSS_SHA256 := by decide
  cases pk with
  | rsa m =>
    simp only [keyFromPublicKey] at hk
    split at hk
    · next s hs =>
      cases hk
      unfold Key.toPublicKey
      rw [if_pos rfl, htext s hs]
      dsimp only
      rw [if_pos hx]
    · cases hk
  | ecdsa m =>
    simp only [keyFromPublicKey] at hk
    split at hk
    · next s hs =>
      cases hk
      unfold Key.toPublicKey
      rw [if_neg e1, if_pos (.inl rfl), htext s hs]
      dsimp only
      rw [if_pos hx]
    · cases hk
  | ed25519 m => exact absurd rfl (hd m)
  | unknown m => cases hk

theorem std64Char_ascii {n : Nat} (h : n < 64) : (std64Char n).toNat < 128 := (by decide : ∀ n : Fin 64, (std64Char n).toNat < 128) ⟨n, h⟩

theorem std64Encode_ascii (b : Bytes) : ∀ c ∈ std64Encode b, c.toNat < 128 := by
  match b with
  | [] => simp [std64Encode]
  | [a] =>
    have ha := a.toNat_lt
    simp only [std64Encode, List.forall_mem_cons]
    exact ⟨std64Char_ascii (by omega), std64Char_ascii (by omega), by decide, by decide, by simp⟩
  | [a, b] =>
    have ha := a.toNat_lt
    have hb := b.toNat_lt
    simp only [std64Encode, List.forall_mem_cons]
    exact ⟨std64Char_ascii (by omega), std64Char_ascii (by omega), std64Char_ascii (by omega), by decide, by simp⟩
  | a :: b :: c :: r =>
    have ha := a.toNat_lt
    have hb := b.toNat_lt
    have hc := c.toNat_lt
    simp only [std64Encode, List.forall_mem_cons]
    exact ⟨std64Char_ascii (by omega), std64Char_ascii (by omega), std64Char_ascii (by omega), std64Char_ascii (by omega), std64Encode_ascii r⟩

theorem breakLines_mem {n : Nat} {s : Str} {c : UInt8} (h : c ∈ breakLines n s) : c = 10 ∨ c ∈ s := by
  induction s generalizing n with
  | nil =>
    simp only [breakLines] at h
    split at h
    · cases h
    · exact .inl (by simpa using h)
  | cons d r ih =>
    simp only [breakLines] at h
    split at h
    · simp only [List.mem_cons] at h ⊢
      rcases h with h | h | h
      · exact .inr (.inl h)
      · exact .inl h
      · rcases ih h with h | h
        · exact .inl h
        · exact .inr (.inr h)
    · simp only [List.mem_cons] at h ⊢
      rcases h with h | h
      · exact .inr (.inl h)
      · rcases ih h with h | h
        · exact .inl h
        · exact .inr (.inr h)

/-- C138: the texts are ASCII, so that JSON carries them unchanged. -/
theorem C138_texts (x : X509) (env : Env) : PemTexts (withPem x env) := by
  intro pk s h
  obtain ⟨d, _, rfl⟩ := Option.map_eq_some_iff.1 (show (x.marshalPKIX pk).map (pemEncode b!"PUBLIC KEY") = some s from h)
  unfold pemEncode
  refine utf8_append (utf8_append (utf8_append (utf8_append (utf8_append (utf8_append (utf8_append (utf8_append ?_ ?_) ?_) ?_) ?_) ?_) ?_) ?_) ?_
  case refine_5 =>
    refine utf8_ascii fun c hc => ?_
    rcases breakLines_mem hc with rfl | hc
    · decide
    · exact std64Encode_ascii d c hc
  all_goals exact utf8_name (by rfl)

/-- C138, with C104: add the key of a signer to a role of root metadata, let the signer sign a document of the role: it is accepted. -/
theorem C138_add_sign_verify {T : Type} [RoleType T]
    (hT : ∀ m : Metadata T, (RoleType.any m).signatures = m.signatures.elems ∧ (RoleType.any m).payload = payload m.signed)
    {x : X509} {env : Env} {pk : PublicKey} (hder : DerKey x pk) {key : Key} {s s' : RootType} {role : Str} {r : Role} {signer : Signer} {m m' : Metadata T} {sig : Signature}
    (hl : env.loadVerifier pk (hashOf pk) = true) (hkey : keyFromPublicKey (withPem x env) pk = .ok key)
    (hr : s.roles.get? role = some (some r)) (ht : r.threshold ≤ 1)
    (others : ∀ id ∈ r.keyIDs.elems, ∃ key pk hf, s.keys.get? id = some (some key) ∧ VerifierOf (withPem x env) key pk hf ∧ ∀ sig p, env.verifySig pk hf sig p ≠ .panic)
    (hadd : s.addKey (withPem x env) key role = (.ok (), s'))
    (hpk : signer.publicKey = some pk) (hsign : sign (withPem x env) m signer = .ok (sig, m'))
    (correct : ∀ p sb, signer.signMessage p = some sb → env.verifySig pk (hashOf pk) sb p = .ok ())
    (nopanic : ∀ sig p, env.verifySig pk (hashOf pk) sig p ≠ .panic) (unrec : Fields) (sigs : Slice Signature) :
    verifyDelegate (withPem x env) (.root { signed := s', signatures := sigs, unrec := unrec }) role (RoleType.any m') = .ok () :=
  C104_add_sign_verify hT (C138_reads hder) (pkix_of_der hder) hl hkey hr ht others hadd hpk hsign correct nopanic unrec sigs

/-- C138, with C118: the second example repository makes its files whenever its nine keys work; nothing is assumed about PEM. -/
theorem C138_example {x : X509} {env : Env} {k : BasicSigners} {e : BasicTimes} {path : Str} {data : Bytes} (hk : BasicKeys (std (withPem x env)) k) (he : BasicCalendar e) (hl : data.length < 2 ^ 63) :
    ∃ dir, basicRepository (std (withPem x env)) e path data k = .ok dir ∧ dir.map Prod.fst = basicNames :=
  C118_succeeds (env := withPem x env) (C138_texts x (std env)) hk he hl

/-! ## Cases -/

namespace Sample

/-- A toy crypto/x509: the DER form is a byte for the kind and the material. Keys of unknown kinds have none. -/
def der : X509 where
  marshalPKIX := fun pk => match pk with
    | .rsa m => some (1 :: m)
    | .ecdsa m => some (2 :: m)
    | .ed25519 m => some (3 :: m)
    | .unknown _ => none
  parsePKIX := fun d => match d with
    | 1 :: m => some (.rsa m)
    | 2 :: m => some (.ecdsa m)
    | 3 :: m => some (.ed25519 m)
    | _ => none
  parsePKCS1 := fun d => some (.rsa d)

theorem der_key {pk : PublicKey} (known : ∀ m, pk ≠ .unknown m) : DerKey der pk := by
  cases pk with
  | unknown m => exact absurd rfl (known m)
  | _ => exact ⟨_, rfl, rfl⟩

/-- The text of a key. -/
def textOf (r : Res Key) : Option Str := match r with
  | .ok k => some k.value.publicKey
  | _ => none

end Sample

/-- The text of a key in full; the key is read back, also with a comment before and text after it, and in PKCS #1 form with header lines. -/
example : textOf (keyFromPublicKey (withPem der env0) (.ecdsa [0xff, 0xee, 0xdd])) = some b!"-----BEGIN PUBLIC KEY-----\nAv/u3Q==\n-----END PUBLIC KEY-----\n" ∧
    pemPublicKey der b!"my key:\n-----BEGIN PUBLIC KEY-----\nAv/\nu3Q==\n-----END PUBLIC KEY-----\nmore" = some (.ecdsa [0xff, 0xee, 0xdd]) ∧
    pemPublicKey der b!"-----BEGIN RSA PUBLIC KEY-----\nProc-Type: 4\n\nAQID\n-----END RSA PUBLIC KEY-----" = some (.rsa [1, 2, 3]) ∧
    pemPublicKey der b!"-----BEGIN PUBLIC KEY-----\nAv/u3Q=\n-----END PUBLIC KEY-----\n" = none ∧
    pemPublicKey der b!"-----BEGIN PUBLIC KEY-----\nAv/u3Q==\n-----END PRIVATE KEY-----\n" = none := by decide +kernel

example : DerKey der (.rsa [1, 2, 3]) ∧ ∀ m, PublicKey.rsa [1, 2, 3] ≠ .unknown m := ⟨der_key (by simp), by simp⟩

end Tuf
