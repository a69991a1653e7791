import Verif.Model.Metadata

/-!
# Specification of the threshold rule

Stated with relations and quantifiers over the documents themselves, not with the loops and helpers of the model. From the model only
the data types, `canonical` (canonical JSON of a syntax tree) and the marshal functions are used.
-/

namespace Tuf.Spec
open Tuf

/-- `Delegates delegator role keys ids t`: the delegator entrusts `role` to the key IDs `ids` with threshold `t`; `keys` resolves key IDs.
Root metadata says so in its role map. Targets metadata says so in its first delegated role of that name or,
if it has no list of delegated roles, in its succinct delegation. -/
inductive Delegates : AnyMeta → Str → GoMap (Option Key) → List Str → Int → Prop
  | root {m : Metadata RootType} {role : Str} {r : Role} :
      m.signed.roles.get? role = some (some r) →
      Delegates (.root m) role m.signed.keys r.keyIDs.elems r.threshold
  | targets {m : Metadata TargetsType} {role : Str} {d : Delegations} {before after : List DelegatedRole} {v : DelegatedRole} :
      m.signed.delegations = some d → d.roles = some (before ++ v :: after) → v.name = role →
      (∀ u ∈ before, u.name ≠ role) →
      Delegates (.targets m) role d.keys v.keyIDs.elems v.threshold
  | succinct {m : Metadata TargetsType} {role : Str} {d : Delegations} {s : SuccinctRoles} :
      m.signed.delegations = some d → d.roles = none → d.succinctRoles = some s →
      Delegates (.targets m) role d.keys s.keyIDs.elems s.threshold

/-- `Carries d sigs p`: the document carries the signatures `sigs`, and `p` is the canonical JSON of its signed part. -/
inductive Carries : AnyMeta → List Signature → Bytes → Prop
  | root {m : Metadata RootType} {j : Json} {p : Bytes} :
      m.signed.marshal = .ok j → canonical j = .ok p → Carries (.root m) m.signatures.elems p
  | snapshot {m : Metadata SnapshotType} {j : Json} {p : Bytes} :
      m.signed.marshal = .ok j → canonical j = .ok p → Carries (.snapshot m) m.signatures.elems p
  | timestamp {m : Metadata TimestampType} {j : Json} {p : Bytes} :
      m.signed.marshal = .ok j → canonical j = .ok p → Carries (.timestamp m) m.signatures.elems p
  | targets {m : Metadata TargetsType} {j : Json} {p : Bytes} :
      m.signed.marshal = .ok j → canonical j = .ok p → Carries (.targets m) m.signatures.elems p

/-- The signature that stands for a key ID: the last one that carries it, or the empty one if none does. -/
def SignatureFor (sigs : List Signature) (id : Str) (sig : Bytes) : Prop :=
  (∃ before s after, sigs = before ++ s :: after ∧ s.keyID = id ∧ (∀ u ∈ after, u.keyID ≠ id) ∧ sig = s.sig) ∨
  ((∀ u ∈ sigs, u.keyID ≠ id) ∧ sig = [])

/-- `VerifierOf env key pk h`: a verifier for the key exists; it uses the public key `pk` and the hash function `h`.
RSA and ECDSA keys are given as PEM and hash with SHA-256, Ed25519 keys as hex and do not prehash. -/
inductive VerifierOf (env : Env) : Key → PublicKey → HashFn → Prop
  | rsa {k : Key} {m : Bytes} : k.type = b!"rsa" → env.pem k.value.publicKey = some (.rsa m) → env.pkix (.rsa m) = true →
      env.loadVerifier (.rsa m) .sha256 = true → VerifierOf env k (.rsa m) .sha256
  | ecdsa {k : Key} {m : Bytes} : k.type = b!"ecdsa" ∨ k.type = b!"ecdsa-sha2-nistp256" →
      env.pem k.value.publicKey = some (.ecdsa m) → env.pkix (.ecdsa m) = true →
      env.loadVerifier (.ecdsa m) .sha256 = true → VerifierOf env k (.ecdsa m) .sha256
  | ed25519 {k : Key} {m : Bytes} : k.type = b!"ed25519" → hexDecode k.value.publicKey = some m → env.pkix (.ed25519 m) = true →
      env.loadVerifier (.ed25519 m) .none = true → VerifierOf env k (.ed25519 m) .none

/-- Key `id` has a verifier `pk`, `h`, and what is to be verified are the bytes `sig` over `p`. -/
def Question (env : Env) (keys : GoMap (Option Key)) (d : AnyMeta) (id : Str) (pk : PublicKey) (h : HashFn) (sig p : Bytes) : Prop :=
  ∃ key sigs, keys.get? id = some (some key) ∧ VerifierOf env key pk h ∧ Carries d sigs p ∧ SignatureFor sigs id sig

/-- The verifier of the key ID accepts the document's signature. -/
def Accepted (env : Env) (keys : GoMap (Option Key)) (d : AnyMeta) (id : Str) : Prop :=
  ∃ pk h sig p, Question env keys d id pk h sig p ∧ env.verifySig pk h sig p = .ok ()

/-- The key ID is usable: its verifier gives a verdict, good or bad. -/
def Decided (env : Env) (keys : GoMap (Option Key)) (d : AnyMeta) (id : Str) : Prop :=
  ∃ pk h sig p, Question env keys d id pk h sig p ∧ env.verifySig pk h sig p ≠ .panic

/-- At least `t` different key IDs of `ids` are accepted. -/
def MeetsThreshold (env : Env) (keys : GoMap (Option Key)) (d : AnyMeta) (ids : List Str) (t : Int) : Prop :=
  ∃ S : List Str, S.Nodup ∧ t ≤ (S.length : Int) ∧ ∀ id ∈ S, id ∈ ids ∧ Accepted env keys d id

/-- The exact rule of `VerifyDelegate`: every listed key ID is usable and the threshold is met. -/
def Verifies (env : Env) (delegator : AnyMeta) (role : Str) (d : AnyMeta) : Prop :=
  ∃ keys ids t, Delegates delegator role keys ids t ∧ ids ≠ [] ∧ (∀ id ∈ ids, Decided env keys d id) ∧
    MeetsThreshold env keys d ids t

/-- The threshold rule for a delegated document. -/
def Trusts (env : Env) (delegator : AnyMeta) (role : Str) (d : AnyMeta) : Prop :=
  ∃ keys ids t, Delegates delegator role keys ids t ∧ ids ≠ [] ∧ MeetsThreshold env keys d ids t

/-- An Ed25519 key whose text does not stand for 32 bytes. -/
def WrongLength (k : Key) : Prop := k.type = b!"ed25519" ∧ ∃ m, hexDecode k.value.publicKey = some m ∧ m.length ≠ 32

/-- Verifiers panic at most for Ed25519 keys of a wrong length. -/
def PanicsOnlyOnLength (env : Env) : Prop := ∀ pk h sig p, env.verifySig pk h sig p = .panic → ∃ m, pk = .ed25519 m ∧ m.length ≠ 32

/-- And for those they do (true of the real verifiers): sigstore's `LoadVerifier` takes a key of any length, and crypto/ed25519's `Verify` panics if it is not 32. -/
def PanicsOnLength (env : Env) : Prop :=
  ∀ m, m.length ≠ 32 → env.pkix (.ed25519 m) = true ∧ env.loadVerifier (.ed25519 m) .none = true ∧ ∀ sig p, env.verifySig (.ed25519 m) .none sig p = .panic

/-- No verifier accepts an empty signature (true of the real verifiers). -/
def SaneVerifiers (env : Env) : Prop := ∀ pk h p, env.verifySig pk h [] p ≠ .ok ()

/-! ## Signing -/

/-- `SignedBy env m ss m'`: `m'` comes from `m` by successful `Sign` calls with the signers `ss` in this order. -/
inductive SignedBy {T : Type} [RoleType T] (env : Env) : Metadata T → List Signer → Metadata T → Prop
  | nil {m : Metadata T} : SignedBy env m [] m
  | snoc {m m1 m2 : Metadata T} {ss : List Signer} {s : Signer} {sig : Signature} :
      SignedBy env m ss m1 → sign env m1 s = .ok (sig, m2) → SignedBy env m (ss ++ [s]) m2

/-- The key ID under which a signer's signatures are filed. -/
def SignerID (env : Env) (s : Signer) (id : Str) : Prop :=
  ∃ pk key key', s.publicKey = some pk ∧ keyFromPublicKey env pk = .ok key ∧ key.ID env = .ok (id, key')

end Tuf.Spec
