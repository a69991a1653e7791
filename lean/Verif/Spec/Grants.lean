import Verif.Spec.Edits
import Verif.Spec.KeyIds

/-! # Specification of who may sign -/

namespace Tuf.Spec
open Tuf

/-- A working signer with public key `pk`: it signs every message, and the library for signatures accepts the key and what was signed with it. -/
structure WorkingSigner (env : Env) (s : Signer) (pk : PublicKey) : Prop where
  «public» : s.publicKey = some pk
  readable : PemReads env pk
  usable : env.pkix pk = true ∧ env.loadVerifier pk (hashOf pk) = true
  total : ∀ sig p, env.verifySig pk (hashOf pk) sig p ≠ .panic
  signs : ∀ p, ∃ sig, s.signMessage p = some sig ∧ env.verifySig pk (hashOf pk) sig p = .ok ()

/-- The signers of a repository: all work, and different keys have different key IDs. -/
structure Staff (env : Env) (staff : List Signer) : Prop where
  work : ∀ s ∈ staff, ∃ pk key, WorkingSigner env s pk ∧ keyFromPublicKey env pk = .ok key
  distinct : ∀ s ∈ staff, ∀ s' ∈ staff, ∀ id, SignerID env s id → SignerID env s' id → s.publicKey = s'.publicKey

/-- Which key IDs a role has, as sets: `AddKey` adds the ID of the key to the role, `RevokeKey` takes an ID from it, nothing else matters. -/
def grantStep (env : Env) (g : Str → Str → Prop) : RootEdit → Str → Str → Prop
  | .add key role => fun ro id => g ro id ∨ (ro = role ∧ ∃ key', key.ID env = .ok (id, key'))
  | .revoke i role => fun ro id => g ro id ∧ ¬ (ro = role ∧ id = i)
  | _ => g

def Granted (env : Env) (edits : List RootEdit) : Str → Str → Prop := edits.foldl (grantStep env) (fun _ _ => False)

/-- The threshold that was set last; 1 in new metadata. -/
def thresholdStep (t : Str → Int) : RootEdit → Str → Int
  | .threshold role n => fun ro => if ro = role then n else t ro
  | _ => t

def thresholdAfter (edits : List RootEdit) : Str → Int := edits.foldl thresholdStep (fun _ => 1)

/-- All added keys are made from public keys of the staff. -/
def AddsStaff (env : Env) (staff : List Signer) (edits : List RootEdit) : Prop :=
  ∀ key role, RootEdit.add key role ∈ edits → ∃ s ∈ staff, ∃ pk, s.publicKey = some pk ∧ keyFromPublicKey env pk = .ok key

end Tuf.Spec
