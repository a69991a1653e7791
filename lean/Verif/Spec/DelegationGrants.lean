import Verif.Spec.Grants
import Verif.Spec.KeyMgmt

/-! # Specification of who may sign for delegated roles -/

namespace Tuf.Spec
open Tuf

/-- Key changes of delegations. -/
inductive KeyEdit where
  | add (key : Key) (role : Str)
  | revoke (id role : Str)

/-- What the calls leave behind, whether they succeed or not. -/
def KeyEdit.run (env : Env) (s : TargetsType) : KeyEdit → TargetsType
  | .add key role => (s.addKey env key role).2
  | .revoke id role => (s.revokeKey id role).2

/-- Which key IDs the roles have: `AddKey` adds the ID of the key, `RevokeKey` takes an ID away. `same` tells whether two names share their keys: equal names of delegated
roles, all names in succinct delegations. -/
def shareStep (env : Env) (same : Str → Str → Prop) (g : Str → Str → Prop) : KeyEdit → Str → Str → Prop
  | .add key role => fun ro id => g ro id ∨ (same ro role ∧ ∃ key', key.ID env = .ok (id, key'))
  | .revoke i role => fun ro id => g ro id ∧ ¬ (same ro role ∧ id = i)

/-- The bins of a succinct delegation share their keys. -/
def anyName : Str → Str → Prop := fun _ _ => True

def Shared (env : Env) (same : Str → Str → Prop) (edits : List KeyEdit) : Str → Str → Prop := edits.foldl (shareStep env same) (fun _ _ => False)

/-- All added keys are made from public keys of the staff. -/
def EditsStaff (env : Env) (staff : List Signer) (edits : List KeyEdit) : Prop :=
  ∀ key role, KeyEdit.add key role ∈ edits → ∃ s ∈ staff, ∃ pk, s.publicKey = some pk ∧ keyFromPublicKey env pk = .ok key

/-- Delegations to roles that have no keys yet. -/
def NamedStart (s : TargetsType) (rs : List DelegatedRole) : Prop :=
  ∃ d, s.delegations = some d ∧ d.roles = some rs ∧ d.keys.isSome = true ∧ ∀ r ∈ rs, r.keyIDs.elems = []

/-- A succinct delegation that has no keys yet. -/
def SuccinctStart (s : TargetsType) (sr : SuccinctRoles) : Prop :=
  ∃ d, s.delegations = some d ∧ d.roles = none ∧ d.succinctRoles = some sr ∧ d.keys.isSome = true ∧ sr.keyIDs.elems = []

end Tuf.Spec
