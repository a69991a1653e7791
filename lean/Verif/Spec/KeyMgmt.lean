import Verif.Model.Metadata

/-! # Specification of key management -/

namespace Tuf.Spec
open Tuf

/-- The role exists in the root metadata and lists the key ID. -/
def ListsKey (s : RootType) (role id : Str) : Prop := ∃ r, s.roles.get? role = some (some r) ∧ id ∈ r.keyIDs.elems

/-- A role table: each name once (it is a Go map), no null role. `FromBytes` also reads tables with null roles; see `C57_null_role_crash`. -/
structure GoodRoles (m : GoMap (Option Role)) : Prop where
  unique : (m.entries.map Prod.fst).Nodup
  present : ∀ e ∈ m.entries, e.2.isSome = true

/-- Everything but roles and keys is the same. -/
structure SameRest (s s' : RootType) : Prop where
  type : s'.type = s.type
  specVersion : s'.specVersion = s.specVersion
  consistentSnapshot : s'.consistentSnapshot = s.consistentSnapshot
  version : s'.version = s.version
  expires : s'.expires = s.expires
  unrec : s'.unrec = s.unrec

/-- Roles and keys belong together: every listed key ID has a key, every stored key is listed by some role. -/
structure Consistent (s : RootType) : Prop where
  listed : ∀ role id, ListsKey s role id → ∃ k, s.keys.get? id = some (some k)
  stored : ∀ id, (s.keys.get? id).isSome = true → ∃ role, ListsKey s role id

/-- A call of `AddKey` or `RevokeKey`. -/
inductive Edit where
  | add (key : Key) (role : Str)
  | revoke (keyID role : Str)

/-- The metadata after an edit, whatever it returned. -/
def Edit.run (env : Env) (s : RootType) : Edit → RootType
  | .add key role => (s.addKey env key role).2
  | .revoke id role => (s.revokeKey id role).2

/-- Some delegated role lists the key ID. -/
def DelegatedLists (rs : List DelegatedRole) (id : Str) : Prop := ∃ r ∈ rs, id ∈ r.keyIDs.elems

/-- The first delegated role of a name. -/
def FirstOf (rs : List DelegatedRole) (role : Str) (r : DelegatedRole) : Prop :=
  ∃ pre post, rs = pre ++ r :: post ∧ (∀ x ∈ pre, x.name ≠ role) ∧ r.name = role

end Tuf.Spec
