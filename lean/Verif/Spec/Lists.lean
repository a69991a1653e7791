import Verif.Spec.Fields

/-! # Where the lists of strings of a document come from -/

namespace Tuf.Spec
open Tuf

/-- The object has a member of this name, in any spelling, with this value. -/
def Has (m : List (Str × Json)) (name : Str) (j : Json) : Prop := ∃ key, (key, j) ∈ m ∧ Spelled name key

/-- Some mention of the list has this text at place `i`. -/
def WrittenAt (m : List (Str × Json)) (name : Str) (i : Nat) (s : Str) : Prop := ∃ l x, Has m name (.arr l) ∧ l[i]? = some x ∧ IsText x s

/-- The list is nil if the object does not mention it or says `null` in the end. Otherwise the last mention is an array; the list is as long, and each element is the text written there.
Where `null` is written, the element is empty or a text that some mention has at the same place. -/
def ListShown (m : List (Str × Json)) (name : Str) (v : Slice Str) : Prop :=
  (Unmentioned m name ∧ v = none) ∨ (LastSpelled m name .null ∧ v = none) ∨
  ∃ l w, LastSpelled m name (.arr l) ∧ v = some w ∧ w.length = l.length ∧
    ∀ i x s, l[i]? = some x → w[i]? = some s → IsText x s ∨ (x = .null ∧ (s = [] ∨ WrittenAt m name i s))

/-- A role of a root document and the object it was read from. -/
def RootRoleIn (env : Env) (data : Bytes) (name : Str) (role : Role) : Prop :=
  ∃ doc s rs r, env.parse data = some (.obj doc) ∧ LastSpelled doc b!"signed" (.obj s) ∧ Has s b!"roles" (.obj rs) ∧ (name, .obj r) ∈ rs ∧ ListShown r b!"keyids" role.keyIDs

/-- A delegation of a targets document and the object it was read from; `null` gives a role without lists. -/
def DelegationIn (env : Env) (data : Bytes) (role : DelegatedRole) : Prop :=
  ∃ doc s d rs j, env.parse data = some (.obj doc) ∧ LastSpelled doc b!"signed" (.obj s) ∧ Has s b!"delegations" (.obj d) ∧ Has d b!"roles" (.arr rs) ∧ j ∈ rs ∧
    ((j = .null ∧ role.keyIDs = none ∧ role.paths = none ∧ role.pathHashPrefixes = none) ∨
      ∃ r, j = .obj r ∧ ListShown r b!"keyids" role.keyIDs ∧ ListShown r b!"paths" role.paths ∧ ListShown r b!"path_hash_prefixes" role.pathHashPrefixes)

/-- The same for succinct delegations. -/
def SuccinctIn (env : Env) (data : Bytes) (role : SuccinctRoles) : Prop :=
  ∃ doc s d r, env.parse data = some (.obj doc) ∧ LastSpelled doc b!"signed" (.obj s) ∧ Has s b!"delegations" (.obj d) ∧ Has d b!"succinct_roles" (.obj r) ∧ ListShown r b!"keyids" role.keyIDs

end Tuf.Spec
