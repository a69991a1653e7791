import Verif.Model.Metadata
import Verif.Spec.Spelling

/-! # Specification of serialisation -/

namespace Tuf.Spec
open Tuf

/-- Facts about the standard library: printing a float64 or a time and reading it again gives the same value; every int64 is in the range of float64. -/
structure EnvLaws (env : Env) : Prop where
  anyIdem : ∀ l l', env.anyNum l = some l' → env.anyNum l' = some l'
  anyInt : ∀ n, inInt64 n = true → (env.anyNum (.inl n)).isSome
  time : ∀ s t, env.parseTime s = some t → env.parseTime t.text = some t
  zeroTime : env.parseTime Time.zero.text = some Time.zero

/-- No unrecognised field has another spelling of the name of a recognised one. -/
def NoVariants (names : List Str) (unrec : Fields) : Prop := ∀ k, (unrec.get? k).isSome → ∀ n ∈ names, ¬ Spelled n k

/-! Values without the five features that do not survive serialisation: field names in other letter case, both kinds of paths, both kinds of roles, a
hash map that is empty but not nil. -/

structure PlainKey (a : Key) : Prop where
  fields : NoVariants [b!"keytype", b!"scheme", b!"keyval"] a.unrec
  value : NoVariants [b!"public"] a.value.unrec

def PlainRole (a : Role) : Prop := NoVariants [b!"keyids", b!"threshold"] a.unrec

structure PlainMeta (a : MetaFiles) : Prop where
  fields : NoVariants [b!"length", b!"hashes", b!"version"] a.unrec
  hashes : a.hashes ≠ some []

def PlainTarget (a : TargetFiles) : Prop := NoVariants [b!"length", b!"hashes", b!"custom"] a.unrec

structure PlainDelegated (a : DelegatedRole) : Prop where
  fields : NoVariants [b!"name", b!"keyids", b!"threshold", b!"terminating", b!"path_hash_prefixes", b!"paths"] a.unrec
  oneKind : a.paths = none ∨ a.pathHashPrefixes = none

def PlainSuccinct (a : SuccinctRoles) : Prop := NoVariants [b!"keyids", b!"threshold", b!"bit_length", b!"name_prefix"] a.unrec

structure PlainDelegations (a : Delegations) : Prop where
  fields : NoVariants [b!"keys", b!"roles", b!"succinct_roles"] a.unrec
  keys : ∀ k x, a.keys.get? k = some (some x) → PlainKey x
  roles : ∀ r ∈ a.roles.elems, PlainDelegated r
  succinct : ∀ s, a.succinctRoles = some s → PlainSuccinct s
  oneKind : a.roles = none ∨ a.succinctRoles = none

def PlainSignature (a : Signature) : Prop := NoVariants [b!"keyid", b!"sig"] a.unrec

structure PlainRoot (a : RootType) : Prop where
  fields : NoVariants [b!"_type", b!"spec_version", b!"consistent_snapshot", b!"version", b!"expires", b!"keys", b!"roles"] a.unrec
  keys : ∀ k x, a.keys.get? k = some (some x) → PlainKey x
  roles : ∀ k x, a.roles.get? k = some (some x) → PlainRole x

structure PlainSnapshot (a : SnapshotType) : Prop where
  fields : NoVariants [b!"_type", b!"spec_version", b!"version", b!"expires", b!"meta"] a.unrec
  metas : ∀ k x, a.metas.get? k = some (some x) → PlainMeta x

structure PlainTimestamp (a : TimestampType) : Prop where
  fields : NoVariants [b!"_type", b!"spec_version", b!"version", b!"expires", b!"meta"] a.unrec
  metas : ∀ k x, a.metas.get? k = some (some x) → PlainMeta x

structure PlainTargets (a : TargetsType) : Prop where
  fields : NoVariants [b!"_type", b!"spec_version", b!"version", b!"expires", b!"targets", b!"delegations"] a.unrec
  targets : ∀ k x, a.targets.get? k = some (some x) → PlainTarget x
  delegations : ∀ d, a.delegations = some d → PlainDelegations d

/-- A plain document around a plain signed part. -/
structure PlainDocument {T : Type} (P : T → Prop) (m : Metadata T) : Prop where
  signed : P m.signed
  signatures : ∀ s ∈ m.signatures.elems, PlainSignature s
  fields : NoVariants [b!"signed", b!"signatures"] m.unrec

end Tuf.Spec

/-! ## What a signed part says

The parts that no client function looks at are removed: the difference between an empty and a nil hash map, the order and repetition of members inside `custom`,
succinct roles beside roles. -/

namespace Tuf.Spec
open Tuf

def viewMeta (a : MetaFiles) : MetaFiles := { a with hashes := if a.hashes.entries = [] then none else a.hashes }

def viewTarget (a : TargetFiles) : TargetFiles := { a with custom := a.custom.bind (Json.toAny some) }

def viewDelegations (a : Delegations) : Delegations := { a with succinctRoles := if a.roles.isSome then none else a.succinctRoles }

/-- Apply a function to all entries that are not nil. -/
def mapValues {α : Type} (f : α → α) (m : GoMap (Option α)) : GoMap (Option α) := m.map (fun es => es.map (fun e => (e.1, e.2.map f)))

def viewSnapshot (a : SnapshotType) : SnapshotType := { a with metas := mapValues viewMeta a.metas }

def viewTimestamp (a : TimestampType) : TimestampType := { a with metas := mapValues viewMeta a.metas }

def viewTargets (a : TargetsType) : TargetsType := { a with targets := mapValues viewTarget a.targets, delegations := a.delegations.map viewDelegations }

end Tuf.Spec

/-! ## Members of a serialised value -/

namespace Tuf.Spec
open Tuf

/-- The object has the member `k` with value `v`, and no other value for `k`. -/
def Shows (j : Json) (k : Str) (v : Json) : Prop := ∃ d, j = .obj d ∧ (k, v) ∈ d ∧ ∀ e ∈ d, e.1 = k → e.2 = v

/-- The object has no member `k`. -/
def Omits (j : Json) (k : Str) : Prop := ∃ d, j = .obj d ∧ ∀ e ∈ d, e.1 ≠ k

/-- A Go map: no key twice. -/
def IsMap (u : Fields) : Prop := (u.map Prod.fst).Nodup

/-- The unrecognised fields are a map without the recognised names. -/
def Fresh (names : List Str) (u : Fields) : Prop := IsMap u ∧ ∀ n ∈ names, u.get? n = none

structure FreshKey (a : Key) : Prop where
  fields : Fresh [b!"keytype", b!"scheme", b!"keyval"] a.unrec
  value : Fresh [b!"public"] a.value.unrec

structure FreshDelegations (a : Delegations) : Prop where
  fields : Fresh [b!"keys", b!"roles", b!"succinct_roles"] a.unrec
  keys : ∀ k x, a.keys.get? k = some (some x) → FreshKey x
  roles : ∀ r ∈ a.roles.elems, Fresh [b!"name", b!"keyids", b!"threshold", b!"terminating", b!"path_hash_prefixes", b!"paths"] r.unrec
  succinct : ∀ s, a.succinctRoles = some s → Fresh [b!"keyids", b!"threshold", b!"bit_length", b!"name_prefix"] s.unrec

structure FreshRoot (a : RootType) : Prop where
  fields : Fresh [b!"_type", b!"spec_version", b!"consistent_snapshot", b!"version", b!"expires", b!"keys", b!"roles"] a.unrec
  keys : ∀ k x, a.keys.get? k = some (some x) → FreshKey x
  roles : ∀ k x, a.roles.get? k = some (some x) → Fresh [b!"keyids", b!"threshold"] x.unrec

structure FreshSnapshot (a : SnapshotType) : Prop where
  fields : Fresh [b!"_type", b!"spec_version", b!"version", b!"expires", b!"meta"] a.unrec
  metas : ∀ k x, a.metas.get? k = some (some x) → Fresh [b!"length", b!"hashes", b!"version"] x.unrec

structure FreshTimestamp (a : TimestampType) : Prop where
  fields : Fresh [b!"_type", b!"spec_version", b!"version", b!"expires", b!"meta"] a.unrec
  metas : ∀ k x, a.metas.get? k = some (some x) → Fresh [b!"length", b!"hashes", b!"version"] x.unrec

structure FreshTargets (a : TargetsType) : Prop where
  fields : Fresh [b!"_type", b!"spec_version", b!"version", b!"expires", b!"targets", b!"delegations"] a.unrec
  targets : ∀ k x, a.targets.get? k = some (some x) → Fresh [b!"length", b!"hashes", b!"custom"] x.unrec
  delegations : ∀ d, a.delegations = some d → FreshDelegations d

/-- The whole document. -/
structure FreshDocument {T : Type} (P : T → Prop) (m : Metadata T) : Prop where
  fields : Fresh [b!"signed", b!"signatures"] m.unrec
  signed : P m.signed
  signatures : ∀ s ∈ m.signatures.elems, Fresh [b!"keyid", b!"sig"] s.unrec

/-! ## Metadata that was read -/

/-- FromBytes returned this value for some document. -/
inductive ReadFrom (env : Env) : AnyMeta → Prop
  | root {d m} : fromBytes (T := RootType) env d = .ok m → ReadFrom env (.root m)
  | snapshot {d m} : fromBytes (T := SnapshotType) env d = .ok m → ReadFrom env (.snapshot m)
  | timestamp {d m} : fromBytes (T := TimestampType) env d = .ok m → ReadFrom env (.timestamp m)
  | targets {d m} : fromBytes (T := TargetsType) env d = .ok m → ReadFrom env (.targets m)

/-- What is signed. -/
def payloadOf : AnyMeta → Res Bytes
  | .root m => payload m.signed
  | .snapshot m => payload m.signed
  | .timestamp m => payload m.signed
  | .targets m => payload m.signed
  | .other => .panic

/-- The field `Type`. -/
def typeField : AnyMeta → Str
  | .root m => m.signed.type
  | .snapshot m => m.signed.type
  | .timestamp m => m.signed.type
  | .targets m => m.signed.type
  | .other => []

/-- The role type as which it was read. -/
def kind : AnyMeta → Str
  | .root _ => b!"root"
  | .snapshot _ => b!"snapshot"
  | .timestamp _ => b!"timestamp"
  | .targets _ => b!"targets"
  | .other => []

/-- The unrecognised fields of the document. -/
def documentUnrec : AnyMeta → Fields
  | .root m => m.unrec
  | .snapshot m => m.unrec
  | .timestamp m => m.unrec
  | .targets m => m.unrec
  | .other => []

/-- The unrecognised fields of the signed part. -/
def signedUnrec : AnyMeta → Fields
  | .root m => m.signed.unrec
  | .snapshot m => m.signed.unrec
  | .timestamp m => m.signed.unrec
  | .targets m => m.signed.unrec
  | .other => []

end Tuf.Spec
