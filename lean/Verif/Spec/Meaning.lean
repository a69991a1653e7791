import Verif.Spec.MapFile
import Verif.Spec.Document
import Verif.Proofs.Sorted

/-!
# What metadata documents say

For documents that mention no member of an object twice (in whatever spellings); entries of maps, as of the targets, may be repeated.
-/

namespace Tuf.Spec
open Tuf

/-- A time; `null` is Go's zero time. -/
def TimeAs (env : Env) (j : Json) (t : Time) : Prop := (∃ s, j = .str s ∧ env.parseTime s = some t) ∨ (j = .null ∧ t = Time.zero)

/-- Bytes in hex digits, none of them escaped. -/
def HexAs (j : Json) (b : Bytes) : Prop := ∃ s, j = .str s ∧ HexPairs s b

/-- A pointer; `null` is nil. -/
def PtrAs {α : Type} (R : Json → α → Prop) (j : Json) (p : Option α) : Prop := (j = .null ∧ p = none) ∨ (j ≠ .null ∧ ∃ a, R j a ∧ p = some a)

/-- An object; `null` is an empty one. -/
def ObjAs {α : Type} (P : List (Str × Json) → α → Prop) (zero : α) (j : Json) (a : α) : Prop := (∃ m, j = .obj m ∧ P m a) ∨ (j = .null ∧ a = zero)

/-- A map; every member must be readable, and of several members with the same name the last one counts. `null` is the nil map. -/
def MapOf {α : Type} (R : Str → Json → α → Prop) (j : Json) (g : GoMap α) : Prop :=
  (j = .null ∧ g = none) ∨ ∃ m es, j = .obj m ∧ g = some es ∧ (∀ e ∈ m, ∃ v, R e.1 e.2 v) ∧ (∀ k v, es.get? k = some v ↔ ∃ i, LastMember m k i ∧ R k i v) ∧ Entries.Sorted es

/-- The unrecognised members: all that are not named exactly like a recognised one, decoded as `any`; every number of the object must be in float64's range. -/
def OthersAs (env : Env) (names : List Str) (m : List (Str × Json)) (u : Fields) : Prop :=
  (∀ e ∈ m, NumbersFit env e.2) ∧ (∀ k v, u.get? k = some v ↔ k ∉ names ∧ ∃ j, LastMember m k j ∧ Json.toAny env.anyNum j = some v) ∧ Entries.Sorted u

/-! ## The parts of documents -/

structure KeyValAs (env : Env) (m : List (Str × Json)) (a : KeyVal) : Prop where
  publicKey : Says TextAs [] m b!"public" a.publicKey
  others : OthersAs env [b!"public"] m a.unrec

structure KeyAs (env : Env) (m : List (Str × Json)) (a : Key) : Prop where
  type : Says TextAs [] m b!"keytype" a.type
  scheme : Says TextAs [] m b!"scheme" a.scheme
  value : Says (ObjAs (KeyValAs env) {}) {} m b!"keyval" a.value
  others : OthersAs env [b!"keytype", b!"scheme", b!"keyval"] m a.unrec
  id : a.id = []

structure RoleAs (env : Env) (m : List (Str × Json)) (a : Role) : Prop where
  keyIDs : Says (ListAs TextAs) none m b!"keyids" a.keyIDs
  threshold : Says IntAs 0 m b!"threshold" a.threshold
  others : OthersAs env [b!"keyids", b!"threshold"] m a.unrec

structure MetaFilesAs (env : Env) (m : List (Str × Json)) (a : MetaFiles) : Prop where
  length : Says IntAs 0 m b!"length" a.length
  hashes : Says (MapOf fun _ => HexAs) none m b!"hashes" a.hashes
  version : Says IntAs 0 m b!"version" a.version
  others : OthersAs env [b!"length", b!"hashes", b!"version"] m a.unrec

/-- The path is not in the object. -/
structure TargetFilesAs (env : Env) (path : Str) (m : List (Str × Json)) (a : TargetFiles) : Prop where
  length : Says IntAs 0 m b!"length" a.length
  hashes : Says (MapOf fun _ => HexAs) none m b!"hashes" a.hashes
  custom : Says (PtrAs fun j c => c = j) none m b!"custom" a.custom
  others : OthersAs env [b!"length", b!"hashes", b!"custom"] m a.unrec
  path : a.path = path

structure DelegatedRoleAs (env : Env) (m : List (Str × Json)) (a : DelegatedRole) : Prop where
  name : Says TextAs [] m b!"name" a.name
  keyIDs : Says (ListAs TextAs) none m b!"keyids" a.keyIDs
  threshold : Says IntAs 0 m b!"threshold" a.threshold
  terminating : Says BoolAs false m b!"terminating" a.terminating
  prefixes : Says (ListAs TextAs) none m b!"path_hash_prefixes" a.pathHashPrefixes
  paths : Says (ListAs TextAs) none m b!"paths" a.paths
  others : OthersAs env [b!"name", b!"keyids", b!"threshold", b!"terminating", b!"path_hash_prefixes", b!"paths"] m a.unrec

structure SuccinctRolesAs (env : Env) (m : List (Str × Json)) (a : SuccinctRoles) : Prop where
  keyIDs : Says (ListAs TextAs) none m b!"keyids" a.keyIDs
  threshold : Says IntAs 0 m b!"threshold" a.threshold
  bitLength : Says IntAs 0 m b!"bit_length" a.bitLength
  namePrefix : Says TextAs [] m b!"name_prefix" a.namePrefix
  others : OthersAs env [b!"keyids", b!"threshold", b!"bit_length", b!"name_prefix"] m a.unrec

/-- A map of keys. -/
def KeysAs (env : Env) : Json → GoMap (Option Key) → Prop := MapOf fun _ => PtrAs (ObjAs (KeyAs env) {})

structure DelegationsAs (env : Env) (m : List (Str × Json)) (a : Delegations) : Prop where
  keys : Says (KeysAs env) none m b!"keys" a.keys
  roles : Says (ListAs (ObjAs (DelegatedRoleAs env) {})) none m b!"roles" a.roles
  succinct : Says (PtrAs (ObjAs (SuccinctRolesAs env) {})) none m b!"succinct_roles" a.succinctRoles
  others : OthersAs env [b!"keys", b!"roles", b!"succinct_roles"] m a.unrec

structure SignatureAs (env : Env) (m : List (Str × Json)) (a : Signature) : Prop where
  keyID : Says TextAs [] m b!"keyid" a.keyID
  sig : Says HexAs [] m b!"sig" a.sig
  others : OthersAs env [b!"keyid", b!"sig"] m a.unrec

/-! ## The four types -/

structure RootAs (env : Env) (m : List (Str × Json)) (a : RootType) : Prop where
  type : Says TextAs [] m b!"_type" a.type
  specVersion : Says TextAs [] m b!"spec_version" a.specVersion
  consistentSnapshot : Says BoolAs false m b!"consistent_snapshot" a.consistentSnapshot
  version : Says IntAs 0 m b!"version" a.version
  expires : Says (TimeAs env) Time.zero m b!"expires" a.expires
  keys : Says (KeysAs env) none m b!"keys" a.keys
  roles : Says (MapOf fun _ => PtrAs (ObjAs (RoleAs env) {})) none m b!"roles" a.roles
  others : OthersAs env [b!"_type", b!"spec_version", b!"consistent_snapshot", b!"version", b!"expires", b!"keys", b!"roles"] m a.unrec

/-- A map of listed files. -/
def MetasAs (env : Env) : Json → GoMap (Option MetaFiles) → Prop := MapOf fun _ => PtrAs (ObjAs (MetaFilesAs env) {})

structure SnapshotAs (env : Env) (m : List (Str × Json)) (a : SnapshotType) : Prop where
  type : Says TextAs [] m b!"_type" a.type
  specVersion : Says TextAs [] m b!"spec_version" a.specVersion
  version : Says IntAs 0 m b!"version" a.version
  expires : Says (TimeAs env) Time.zero m b!"expires" a.expires
  metas : Says (MetasAs env) none m b!"meta" a.metas
  others : OthersAs env [b!"_type", b!"spec_version", b!"version", b!"expires", b!"meta"] m a.unrec

structure TimestampAs (env : Env) (m : List (Str × Json)) (a : TimestampType) : Prop where
  type : Says TextAs [] m b!"_type" a.type
  specVersion : Says TextAs [] m b!"spec_version" a.specVersion
  version : Says IntAs 0 m b!"version" a.version
  expires : Says (TimeAs env) Time.zero m b!"expires" a.expires
  metas : Says (MetasAs env) none m b!"meta" a.metas
  others : OthersAs env [b!"_type", b!"spec_version", b!"version", b!"expires", b!"meta"] m a.unrec

/-- The entry of a target: an object, not `null`; the path is the name of the entry. -/
def TargetAs (env : Env) (name : Str) (j : Json) (t : Option TargetFiles) : Prop := ∃ m f, j = .obj m ∧ t = some f ∧ TargetFilesAs env name m f

/-- The targets; an entry that is `null` must be followed by another of the same name. -/
def TargetMapAs (env : Env) (j : Json) (g : GoMap (Option TargetFiles)) : Prop :=
  (j = .null ∧ g = none) ∨ ∃ m es, j = .obj m ∧ g = some es ∧ (∀ e ∈ m, e.2 = .null ∨ ∃ t, TargetAs env e.1 e.2 t) ∧ (∀ k, ¬ LastMember m k .null) ∧
    (∀ k v, es.get? k = some v ↔ ∃ i, LastMember m k i ∧ TargetAs env k i v) ∧ Entries.Sorted es

structure TargetsAs (env : Env) (m : List (Str × Json)) (a : TargetsType) : Prop where
  type : Says TextAs [] m b!"_type" a.type
  specVersion : Says TextAs [] m b!"spec_version" a.specVersion
  version : Says IntAs 0 m b!"version" a.version
  expires : Says (TimeAs env) Time.zero m b!"expires" a.expires
  targets : Says (TargetMapAs env) none m b!"targets" a.targets
  delegations : Says (PtrAs (ObjAs (DelegationsAs env) {})) none m b!"delegations" a.delegations
  others : OthersAs env [b!"_type", b!"spec_version", b!"version", b!"expires", b!"targets", b!"delegations"] m a.unrec

/-- A document with a signed part that is read by `P`. -/
structure DocumentAs {T : Type} (env : Env) (P : List (Str × Json) → T → Prop) (zero : T) (m : List (Str × Json)) (a : Metadata T) : Prop where
  signed : Says (ObjAs P zero) zero m b!"signed" a.signed
  signatures : Says (ListAs (ObjAs (SignatureAs env) {})) none m b!"signatures" a.signatures
  others : OthersAs env [b!"signed", b!"signatures"] m a.unrec

/-! ## Documents that mention nothing twice -/

/-- Of the members of the object that are spellings of the name. -/
def AtField (m : List (Str × Json)) (name : Str) (Q : Json → Prop) : Prop := ∀ e ∈ m, Spelled name e.1 → Q e.2
/-- Of the members, if it is an object. -/
def ForObj (P : List (Str × Json) → Prop) (j : Json) : Prop := ∀ m, j = .obj m → P m
/-- Of every element, if it is an array. -/
def ForElems (Q : Json → Prop) (j : Json) : Prop := ∀ l, j = .arr l → ∀ i ∈ l, Q i
/-- Of the value of every member, if it is an object. -/
def ForEntries (Q : Json → Prop) : Json → Prop := ForObj fun m => ∀ e ∈ m, Q e.2

def SingleKeyVal : Json → Prop := ForObj (Plain [b!"public"])
def SingleKey : Json → Prop := ForObj fun m => Plain [b!"keytype", b!"scheme", b!"keyval"] m ∧ AtField m b!"keyval" SingleKeyVal
def SingleRole : Json → Prop := ForObj (Plain [b!"keyids", b!"threshold"])
def SingleMetaFiles : Json → Prop := ForObj (Plain [b!"length", b!"hashes", b!"version"])
def SingleTargetFiles : Json → Prop := ForObj (Plain [b!"length", b!"hashes", b!"custom"])
def SingleDelegatedRole : Json → Prop := ForObj (Plain [b!"name", b!"keyids", b!"threshold", b!"terminating", b!"path_hash_prefixes", b!"paths"])
def SingleSuccinctRoles : Json → Prop := ForObj (Plain [b!"keyids", b!"threshold", b!"bit_length", b!"name_prefix"])
def SingleDelegations : Json → Prop := ForObj fun m => Plain [b!"keys", b!"roles", b!"succinct_roles"] m ∧ AtField m b!"keys" (ForEntries SingleKey) ∧ AtField m b!"roles" (ForElems SingleDelegatedRole) ∧
  AtField m b!"succinct_roles" SingleSuccinctRoles
def SingleSignature : Json → Prop := ForObj (Plain [b!"keyid", b!"sig"])
def SingleRoot : Json → Prop := ForObj fun m => Plain [b!"_type", b!"spec_version", b!"consistent_snapshot", b!"version", b!"expires", b!"keys", b!"roles"] m ∧
  AtField m b!"keys" (ForEntries SingleKey) ∧ AtField m b!"roles" (ForEntries SingleRole)
def SingleSnapshot : Json → Prop := ForObj fun m => Plain [b!"_type", b!"spec_version", b!"version", b!"expires", b!"meta"] m ∧ AtField m b!"meta" (ForEntries SingleMetaFiles)
def SingleTimestamp : Json → Prop := ForObj fun m => Plain [b!"_type", b!"spec_version", b!"version", b!"expires", b!"meta"] m ∧ AtField m b!"meta" (ForEntries SingleMetaFiles)
def SingleTargets : Json → Prop := ForObj fun m => Plain [b!"_type", b!"spec_version", b!"version", b!"expires", b!"targets", b!"delegations"] m ∧
  AtField m b!"targets" (ForEntries SingleTargetFiles) ∧ AtField m b!"delegations" SingleDelegations
/-- A document whose signed part is plain, too. -/
def SingleDocument (Q : Json → Prop) : Json → Prop := ForObj fun m => Plain [b!"signed", b!"signatures"] m ∧ AtField m b!"signed" Q ∧ AtField m b!"signatures" (ForElems SingleSignature)

/-- No two signatures of the same key ID. -/
def OneEach (s : Slice Signature) : Prop := (s.elems.map (·.keyID)).Nodup

end Tuf.Spec
