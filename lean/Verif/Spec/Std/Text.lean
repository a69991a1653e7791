import Verif.Model.Marshal
import Verif.Spec.Std.JsonText

/-! # Metadata that can be written as text

All strings are UTF-8, literals are literals, and nothing is nested too deeply. `d` levels are left below the deepest level that the metadata format itself needs. -/

namespace Tuf.Spec
open Tuf Tuf.Std

/-- Members of an object that may be `d` levels deep. -/
def FieldsText (d : Nat) (m : List (Str × Json)) : Prop := ∀ e ∈ m, Utf8 e.1 ∧ Writable d e.2

/-- A map from strings. -/
def MapText {α : Type} (P : α → Prop) (m : GoMap α) : Prop := ∀ e ∈ m.entries, Utf8 e.1 ∧ P e.2

/-- What a pointer points to. -/
def PtrText {α : Type} (P : α → Prop) (p : Option α) : Prop := ∀ a, p = some a → P a

def SliceText {α : Type} (P : α → Prop) (s : Slice α) : Prop := ∀ a ∈ s.elems, P a

structure KeyValText (d : Nat) (a : KeyVal) : Prop where
  publicKey : Utf8 a.publicKey
  fields : FieldsText d a.unrec

structure KeyText (d : Nat) (a : Key) : Prop where
  type : Utf8 a.type
  scheme : Utf8 a.scheme
  value : KeyValText d a.value
  fields : FieldsText (d + 1) a.unrec

structure RoleText (d : Nat) (a : Role) : Prop where
  keyIDs : SliceText Utf8 a.keyIDs
  fields : FieldsText (d + 1) a.unrec

structure MetaText (d : Nat) (a : MetaFiles) : Prop where
  hashes : MapText (fun _ => True) a.hashes
  fields : FieldsText (d + 1) a.unrec

structure TargetText (d : Nat) (a : TargetFiles) : Prop where
  hashes : MapText (fun _ => True) a.hashes
  custom : PtrText (Writable (d + 1)) a.custom
  fields : FieldsText (d + 1) a.unrec

structure DelegatedText (d : Nat) (a : DelegatedRole) : Prop where
  name : Utf8 a.name
  keyIDs : SliceText Utf8 a.keyIDs
  prefixes : SliceText Utf8 a.pathHashPrefixes
  paths : SliceText Utf8 a.paths
  fields : FieldsText (d + 1) a.unrec

structure SuccinctText (d : Nat) (a : SuccinctRoles) : Prop where
  keyIDs : SliceText Utf8 a.keyIDs
  namePrefix : Utf8 a.namePrefix
  fields : FieldsText (d + 1) a.unrec

structure DelegationsText (d : Nat) (a : Delegations) : Prop where
  keys : MapText (PtrText (KeyText d)) a.keys
  roles : SliceText (DelegatedText d) a.roles
  succinct : PtrText (SuccinctText (d + 1)) a.succinctRoles
  fields : FieldsText (d + 3) a.unrec

structure SignatureText (d : Nat) (a : Signature) : Prop where
  keyID : Utf8 a.keyID
  fields : FieldsText d a.unrec

structure RootText (d : Nat) (a : RootType) : Prop where
  type : Utf8 a.type
  spec : Utf8 a.specVersion
  expires : Utf8 a.expires.text
  keys : MapText (PtrText (KeyText (d + 1))) a.keys
  roles : MapText (PtrText (RoleText (d + 1))) a.roles
  fields : FieldsText (d + 4) a.unrec

structure SnapshotText (d : Nat) (a : SnapshotType) : Prop where
  type : Utf8 a.type
  spec : Utf8 a.specVersion
  expires : Utf8 a.expires.text
  metas : MapText (PtrText (MetaText (d + 1))) a.metas
  fields : FieldsText (d + 4) a.unrec

structure TimestampText (d : Nat) (a : TimestampType) : Prop where
  type : Utf8 a.type
  spec : Utf8 a.specVersion
  expires : Utf8 a.expires.text
  metas : MapText (PtrText (MetaText (d + 1))) a.metas
  fields : FieldsText (d + 4) a.unrec

structure TargetsText (d : Nat) (a : TargetsType) : Prop where
  type : Utf8 a.type
  spec : Utf8 a.specVersion
  expires : Utf8 a.expires.text
  targets : MapText (PtrText (TargetText (d + 1))) a.targets
  delegations : PtrText (DelegationsText d) a.delegations
  fields : FieldsText (d + 4) a.unrec

/-- A whole document; `P d` is one of the four above. -/
structure DocumentText {T : Type} (P : Nat → T → Prop) (d : Nat) (m : Metadata T) : Prop where
  signed : P d m.signed
  signatures : SliceText (SignatureText (d + 3)) m.signatures
  fields : FieldsText (d + 5) m.unrec

/-- Times and numbers of the standard library are printed as UTF-8 and as literals; the JSON text syntax is that of `Std`. -/
structure TextEnv (env : Env) : Prop where
  parse : env.parse = parseJson
  print : env.print = printJson
  anyLit : ∀ l l', env.anyNum l = some (.inr l') → FracLit l'
  timeText : ∀ s t, env.parseTime s = some t → Utf8 t.text

end Tuf.Spec
