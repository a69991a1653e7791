import Verif.Spec.Delegation
import Verif.Spec.Spelling

/-!
# Specification of documents

What a JSON document says, independently of how it is decoded.
-/

namespace Tuf.Spec
open Tuf

/-- The last member of the object with exactly this key. -/
def LastMember (m : List (Str × Json)) (k : Str) (j : Json) : Prop :=
  ∃ pre post, m = pre ++ (k, j) :: post ∧ ∀ e ∈ post, e.1 ≠ k

/-- A string with this value, whatever its spelling. -/
def IsText (j : Json) (s : Str) : Prop := j = .str s ∨ ∃ raw, j = .esc raw s

/-- An integer literal of this value; `-0` is one, too. -/
def IsNumber (j : Json) (n : Int) : Prop := j = .num n ∨ (j = .frac b!"-0" ∧ n = 0)

/-- The last member named `k` is a string of value `s`. -/
def LastText (m : List (Str × Json)) (k s : Str) : Prop := ∃ j, LastMember m k j ∧ IsText j s

/-- The document declares the type: its (last) member `signed` is an object whose (last) member `_type` is this string. -/
def Declares (j : Json) (type : Str) : Prop :=
  ∃ m s, j = .obj m ∧ LastMember m b!"signed" (.obj s) ∧ LastText s b!"_type" type

/-- Every number of the document is in the range of float64. -/
def NumbersFit (env : Env) (j : Json) : Prop := (Json.toAny env.anyNum j).isSome

/-- No member of the object has a different spelling of the name. -/
def SpelledExactly (m : List (Str × Json)) (name : Str) : Prop := ∀ e ∈ m, Spelled name e.1 → e.1 = name

end Tuf.Spec

namespace Tuf.Spec
open Tuf

/-- No entry of the map is a nil pointer (JSON `null`). -/
def NoNil {α : Type} (m : GoMap (Option α)) : Prop := ∀ e ∈ m.entries, e.2.isSome

/-- The keys are not `null`, and the Ed25519 keys have 32 bytes. -/
def SolidKeys (keys : GoMap (Option Key)) : Prop := NoNil keys ∧ ∀ id k, keys.get? id = some (some k) → ¬ WrongLength k

/-- Root metadata without `null` keys and roles and without Ed25519 keys of a wrong length. -/
def SolidRoot (m : Metadata RootType) : Prop := SolidKeys m.signed.keys ∧ NoNil m.signed.roles

/-- Targets metadata without `null` delegation keys and Ed25519 keys of a wrong length. -/
def SolidTargets (m : Metadata TargetsType) : Prop := ∀ d, m.signed.delegations = some d → SolidKeys d.keys

/-- A timestamp that lists the snapshot. -/
def SolidTimestamp (m : Metadata TimestampType) : Prop := ∃ f, m.signed.metas.get? b!"snapshot.json" = some (some f)

/-- Snapshot metadata without `null` entries. -/
def SolidSnapshot (m : Metadata SnapshotType) : Prop := NoNil m.signed.metas

/-- A targets document has a `null` target: some spelling of `signed` has a spelling of `targets` with a `null` entry. -/
def HasNullTarget (j : Json) : Prop :=
  ∃ m k s k' ts name, j = .obj m ∧ (k, .obj s) ∈ m ∧ Spelled b!"signed" k ∧ (k', .obj ts) ∈ s ∧ Spelled b!"targets" k' ∧
    (name, .null) ∈ ts

end Tuf.Spec
