import Verif.Spec.Document
import Verif.Model.Metadata

/-! # Specification of what can be signed

The signed text is canonical JSON, which only has integers. -/

namespace Tuf.Spec
open Tuf

/-- All numbers in the value are integers that fit 64 bits (of members with the same name only the last one counts). -/
inductive Whole : Json → Prop
  | null : Whole .null
  | bool {b : Bool} : Whole (.bool b)
  | num {n : Int} : -(2 ^ 63) ≤ n → n < 2 ^ 63 → Whole (.num n)
  | negZero : Whole (.frac b!"-0")
  | str {s : Str} : Whole (.str s)
  | esc {raw s : Str} : Whole (.esc raw s)
  | arr {l : List Json} : (∀ j ∈ l, Whole j) → Whole (.arr l)
  | obj {m : List (Str × Json)} : (∀ k v, LastMember m k v → Whole v) → Whole (.obj m)

/-- The unrecognised fields of an object. -/
def WholeFields (u : Fields) : Prop := ∀ e ∈ u, Whole e.2

/-- The values of a map. -/
def WholeMap {α : Type} (P : α → Prop) (m : GoMap (Option α)) : Prop := ∀ e ∈ m.entries, ∀ a, e.2 = some a → P a

def WholeKey (a : Key) : Prop := WholeFields a.unrec ∧ WholeFields a.value.unrec
def WholeRole (a : Role) : Prop := WholeFields a.unrec
def WholeMeta (a : MetaFiles) : Prop := WholeFields a.unrec
def WholeTarget (a : TargetFiles) : Prop := WholeFields a.unrec ∧ ∀ c, a.custom = some c → Whole c
def WholeDelegations (a : Delegations) : Prop :=
  WholeFields a.unrec ∧ WholeMap WholeKey a.keys ∧ (∀ r ∈ a.roles.elems, WholeFields r.unrec) ∧ ∀ s, a.succinctRoles = some s → WholeFields s.unrec

/-- The unrecognised fields, at all levels, and `custom` have only integers. -/
def WholeRoot (a : RootType) : Prop := WholeFields a.unrec ∧ WholeMap WholeKey a.keys ∧ WholeMap WholeRole a.roles
def WholeSnapshot (a : SnapshotType) : Prop := WholeFields a.unrec ∧ WholeMap WholeMeta a.metas
def WholeTimestamp (a : TimestampType) : Prop := WholeFields a.unrec ∧ WholeMap WholeMeta a.metas
def WholeTargets (a : TargetsType) : Prop := WholeFields a.unrec ∧ WholeMap WholeTarget a.targets ∧ ∀ d, a.delegations = some d → WholeDelegations d

/-- The signer signs every message, and its public key is of a supported kind. -/
structure Works (env : Env) (s : Signer) : Prop where
  signs : ∀ p, ∃ sig, s.signMessage p = some sig
  key : ∃ pk key, s.publicKey = some pk ∧ keyFromPublicKey env pk = .ok key

end Tuf.Spec
