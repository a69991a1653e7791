import Verif.Spec.RoundTrip
import Verif.Spec.Document

/-!
# Specification of complete documents

A signed part as the TUF specification describes it: every object has all its mandatory members, each of the right shape, no member twice, no name in
other letter case, optional members only where they say something.
-/

namespace Tuf.Spec
open Tuf

/-- Reading the numbers in `v` as float64 loses nothing. -/
def Exact (env : Env) (v : Json) : Prop := Json.toAny env.anyNum v = Json.toAny some v

/-- The members of an object with mandatory, optional and unrecognised members. -/
structure Members (env : Env) (mandatory optional : List (Str × (Json → Prop))) (d : List (Str × Json)) : Prop where
  distinct : (d.map Prod.fst).Nodup
  present : ∀ f ∈ mandatory, ∃ v, (f.1, v) ∈ d ∧ f.2 v
  shaped : ∀ f ∈ optional, ∀ v, (f.1, v) ∈ d → f.2 v
  others : ∀ e ∈ d, e.1 ∉ (mandatory ++ optional).map Prod.fst → Exact env e.2 ∧ ∀ f ∈ mandatory ++ optional, ¬ Spelled f.1 e.1

def IsObj (env : Env) (mandatory optional : List (Str × (Json → Prop))) (j : Json) : Prop := ∃ d, j = .obj d ∧ Members env mandatory optional d
def IsStr (j : Json) : Prop := ∃ s, IsText j s
def IsInt (j : Json) : Prop := ∃ n, j = .num n
def IsBool (j : Json) : Prop := ∃ b, j = .bool b
def IsList (P : Json → Prop) (j : Json) : Prop := ∃ l, j = .arr l ∧ ∀ x ∈ l, P x
/-- An object with arbitrary but distinct names. -/
def IsDict (P : Json → Prop) (j : Json) : Prop := ∃ d, j = .obj d ∧ (d.map Prod.fst).Nodup ∧ ∀ e ∈ d, P e.2
/-- Bytes in lower case hex. -/
def IsHex (j : Json) : Prop := ∃ b, j = .str (hexEncode b)
/-- A time in the form in which it is printed. -/
def IsTime (env : Env) (j : Json) : Prop := ∃ s t, j = .str s ∧ env.parseTime s = some t ∧ t.text = s

def KeyDoc (env : Env) : Json → Prop :=
  IsObj env [(b!"keytype", IsStr), (b!"scheme", IsStr), (b!"keyval", IsObj env [(b!"public", IsStr)] [])] []

def RoleDoc (env : Env) : Json → Prop := IsObj env [(b!"keyids", IsList IsStr), (b!"threshold", IsInt)] []

/-- Length and hashes are optional but neither 0 nor empty. -/
def MetaDoc (env : Env) : Json → Prop :=
  IsObj env [(b!"version", IsInt)] [(b!"length", fun j => IsInt j ∧ j ≠ .num 0), (b!"hashes", fun j => IsDict IsHex j ∧ j ≠ .obj [])]

def TargetDoc (env : Env) : Json → Prop :=
  IsObj env [(b!"length", IsInt), (b!"hashes", IsDict IsHex)] [(b!"custom", fun j => j ≠ .null)]

/-- At most one kind of paths. -/
def DelegatedDoc (env : Env) (j : Json) : Prop :=
  IsObj env [(b!"name", IsStr), (b!"keyids", IsList IsStr), (b!"threshold", IsInt), (b!"terminating", IsBool)]
    [(b!"paths", IsList IsStr), (b!"path_hash_prefixes", IsList IsStr)] j ∧ (Omits j b!"paths" ∨ Omits j b!"path_hash_prefixes")

def SuccinctDoc (env : Env) : Json → Prop :=
  IsObj env [(b!"keyids", IsList IsStr), (b!"threshold", IsInt), (b!"bit_length", IsInt), (b!"name_prefix", IsStr)] []

/-- At most one kind of roles. -/
def DelegationsDoc (env : Env) (j : Json) : Prop :=
  IsObj env [(b!"keys", IsDict (KeyDoc env))] [(b!"roles", IsList (DelegatedDoc env)), (b!"succinct_roles", SuccinctDoc env)] j ∧
    (Omits j b!"roles" ∨ Omits j b!"succinct_roles")

def RootDoc (env : Env) : Json → Prop :=
  IsObj env [(b!"_type", IsStr), (b!"spec_version", IsStr), (b!"consistent_snapshot", IsBool), (b!"version", IsInt), (b!"expires", IsTime env),
    (b!"keys", IsDict (KeyDoc env)), (b!"roles", IsDict (RoleDoc env))] []

/-- Snapshot and timestamp. -/
def MetasDoc (env : Env) : Json → Prop :=
  IsObj env [(b!"_type", IsStr), (b!"spec_version", IsStr), (b!"version", IsInt), (b!"expires", IsTime env), (b!"meta", IsDict (MetaDoc env))] []

def TargetsDoc (env : Env) : Json → Prop :=
  IsObj env [(b!"_type", IsStr), (b!"spec_version", IsStr), (b!"version", IsInt), (b!"expires", IsTime env), (b!"targets", IsDict (TargetDoc env))]
    [(b!"delegations", DelegationsDoc env)]

end Tuf.Spec
