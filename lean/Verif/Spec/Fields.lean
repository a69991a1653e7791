import Verif.Spec.Document

/-! # What the members of a document say -/

namespace Tuf.Spec
open Tuf

/-- The member is `null`, or the integer `v` in int64's range. -/
def SaysInt (j : Json) (v : Int) : Prop := j = .null ∨ (IsNumber j v ∧ inInt64 v = true)

/-- The member is `null`, or the string `v`. -/
def SaysText (j : Json) (v : Str) : Prop := j = .null ∨ IsText j v

/-- The member is `null`, or a string without escapes that is read as the time `v`. -/
def SaysTime (env : Env) (j : Json) (v : Time) : Prop := j = .null ∨ ∃ s, j = .str s ∧ env.parseTime s = some v

/-- The object has no member of this name, in any spelling. -/
def Unmentioned (s : List (Str × Json)) (name : Str) : Prop := ∀ e ∈ s, ¬ Spelled name e.1

/-- Version, specification version and expiry date are those the last members of the object state, in whatever spelling, or Go's zero values where the object does not mention them. -/
structure StatedIn (env : Env) (s : List (Str × Json)) (v : Int) (sv : Str) (e : Time) : Prop where
  version : ∀ j, LastSpelled s b!"version" j → SaysInt j v
  specVersion : ∀ j, LastSpelled s b!"spec_version" j → SaysText j sv
  expires : ∀ j, LastSpelled s b!"expires" j → SaysTime env j e
  noVersion : Unmentioned s b!"version" → v = 0
  noSpecVersion : Unmentioned s b!"spec_version" → sv = []
  noExpires : Unmentioned s b!"expires" → e = Time.zero

/-- The same for the object that is signed in a document: the last one, in whatever spelling. It can also be `null` (if an earlier one is not), and then all three are Go's zero values. -/
def Stated (env : Env) (data : Bytes) (version : Int) (specVersion : Str) (expires : Time) : Prop :=
  ∃ doc j, env.parse data = some (.obj doc) ∧ LastSpelled doc b!"signed" j ∧
    ((∃ s, j = .obj s ∧ StatedIn env s version specVersion expires) ∨ (j = .null ∧ version = 0 ∧ specVersion = [] ∧ expires = Time.zero))

end Tuf.Spec
