import Verif.Model.Json

/-! # Specification of the names that encoding/json takes for the name of a field -/

namespace Tuf.Spec
open Tuf

/-- A small letter may also be written as a capital letter, `k` as the Kelvin sign (U+212A) and `s` as the long s (U+017F). -/
inductive LetterSpelled : UInt8 → Str → Prop
  | same {c : UInt8} : LetterSpelled c [c]
  | capital {c : UInt8} : 97 ≤ c.toNat → c.toNat ≤ 122 → LetterSpelled c [c - 32]
  | kelvin : LetterSpelled 107 [0xE2, 0x84, 0xAA]
  | longS : LetterSpelled 115 [0xC5, 0xBF]

/-- `Spelled name key`: the key is a spelling of the name. -/
inductive Spelled : Str → Str → Prop
  | nil : Spelled [] []
  | cons {c : UInt8} {l name key : Str} : LetterSpelled c l → Spelled name key → Spelled (c :: name) (l ++ key)

/-- Names of small letters and underscores, as all names of fields are. -/
abbrev SimpleName (name : Str) : Prop := ∀ c ∈ name, c = 95 ∨ (97 ≤ c.toNat ∧ c.toNat ≤ 122)

/-- The last member of the object whose key is a spelling of the name. -/
def LastSpelled (m : List (Str × Json)) (name : Str) (j : Json) : Prop :=
  ∃ pre key post, m = pre ++ (key, j) :: post ∧ Spelled name key ∧ ∀ e ∈ post, ¬ Spelled name e.1

end Tuf.Spec
