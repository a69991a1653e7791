import Verif.Spec.Document
import Verif.Spec.Spelling

/-! # Documents that differ in the spelling of strings only -/

namespace Tuf.Spec
open Tuf

/-- How the spellings may differ: in any way (`any`); in such a way that the second is the one without escape sequences (`plain`); in any way, but not in times, hashes and
signatures (`outside`). -/
inductive Difference
  | any
  | plain
  | outside

/-- The members with times, hashes and signatures. -/
def rawMembers : List Str := [b!"expires", b!"hashes", b!"sig"]

mutual
/-- The same value: strings are compared without regard to escape sequences. -/
inductive SameValue (d : Difference) : Json → Json → Prop
  | null : SameValue d .null .null
  | bool (b : Bool) : SameValue d (.bool b) (.bool b)
  | num (n : Int) : SameValue d (.num n) (.num n)
  | frac (l : Str) : SameValue d (.frac l) (.frac l)
  | text {j j' : Json} {s : Str} : IsText j s → IsText j' s → (d = .plain → j = j' ∨ j' = .str s) → SameValue d j j'
  | arr {l l' : List Json} : SameElements d l l' → SameValue d (.arr l) (.arr l')
  | obj {m m' : List (Str × Json)} : SameMembers d m m' → SameValue d (.obj m) (.obj m')
inductive SameElements (d : Difference) : List Json → List Json → Prop
  | nil : SameElements d [] []
  | cons {j j' : Json} {l l' : List Json} : SameValue d j j' → SameElements d l l' → SameElements d (j :: l) (j' :: l')
inductive SameMembers (d : Difference) : List (Str × Json) → List (Str × Json) → Prop
  | nil : SameMembers d [] []
  | cons {k : Str} {j j' : Json} {m m' : List (Str × Json)} : SameValue d j j' → (d = .outside → (∃ name ∈ rawMembers, Spelled name k) → j = j') → SameMembers d m m' →
      SameMembers d ((k, j) :: m) ((k, j') :: m')
end

/-- Both are absent, or both are present and related. -/
inductive OptionRel {α : Type} (R : α → α → Prop) : Option α → Option α → Prop
  | none : OptionRel R none none
  | some {a a' : α} : R a a' → OptionRel R (some a) (some a')

/-- The same keys with related values. -/
inductive EntriesRel {α : Type} (R : α → α → Prop) : Entries α → Entries α → Prop
  | nil : EntriesRel R [] []
  | cons {k : Str} {a a' : α} {es es' : Entries α} : R a a' → EntriesRel R es es' → EntriesRel R ((k, a) :: es) ((k, a') :: es')

/-- The same target but for the spelling of strings in `custom`, which is kept as it is. -/
structure SameTarget (d : Difference) (t t' : TargetFiles) : Prop where
  length : t.length = t'.length
  hashes : t.hashes = t'.hashes
  custom : OptionRel (SameValue d) t.custom t'.custom
  path : t.path = t'.path
  unrec : t.unrec = t'.unrec

/-- The same targets metadata but for that. -/
structure SameTargets (d : Difference) (a a' : TargetsType) : Prop where
  type : a.type = a'.type
  specVersion : a.specVersion = a'.specVersion
  version : a.version = a'.version
  expires : a.expires = a'.expires
  targets : OptionRel (EntriesRel (OptionRel (SameTarget d))) a.targets a'.targets
  delegations : a.delegations = a'.delegations
  unrec : a.unrec = a'.unrec

/-- The same document but for that. -/
structure Respelled {T : Type} (R : T → T → Prop) (m m' : Metadata T) : Prop where
  signed : R m.signed m'.signed
  signatures : m.signatures = m'.signatures
  unrec : m.unrec = m'.unrec

/-- Alike: both give related values, or both crash, or both fail for the same reason. The first may be refused by the decoder unless the difference is outside of times,
hashes and signatures, the second only if the difference is arbitrary. -/
inductive Alike (d : Difference) {α : Type} (R : α → α → Prop) : Res α → Res α → Prop
  | ok {a a' : α} : R a a' → Alike d R (.ok a) (.ok a')
  | err (e : Err) : Alike d R (.err e) (.err e)
  | panic : Alike d R .panic .panic
  | left (r : Res α) : d ≠ .outside → Alike d R (.err jsonErr) r
  | right (r : Res α) : d = .any → Alike d R r (.err jsonErr)

end Tuf.Spec
