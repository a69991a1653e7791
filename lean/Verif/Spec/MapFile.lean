import Verif.Spec.Fields
import Verif.Spec.Small
import Verif.Model.MultiRepo

/-! # What a map file says (TAP 4) -/

namespace Tuf.Spec
open Tuf

/-- The object has exactly one member whose key is a spelling of the name. -/
def Once (m : List (Str × Json)) (name : Str) (j : Json) : Prop :=
  ∃ pre key post, m = pre ++ (key, j) :: post ∧ Spelled name key ∧ Unmentioned (pre ++ post) name

/-- `v` is what the object says about `name`, read by `R`; `zero` if it says nothing. It must not speak twice. -/
def Says {α : Type} (R : Json → α → Prop) (zero : α) (m : List (Str × Json)) (name : Str) (v : α) : Prop :=
  (Unmentioned m name ∧ v = zero) ∨ ∃ j, Once m name j ∧ R j v

/-- A text; `null` is the empty one. -/
def TextAs (j : Json) (s : Str) : Prop := IsText j s ∨ (j = .null ∧ s = [])

/-- An integer of 64 bits; `null` is 0. -/
def IntAs (j : Json) (n : Int) : Prop := (IsNumber j n ∧ inInt64 n = true) ∨ (j = .null ∧ n = 0)

/-- A truth value; `null` is false. -/
def BoolAs (j : Json) (b : Bool) : Prop := j = .bool b ∨ (j = .null ∧ b = false)

/-- Element by element. -/
inductive EachAs {α : Type} (R : Json → α → Prop) : List Json → List α → Prop
  | nil : EachAs R [] []
  | cons {j : Json} {a : α} {l : List Json} {v : List α} : R j a → EachAs R l v → EachAs R (j :: l) (a :: v)

/-- An array; `null` is the nil slice. -/
inductive ListAs {α : Type} (R : Json → α → Prop) : Json → Slice α → Prop
  | null : ListAs R .null none
  | arr {l : List Json} {v : List α} : EachAs R l v → ListAs R (.arr l) (some v)

/-- One mapping; `null` is a nil pointer. -/
inductive MappingAs : Json → Option Mapping → Prop
  | null : MappingAs .null none
  | obj {m : List (Str × Json)} {p : Mapping} : Says (ListAs TextAs) none m b!"paths" p.paths → Says (ListAs TextAs) none m b!"repositories" p.repositories →
      Says IntAs 0 m b!"threshold" p.threshold → Says BoolAs false m b!"terminating" p.terminating → MappingAs (.obj m) (some p)

/-- The URLs of the repositories: every member has a list of texts, and of several members with the same name the last one counts. -/
inductive UrlsAs : Json → GoMap (Slice Str) → Prop
  | null : UrlsAs .null none
  | obj {m : List (Str × Json)} {es : Entries (Slice Str)} : (∀ e ∈ m, ∃ v, ListAs TextAs e.2 v) →
      (∀ repo v, es.get? repo = some v ↔ ∃ j, LastMember m repo j ∧ ListAs TextAs j v) → UniqueKeys (some es : GoMap (Slice Str)) → UrlsAs (.obj m) (some es)

/-- What the map file says. -/
inductive MapAs : Json → RepoMap → Prop
  | obj {m : List (Str × Json)} {p : RepoMap} : Says UrlsAs none m b!"repositories" p.repositories → Says (ListAs MappingAs) none m b!"mapping" p.mapping → MapAs (.obj m) p

/-- The object mentions none of the names twice. -/
def Plain (names : List Str) (m : List (Str × Json)) : Prop := ∀ n ∈ names, Unmentioned m n ∨ ∃ j, Once m n j

/-- No member of the map file that matters occurs twice. -/
def PlainMap (j : Json) : Prop :=
  ∀ m, j = .obj m → Plain [b!"repositories", b!"mapping"] m ∧
    ∀ e ∈ m, Spelled b!"mapping" e.1 → ∀ l, e.2 = .arr l → ∀ o, .obj o ∈ l → Plain [b!"paths", b!"repositories", b!"threshold", b!"terminating"] o

/-- One mapping if members may be repeated: the last one counts wherever it says something; `null` says nothing about texts, numbers and truth values. -/
inductive MappingLast : Json → Option Mapping → Prop
  | null : MappingLast .null none
  | obj {m : List (Str × Json)} {p : Mapping} : (∀ j, LastSpelled m b!"paths" j → ListAs SaysText j p.paths) → (∀ j, LastSpelled m b!"repositories" j → ListAs SaysText j p.repositories) →
      (∀ j, LastSpelled m b!"threshold" j → SaysInt j p.threshold) → (∀ j, LastSpelled m b!"terminating" j → j = .null ∨ j = .bool p.terminating) → MappingLast (.obj m) (some p)

/-- Every repository that the map names has a root. -/
def Rooted (m : RepoMap) (roots : Entries Bytes) : Prop := ∀ repo, (m.repositories.get? repo).isSome → (roots.get? repo).isSome

end Tuf.Spec
