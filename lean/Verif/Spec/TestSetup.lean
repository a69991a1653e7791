import Verif.Model.TestSetup

/-! # Specification of the folders of tests -/

namespace Tuf.Spec
open Tuf

/-- `a` is `p`, as an absolute path. -/
def AbsoluteOf (h : Host) (p a : Str) : Prop := p.head? = some 47 ∧ a = cleanPath p ∨ ∃ tr cwd, h.cwd tr = some cwd ∧ a = joinPath cwd p

/-- The file is below the folder. -/
def Below (dir p : Str) : Prop := dir ++ b!"/" <+: p

/-- All entries of the folder `a` were copied to `b`. -/
def Copied (readDir : List Event → Str → Option (List Str)) (fs fs' : FS) (a b : Str) : Prop :=
  ∃ tr names, readDir tr a = some names ∧ ∀ n ∈ names, ∃ d, fs (a ++ b!"/" ++ n) = some d ∧ fs' (b ++ b!"/" ++ n) = some d

end Tuf.Spec
