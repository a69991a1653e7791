import Verif.Spec.Std.Url

/-! # Specification of queries and fragments of URLs -/

namespace Tuf.Spec
open Tuf

/-- A byte of a query: no control character and no `#`. -/
def QueryByte (c : UInt8) : Prop := 32 ≤ c.toNat ∧ c ≠ 127 ∧ c ≠ 35

/-- A byte of a fragment (RFC 3986, section 3.5), or one of `[]`. -/
def FragByte (c : UInt8) : Prop := unreserved c = true ∨ c ∈ b!"!$&'()*+,;=:@/?[]"

/-- A fragment: such bytes and escapes `%XY`. -/
inductive FragmentText : Str → Prop
  | nil : FragmentText []
  | byte {c : UInt8} {r : Str} : FragByte c → FragmentText r → FragmentText (c :: r)
  | escape {a b : UInt8} {r : Str} : EscDigit a → EscDigit b → FragmentText r → FragmentText (37 :: a :: b :: r)

/-- A query or a fragment or both at the end of a URL, and the same without an empty fragment. -/
inductive UrlTail : Str → Str → Prop
  | query {q : Str} : (∀ c ∈ q, QueryByte c) → UrlTail (63 :: q) (63 :: q)
  | fragment {f : Str} : FragmentText f → f ≠ [] → UrlTail (35 :: f) (35 :: f)
  | emptyFragment : UrlTail [35] []
  | both {q f : Str} : (∀ c ∈ q, QueryByte c) → FragmentText f → f ≠ [] → UrlTail (63 :: q ++ 35 :: f) (63 :: q ++ 35 :: f)

/-- What an HTTP client asks a server for, without the query: the URL up to the first `?` or `#` (RFC 3986, section 3). -/
def sentPath (url : Str) : Str := url.takeWhile (fun c => !(c == 63 || c == 35))

end Tuf.Spec
