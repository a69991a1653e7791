import Verif.Model.Metadata

/-! # Specification of path patterns, hash prefixes and bins -/

namespace Tuf.Spec
open Tuf

/-- The slash-separated parts of a path: slash-free strings that give the path when joined with slashes. -/
def Parts (path : Str) (ps : List Str) : Prop := ps ≠ [] ∧ (∀ p ∈ ps, (47 : UInt8) ∉ p) ∧ List.intercalate [47] ps = path

/-- A pattern covers a path: equally many parts, each matched by its own pattern part (`filepath.Match`). -/
def PatternCovers (env : Env) (pattern path : Str) : Prop :=
  ∃ ps ts, Parts pattern ps ∧ Parts path ts ∧ ps.length = ts.length ∧
    ∀ (i : Nat) (hp : i < ps.length) (ht : i < ts.length), env.glob ps[i] ts[i] = some true

/-- The bits of a byte, most significant first. -/
def bitsOfByte (c : UInt8) : List Nat := [c.toNat / 128 % 2, c.toNat / 64 % 2, c.toNat / 32 % 2, c.toNat / 16 % 2,
  c.toNat / 8 % 2, c.toNat / 4 % 2, c.toNat / 2 % 2, c.toNat % 2]

/-- The number formed by the leftmost `k` bits of a byte string. -/
def leftmostBits (k : Nat) (b : Bytes) : Nat := ((b.flatMap bitsOfByte).take k).foldl (fun acc d => acc * 2 + d) 0

/-- A lowercase hex digit. -/
def LowerHex (c : UInt8) : Prop := (48 ≤ c.toNat ∧ c.toNat ≤ 57) ∨ (97 ≤ c.toNat ∧ c.toNat ≤ 102)

/-- Value of a lowercase hex digit. -/
def lowerHexValue (c : UInt8) : Nat := if c.toNat ≤ 57 then c.toNat - 48 else c.toNat - 87

/-- `name` is the name of bin `n`: the prefix, a dash, and `n` in lowercase hex with as many digits as the largest bin number needs. -/
def BinName (r : SuccinctRoles) (n : Nat) (name : Str) : Prop :=
  ∃ s : Str, name = r.namePrefix ++ b!"-" ++ s ∧ (∀ c ∈ s, LowerHex c) ∧ s.length = (r.bitLength.toNat + 3) / 4 ∧
    s.foldl (fun acc c => acc * 16 + lowerHexValue c) 0 = n

/-- What a delegated role covers in this implementation: by its patterns if it has any, else by prefixes of the base64 (not hex)
digest of the path. -/
def RoleCovers (env : Env) (r : DelegatedRole) (path : Str) : Prop :=
  (∃ p ∈ r.paths.elems, PatternCovers env p path) ∨
  (r.paths.elems = [] ∧ ∃ p ∈ r.pathHashPrefixes.elems, ∃ t, b64Encode (env.sha256 path) = p ++ t)

/-- What the TUF specification says about a role with path hash prefixes. -/
def HexPrefixCovers (env : Env) (prefixes : List Str) (path : Str) : Prop :=
  ∃ p ∈ prefixes, ∃ t, hexEncode (env.sha256 path) = p ++ t

end Tuf.Spec
