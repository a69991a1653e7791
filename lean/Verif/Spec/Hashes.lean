import Verif.Model.Types

/-! # Specification of length and hash checks -/

namespace Tuf.Spec
open Tuf

/-- `d` is the digest of `data` under the named algorithm; only SHA-256 and SHA-512 are supported. -/
inductive Digest (env : Env) (data : Bytes) : Str → Bytes → Prop
  | sha256 : Digest env data b!"sha256" (env.sha256 data)
  | sha512 : Digest env data b!"sha512" (env.sha512 data)

/-- Every listed hash is the digest of the data. -/
def HashesMatch (env : Env) (hs : Hashes) (data : Bytes) : Prop := ∀ alg v, (alg, v) ∈ hs.entries → Digest env data alg v

/-- The data is what a target info describes: the exact length and every hash. -/
def TargetMatches (env : Env) (f : TargetFiles) (data : Bytes) : Prop :=
  f.length = (data.length : Int) ∧ HashesMatch env f.hashes data

/-- The data is what a meta file info describes: the length unless it is zero (absent), and every hash. -/
def MetaMatches (env : Env) (f : MetaFiles) (data : Bytes) : Prop :=
  (f.length ≠ 0 → f.length = (data.length : Int)) ∧ HashesMatch env f.hashes data

end Tuf.Spec
