import Verif.Model.Metadata

/-! # Specification of key IDs -/

namespace Tuf.Spec
open Tuf

/-- A string in quotes; quotes and backslashes are preceded by a backslash. -/
def quoted (s : Str) : Bytes := [34] ++ s.flatMap (fun c => if c = 34 ∨ c = 92 then [92, c] else [c]) ++ [34]

/-- The canonical text of a key without unrecognised fields, over which the key ID is computed. -/
def keyText (type scheme publicKey : Str) : Bytes :=
  b!"{\"keytype\":" ++ quoted type ++ b!",\"keyval\":{\"public\":" ++ quoted publicKey ++ b!"},\"scheme\":" ++ quoted scheme ++ b!"}"

/-- The canonical texts of the two keys are different but have the same SHA-256 digest. (That some two texts have the same digest would say nothing: there are such texts.) -/
def Collide (env : Env) (a b : Key) : Prop := ∃ ta tb, canonical a.marshal = .ok ta ∧ canonical b.marshal = .ok tb ∧ ta ≠ tb ∧ env.sha256 ta = env.sha256 tb

/-- The key ID is the hex digest of the canonical text of the key. -/
def IsKeyID (env : Env) (k : Key) (id : Str) : Prop := ∃ text, canonical k.marshal = .ok text ∧ id = hexEncode (env.sha256 text)

/-- Every key is stored under its own key ID. -/
def Filed (env : Env) (keys : GoMap (Option Key)) : Prop := ∀ id k, keys.get? id = some (some k) → IsKeyID env k id

/-- The key types and schemes of the TUF specification by kind of public key, as this implementation writes them. -/
inductive Declared : PublicKey → Str → Str → Prop
  | rsa {m : Bytes} : Declared (.rsa m) b!"rsa" b!"rsassa-pss-sha256"
  | ecdsa {m : Bytes} : Declared (.ecdsa m) b!"ecdsa" b!"ecdsa-sha2-nistp256"
  | ed25519 {m : Bytes} : Declared (.ed25519 m) b!"ed25519" b!"ed25519"

/-- The PEM text of this key is read back as what was written. -/
def PemReads (env : Env) (pk : PublicKey) : Prop := ∀ s, env.toPem pk = some s → env.pem s = some pk

/-- The hash function that goes with a kind of public key. -/
def hashOf : PublicKey → HashFn
  | .ed25519 _ => .none
  | _ => .sha256

end Tuf.Spec
