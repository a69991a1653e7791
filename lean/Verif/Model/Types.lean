import Verif.Model.Json

/-! # metadata/types.go -/

namespace Tuf

/-- `metadata/types.go:24-35`. -/
def SPECIFICATION_VERSION : Str := b!"1.0.31"
def ROOT : Str := b!"root"
def SNAPSHOT : Str := b!"snapshot"
def TARGETS : Str := b!"targets"
def TIMESTAMP : Str := b!"timestamp"

/-- `time.Time`: the instant (nanoseconds since the Unix epoch) and the text that `MarshalJSON` prints for it
(RFC 3339 in the value's own offset). -/
structure Time where
  instant : Int
  text : Str
  deriving Repr, DecidableEq

/-- The zero `time.Time`: January 1, year 1, 00:00:00 UTC. -/
def Time.zero : Time := { instant := -62135596800000000000, text := b!"0001-01-01T00:00:00Z" }

/-- `types.go:48-53`. -/
structure Signature where
  keyID : Str := []
  sig : Bytes := []
  unrec : Fields := []

/-- `types.go:107-110`. -/
structure KeyVal where
  publicKey : Str := []
  unrec : Fields := []

/-- `types.go:98-105`; `id` is the cached key ID. -/
structure Key where
  type : Str := []
  scheme : Str := []
  value : KeyVal := {}
  id : Str := []
  unrec : Fields := []

/-- `types.go:112-117`. -/
structure Role where
  keyIDs : Slice Str := none
  threshold : Int := 0
  unrec : Fields := []

/-- `types.go:121`: algorithm name to digest. -/
abbrev Hashes := GoMap Bytes

/-- `types.go:123-129`. -/
structure MetaFiles where
  length : Int := 0
  hashes : Hashes := none
  version : Int := 0
  unrec : Fields := []

/-- `types.go:131-138`; `custom` is the raw JSON, `none` is the nil pointer. -/
structure TargetFiles where
  length : Int := 0
  hashes : Hashes := none
  custom : Option Json := none
  path : Str := []
  unrec : Fields := []

/-- `types.go:148-157`. -/
structure DelegatedRole where
  name : Str := []
  keyIDs : Slice Str := none
  threshold : Int := 0
  terminating : Bool := false
  pathHashPrefixes : Slice Str := none
  paths : Slice Str := none
  unrec : Fields := []

/-- `types.go:159-167`. -/
structure SuccinctRoles where
  keyIDs : Slice Str := none
  threshold : Int := 0
  bitLength : Int := 0
  namePrefix : Str := []
  unrec : Fields := []

/-- `types.go:140-146`. Map values are pointers, which may be nil (`none`). -/
structure Delegations where
  keys : GoMap (Option Key) := none
  roles : Slice DelegatedRole := none
  succinctRoles : Option SuccinctRoles := none
  unrec : Fields := []

/-- `types.go:55-65`. -/
structure RootType where
  type : Str := []
  specVersion : Str := []
  consistentSnapshot : Bool := false
  version : Int := 0
  expires : Time := Time.zero
  keys : GoMap (Option Key) := none
  roles : GoMap (Option Role) := none
  unrec : Fields := []

/-- `types.go:67-75`. -/
structure SnapshotType where
  type : Str := []
  specVersion : Str := []
  version : Int := 0
  expires : Time := Time.zero
  metas : GoMap (Option MetaFiles) := none
  unrec : Fields := []

/-- `types.go:77-86`. -/
structure TargetsType where
  type : Str := []
  specVersion : Str := []
  version : Int := 0
  expires : Time := Time.zero
  targets : GoMap (Option TargetFiles) := none
  delegations : Option Delegations := none
  unrec : Fields := []

/-- `types.go:88-96`. -/
structure TimestampType where
  type : Str := []
  specVersion : Str := []
  version : Int := 0
  expires : Time := Time.zero
  metas : GoMap (Option MetaFiles) := none
  unrec : Fields := []

/-- `types.go:39-46`. -/
structure Metadata (α : Type) where
  signed : α
  signatures : Slice Signature := none
  unrec : Fields := []

/-- A `*Metadata[T]` passed as `any` (`metadata.go:241`): one of the four types, or anything else. -/
inductive AnyMeta where
  | root (m : Metadata RootType)
  | snapshot (m : Metadata SnapshotType)
  | timestamp (m : Metadata TimestampType)
  | targets (m : Metadata TargetsType)
  | other

/-! ## What comes from outside the repository -/

/-- Go public key values that `keys.go` distinguishes, with their key material. -/
inductive PublicKey where
  | rsa (material : Bytes)
  | ecdsa (material : Bytes)
  | ed25519 (material : Bytes)
  | unknown (material : Bytes)
  deriving Repr, DecidableEq

/-- `crypto.Hash(0)` or `crypto.SHA256` (`metadata.go:307-310`). -/
inductive HashFn where
  | none
  | sha256
  deriving Repr, DecidableEq

/-- External functions. Every theorem quantifies over all of them; assumptions are hypotheses. -/
structure Env where
  /-- `encoding/json` syntax: `none` is a syntax error. -/
  parse : Bytes → Option Json
  /-- `json.Marshal` (`false`) and `json.MarshalIndent` (`true`) of a syntax tree to bytes. -/
  print : Bool → Json → Bytes
  /-- RFC 3339 parsing by `time.Time.UnmarshalJSON`. -/
  parseTime : Str → Option Time
  /-- A JSON number decoded as float64 and re-marshalled; `none` if it is out of float64's range. -/
  anyNum : NumLit → Option NumLit
  sha256 : Bytes → Bytes
  sha512 : Bytes → Bytes
  /-- `cryptoutils.UnmarshalPEMToPublicKey`. -/
  pem : Str → Option PublicKey
  /-- `cryptoutils.MarshalPublicKeyToPEM`. -/
  toPem : PublicKey → Option Str
  /-- Whether `x509.MarshalPKIXPublicKey` accepts the key. -/
  pkix : PublicKey → Bool
  /-- Whether sigstore's `signature.LoadVerifier(key, hash)` succeeds. -/
  loadVerifier : PublicKey → HashFn → Bool
  /-- `verifier.VerifySignature(sig, payload)`: nil error, error, or panic. -/
  verifySig : PublicKey → HashFn → (sig payload : Bytes) → Res Unit
  /-- `url.JoinPath(base, elem)`: `none` is an error. -/
  urlJoin : Str → Str → Option Str
  /-- `filepath.Match(pattern, name)`: `none` is `ErrBadPattern`. -/
  glob : (pattern name : Str) → Option Bool

end Tuf
