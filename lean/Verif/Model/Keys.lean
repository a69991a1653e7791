import Verif.Model.Marshal

/-! # metadata/keys.go -/

namespace Tuf

/-- `keys.go:29-35`. -/
def KeyTypeEd25519 : Str := b!"ed25519"
def KeyTypeECDSA_SHA2_P256_COMPAT : Str := b!"ecdsa-sha2-nistp256"
def KeyTypeECDSA_SHA2_P256 : Str := b!"ecdsa"
def KeyTypeRSASSA_PSS_SHA256 : Str := b!"rsa"
def KeySchemeEd25519 : Str := b!"ed25519"
def KeySchemeECDSA_SHA2_P256 : Str := b!"ecdsa-sha2-nistp256"
def KeySchemeRSASSA_PSS_SHA256 : Str := b!"rsassa-pss-sha256"

/-- Error made in `keys.go` or by the crypto libraries. -/
def keyErr : Err := .other "key"

/-- `Key.ToPublicKey`, `keys.go:39-82`. -/
def Key.toPublicKey (env : Env) (k : Key) : Res PublicKey :=
  if k.type = KeyTypeRSASSA_PSS_SHA256 then
    match env.pem k.value.publicKey with
    | some (.rsa m) => if env.pkix (.rsa m) then .ok (.rsa m) else .err keyErr
    | _ => .err keyErr
  else if k.type = KeyTypeECDSA_SHA2_P256 ∨ k.type = KeyTypeECDSA_SHA2_P256_COMPAT then
    match env.pem k.value.publicKey with
    | some (.ecdsa m) => if env.pkix (.ecdsa m) then .ok (.ecdsa m) else .err keyErr
    | _ => .err keyErr
  else if k.type = KeyTypeEd25519 then
    match hexDecode k.value.publicKey with
    | some m => if env.pkix (.ed25519 m) then .ok (.ed25519 m) else .err keyErr
    | none => .err keyErr
  else .err keyErr

/-- `KeyFromPublicKey`, `keys.go:85-112`. -/
def keyFromPublicKey (env : Env) (p : PublicKey) : Res Key :=
  match p with
  | .rsa _ => match env.toPem p with
    | some s => .ok { type := KeyTypeRSASSA_PSS_SHA256, scheme := KeySchemeRSASSA_PSS_SHA256, value := { publicKey := s } }
    | none => .err keyErr
  | .ecdsa _ => match env.toPem p with
    | some s => .ok { type := KeyTypeECDSA_SHA2_P256, scheme := KeySchemeECDSA_SHA2_P256, value := { publicKey := s } }
    | none => .err keyErr
  | .ed25519 m => .ok { type := KeyTypeEd25519, scheme := KeySchemeEd25519, value := { publicKey := hexEncode m } }
  | .unknown _ => .err keyErr

/-- `Key.ID`, `keys.go:115-126`: returns the cached id, or computes and caches it; a key without canonical form panics. The
second component is the key afterwards. -/
def Key.ID (env : Env) (k : Key) : Res (Str × Key) :=
  if k.id = [] then
    match canonical k.marshal with
    | .ok data =>
      let id := hexEncode (env.sha256 data)
      .ok (id, { k with id := id })
    | _ => .panic
  else .ok (k.id, k)

end Tuf
