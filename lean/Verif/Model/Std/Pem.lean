import Verif.Model.Keys

/-!
# PEM texts of public keys

`cryptoutils.UnmarshalPEMToPublicKey` and `cryptoutils.MarshalPublicKeyToPEM` (sigstore v1.8.0, `/repo/go.mod:8`), used by `Key.ToPublicKey` (`keys.go:42, 56`) and
`KeyFromPublicKey` (`keys.go:91, 99`), with encoding/pem and encoding/base64 of Go 1.21 (`/repo/go.mod:3`). Their sources are not in `/repo`; the definitions follow
pem.go and base64.go. The DER encodings of crypto/x509 remain parameters. The second result of pem.Decode, the rest of the text, is not used by the callers and left out.
-/

namespace Tuf.Std
open Tuf

/-! ## Base64 -/

/-- The alphabet of `base64.StdEncoding`. -/
def std64Char (n : Nat) : UInt8 :=
  if n < 26 then UInt8.ofNat (65 + n)
  else if n < 52 then UInt8.ofNat (97 + (n - 26))
  else if n < 62 then UInt8.ofNat (48 + (n - 52))
  else if n = 62 then 43 else 47

/-- The decoding table. -/
def std64Val (c : UInt8) : Option Nat :=
  if 65 ≤ c.toNat ∧ c.toNat ≤ 90 then some (c.toNat - 65)
  else if 97 ≤ c.toNat ∧ c.toNat ≤ 122 then some (c.toNat - 97 + 26)
  else if 48 ≤ c.toNat ∧ c.toNat ≤ 57 then some (c.toNat - 48 + 52)
  else if c = 43 then some 62
  else if c = 47 then some 63
  else none

/-- `StdEncoding.Encode`. -/
def std64Encode : Bytes → Str
  | [] => []
  | [a] => [std64Char (a.toNat / 4), std64Char (a.toNat % 4 * 16), 61, 61]
  | [a, b] => [std64Char (a.toNat / 4), std64Char (a.toNat % 4 * 16 + b.toNat / 16), std64Char (b.toNat % 16 * 4), 61]
  | a :: b :: c :: r =>
    std64Char (a.toNat / 4) :: std64Char (a.toNat % 4 * 16 + b.toNat / 16) :: std64Char (b.toNat % 16 * 4 + c.toNat / 64) :: std64Char (c.toNat % 64) :: std64Encode r

/-- `StdEncoding.Decode` of a text without line breaks, by quanta of four (`decodeQuantum`). Padding only at the end; the bits that padding leaves over may be anything (the encoding is not strict). -/
def std64Quanta : Str → Option Bytes
  | [] => some []
  | a :: b :: c :: d :: r =>
    match std64Val a, std64Val b with
    | some x, some y =>
      let first := UInt8.ofNat (x * 4 + y / 16)
      match std64Val c with
      | some z =>
        let second := UInt8.ofNat (y % 16 * 16 + z / 4)
        match std64Val d with
        | some w => (std64Quanta r).map (fun t => first :: second :: UInt8.ofNat (z % 4 * 64 + w) :: t)
        | none => if d = 61 ∧ r = [] then some [first, second] else none
      | none => if c = 61 ∧ d = 61 ∧ r = [] then some [first] else none
    | _, _ => none
  | _ => none

/-- `StdEncoding.Decode`: line breaks are skipped wherever they are. -/
def std64Decode (s : Str) : Option Bytes := std64Quanta (s.filter (fun c => c != 10 && c != 13))

/-! ## PEM -/

/-- `pemStart[1:]`, `pemEnd[1:]` and `pemEndOfLine`. -/
def pemStart : Str := b!"-----BEGIN "
def pemEnd : Str := b!"-----END "
def pemDashes : Str := b!"-----"

/-- The text broken after every 64 bytes, with a line break after each part (`lineBreaker`). `n` counts the bytes of the current line. -/
def breakLines : Nat → Str → Str
  | n, [] => if n = 0 then [] else [10]
  | n, c :: r => if n = 63 then c :: 10 :: breakLines 0 r else c :: breakLines (n + 1) r

/-- `pem.EncodeToMemory` of a block without headers. -/
def pemEncode (type : Str) (data : Bytes) : Str :=
  pemStart ++ type ++ pemDashes ++ [10] ++ breakLines 0 (std64Encode data) ++ pemEnd ++ type ++ pemDashes ++ [10]

/-- `bytes.Cut`: what is before and after the first occurrence. -/
def cutAt (sep : Str) : Str → Option (Str × Str)
  | [] => if sep = [] then some ([], []) else none
  | c :: r =>
    if sep.isPrefixOf (c :: r) then some ([], (c :: r).drop sep.length)
    else (cutAt sep r).map (fun p => (c :: p.1, p.2))

/-- `bytes.TrimRight(s, " \t")`. -/
def trimBlanks (s : Str) : Str := (s.reverse.dropWhile (fun c => c == 32 || c == 9)).reverse

/-- `getLine`: the line without the line break and blanks at its end, and what follows. -/
def getLine (s : Str) : Str × Str :=
  match cutAt [10] s with
  | none => (trimBlanks s, [])
  | some (l, r) => (trimBlanks (if l.getLast? = some 13 then l.dropLast else l), r)

/-- The loop over the header lines of `pem.Decode`: whether there were any, and the rest. `none` is the return at the end of the text. The first argument bounds the number of lines. -/
def skipHeaders : Nat → Bool → Str → Option (Bool × Str)
  | 0, _, _ => none
  | n + 1, any, rest =>
    if rest = [] then none
    else if 58 ∈ (getLine rest).1 then skipHeaders n true (getLine rest).2
    else some (any, rest)

/-- What `pem.Decode` makes of the text after a line with the type: the bytes, or `none` if the loop continues. -/
def pemBody (type : Str) (any : Bool) (rest : Str) : Option Bytes :=
  match (if any = false ∧ pemEnd.isPrefixOf rest then some ([], rest.drop pemEnd.length) else cutAt (10 :: pemEnd) rest) with
  | none => none
  | some (body, trailer) =>
    if (type ++ pemDashes).isPrefixOf trailer ∧ (getLine (trailer.drop (type ++ pemDashes).length)).1 = [] then
      std64Decode (body.filter (fun c => c != 32 && c != 9))
    else none

/-- `pem.Decode`: the type and the bytes of the first block. The first argument bounds the number of attempts; every attempt consumes part of the text. -/
def pemDecodeFrom : Nat → Str → Option (Str × Bytes)
  | 0, _ => none
  | n + 1, rest =>
    match (if pemStart.isPrefixOf rest then some (rest.drop pemStart.length) else (cutAt (10 :: pemStart) rest).map Prod.snd) with
    | none => none
    | some rest =>
      let line := (getLine rest).1
      let rest := (getLine rest).2
      if pemDashes.isSuffixOf line then
        let type := line.take (line.length - pemDashes.length)
        match skipHeaders (rest.length + 1) false rest with
        | none => none
        | some (any, rest) =>
          match pemBody type any rest with
          | some b => some (type, b)
          | none => pemDecodeFrom n rest
      else pemDecodeFrom n rest

def pemDecode (s : Str) : Option (Str × Bytes) := pemDecodeFrom (s.length + 1) s

/-! ## Public keys -/

/-- crypto/x509: `MarshalPKIXPublicKey`, `ParsePKIXPublicKey`, `ParsePKCS1PublicKey`; `none` is an error. -/
structure X509 where
  marshalPKIX : PublicKey → Option Bytes
  parsePKIX : Bytes → Option PublicKey
  parsePKCS1 : Bytes → Option PublicKey

/-- `cryptoutils.UnmarshalPEMToPublicKey`. -/
def pemPublicKey (x : X509) (s : Str) : Option PublicKey :=
  match pemDecode s with
  | none => none
  | some (type, b) =>
    if type = b!"PUBLIC KEY" then x.parsePKIX b
    else if type = b!"RSA PUBLIC KEY" then x.parsePKCS1 b
    else none

/-- `cryptoutils.MarshalPublicKeyToPEM`. -/
def publicKeyPem (x : X509) (pk : PublicKey) : Option Str := (x.marshalPKIX pk).map (pemEncode b!"PUBLIC KEY")

/-- The environment with these texts of keys. `ToPublicKey` also checks with `MarshalPKIXPublicKey` (`keys.go:51, 65, 76`). -/
def withPem (x : X509) (env : Env) : Env := { env with pem := pemPublicKey x, toPem := publicKeyPem x, pkix := fun pk => (x.marshalPKIX pk).isSome }

end Tuf.Std
