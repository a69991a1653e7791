import Verif.Props.SimulatorCase
import Verif.Model.Std.Pem

/-!
# SHA-2, RSA and Ed25519

Hashes and signature checks as they are, on numbers, to evaluate the model on the metadata files of the repository (`Props/RepositoryData.lean`). No theorem is about them. `crypto/sha256` and
`crypto/sha512` by FIPS 180-4; RSA signatures by PKCS #1 v1.5, as `signature.LoadVerifier` of sigstore has it for RSA keys; Ed25519 by RFC 8032.
-/

namespace Tuf.Real
open Tuf Tuf.Std

/-- The value of `f`, with the argument evaluated first. -/
def force {α : Type} (n : Nat) (f : Nat → α) : α :=
  match n with
  | 0 => f 0
  | k + 1 => f (k + 1)

/-! ## SHA-2 -/

/-- Sizes and constants of a hash function: bits of a word, rotations, round constants, first state, bytes of a block. -/
structure Sha where
  w : Nat
  s0 : Nat × Nat × Nat
  s1 : Nat × Nat × Nat
  e0 : Nat × Nat × Nat
  e1 : Nat × Nat × Nat
  k : List Nat
  h : List Nat

def rotr (w x n : Nat) : Nat := (x >>> n) ||| ((x <<< (w - n)) % 2 ^ w)
def bigSigma (w x : Nat) (c : Nat × Nat × Nat) : Nat := rotr w x c.1 ^^^ rotr w x c.2.1 ^^^ rotr w x c.2.2
def smallSigma (w x : Nat) (c : Nat × Nat × Nat) : Nat := rotr w x c.1 ^^^ rotr w x c.2.1 ^^^ (x >>> c.2.2)

/-- The rounds; the list has the next sixteen words. -/
def rounds (p : Sha) : List Nat → List Nat → (a b c d e f g h : Nat) → List Nat
  | [], _, a, b, c, d, e, f, g, h => [a, b, c, d, e, f, g, h]
  | k :: ks, ws, a, b, c, d, e, f, g, h =>
    force (h + bigSigma p.w e p.e1 + ((e &&& f) ^^^ ((2 ^ p.w - 1 - e) &&& g)) + k + ws.headD 0) fun t1 =>
    force ((t1 + bigSigma p.w a p.e0 + ((a &&& b) ^^^ (a &&& c) ^^^ (b &&& c))) % 2 ^ p.w) fun a' =>
    force ((d + t1) % 2 ^ p.w) fun e' =>
    force ((smallSigma p.w (ws.getD 14 0) p.s1 + ws.getD 9 0 + smallSigma p.w (ws.getD 1 0) p.s0 + ws.headD 0) % 2 ^ p.w) fun w' =>
      rounds p ks (ws.tail ++ [w']) a' a b c e' e f g

/-- The number of big-endian bytes. -/
def toNumber : Nat → Bytes → Nat
  | acc, [] => acc
  | acc, b :: bs => force (acc * 256 + b.toNat) fun n => toNumber n bs

/-- Big-endian bytes of a number. -/
def toBytes : Nat → Nat → Bytes
  | 0, _ => []
  | n + 1, x => toBytes n (x / 256) ++ [UInt8.ofNat (x % 256)]

/-- Words of a text, in groups of `n` bytes. -/
def words (n : Nat) : Nat → Bytes → List Nat
  | 0, _ => []
  | k + 1, bs => force (toNumber 0 (bs.take n)) fun x => x :: words n k (bs.drop n)

def addAll (m : Nat) : List Nat → List Nat → List Nat
  | x :: xs, y :: ys => force ((x + y) % m) fun z => z :: addAll m xs ys
  | _, _ => []

def block (p : Sha) (st ws : List Nat) : List Nat :=
  match st with
  | [a, b, c, d, e, f, g, h] => addAll (2 ^ p.w) st (rounds p p.k ws a b c d e f g h)
  | _ => []

def blocks (p : Sha) : Nat → List Nat → List Nat → List Nat
  | 0, st, _ => st
  | n + 1, st, ws => blocks p n (block p st (ws.take 16)) (ws.drop 16)

def sha (p : Sha) (data : Bytes) : Bytes :=
  let size := p.w / 8
  let full := 16 * size
  let pad := (full - (data.length + 1 + 2 * size) % full) % full
  let text := data ++ [128] ++ List.replicate pad 0 ++ toBytes (2 * size) (data.length * 8)
  let n := text.length / full
  (blocks p n p.h (words size (n * 16) text)).flatMap (toBytes size)

def sha256 : Bytes → Bytes := sha
  { w := 32, s0 := (7, 18, 3), s1 := (17, 19, 10), e0 := (2, 13, 22), e1 := (6, 11, 25)
    h := [0x6a09e667, 0xbb67ae85, 0x3c6ef372, 0xa54ff53a, 0x510e527f, 0x9b05688c, 0x1f83d9ab, 0x5be0cd19]
    k := [0x428a2f98, 0x71374491, 0xb5c0fbcf, 0xe9b5dba5, 0x3956c25b, 0x59f111f1, 0x923f82a4, 0xab1c5ed5, 0xd807aa98, 0x12835b01, 0x243185be, 0x550c7dc3, 0x72be5d74, 0x80deb1fe, 0x9bdc06a7,
   0xc19bf174, 0xe49b69c1, 0xefbe4786, 0x0fc19dc6, 0x240ca1cc, 0x2de92c6f, 0x4a7484aa, 0x5cb0a9dc, 0x76f988da, 0x983e5152, 0xa831c66d, 0xb00327c8, 0xbf597fc7, 0xc6e00bf3, 0xd5a79147,
   0x06ca6351, 0x14292967, 0x27b70a85, 0x2e1b2138, 0x4d2c6dfc, 0x53380d13, 0x650a7354, 0x766a0abb, 0x81c2c92e, 0x92722c85, 0xa2bfe8a1, 0xa81a664b, 0xc24b8b70, 0xc76c51a3, 0xd192e819,
   0xd6990624, 0xf40e3585, 0x106aa070, 0x19a4c116, 0x1e376c08, 0x2748774c, 0x34b0bcb5, 0x391c0cb3, 0x4ed8aa4a, 0x5b9cca4f, 0x682e6ff3, 0x748f82ee, 0x78a5636f, 0x84c87814, 0x8cc70208,
   0x90befffa, 0xa4506ceb, 0xbef9a3f7, 0xc67178f2] }

def sha512 : Bytes → Bytes := sha
  { w := 64, s0 := (1, 8, 7), s1 := (19, 61, 6), e0 := (28, 34, 39), e1 := (14, 18, 41)
    h := [0x6a09e667f3bcc908, 0xbb67ae8584caa73b, 0x3c6ef372fe94f82b, 0xa54ff53a5f1d36f1, 0x510e527fade682d1, 0x9b05688c2b3e6c1f, 0x1f83d9abfb41bd6b, 0x5be0cd19137e2179]
    k := [0x428a2f98d728ae22, 0x7137449123ef65cd, 0xb5c0fbcfec4d3b2f, 0xe9b5dba58189dbbc, 0x3956c25bf348b538, 0x59f111f1b605d019, 0x923f82a4af194f9b, 0xab1c5ed5da6d8118, 0xd807aa98a3030242,
   0x12835b0145706fbe, 0x243185be4ee4b28c, 0x550c7dc3d5ffb4e2, 0x72be5d74f27b896f, 0x80deb1fe3b1696b1, 0x9bdc06a725c71235, 0xc19bf174cf692694, 0xe49b69c19ef14ad2, 0xefbe4786384f25e3,
   0x0fc19dc68b8cd5b5, 0x240ca1cc77ac9c65, 0x2de92c6f592b0275, 0x4a7484aa6ea6e483, 0x5cb0a9dcbd41fbd4, 0x76f988da831153b5, 0x983e5152ee66dfab, 0xa831c66d2db43210, 0xb00327c898fb213f,
   0xbf597fc7beef0ee4, 0xc6e00bf33da88fc2, 0xd5a79147930aa725, 0x06ca6351e003826f, 0x142929670a0e6e70, 0x27b70a8546d22ffc, 0x2e1b21385c26c926, 0x4d2c6dfc5ac42aed, 0x53380d139d95b3df,
   0x650a73548baf63de, 0x766a0abb3c77b2a8, 0x81c2c92e47edaee6, 0x92722c851482353b, 0xa2bfe8a14cf10364, 0xa81a664bbc423001, 0xc24b8b70d0f89791, 0xc76c51a30654be30, 0xd192e819d6ef5218,
   0xd69906245565a910, 0xf40e35855771202a, 0x106aa07032bbd1b8, 0x19a4c116b8d2d0c8, 0x1e376c085141ab53, 0x2748774cdf8eeb99, 0x34b0bcb5e19b48a8, 0x391c0cb3c5c95a63, 0x4ed8aa4ae3418acb,
   0x5b9cca4f7763e373, 0x682e6ff3d6b2b8a3, 0x748f82ee5defb2fc, 0x78a5636f43172f60, 0x84c87814a1f0ab72, 0x8cc702081a6439ec, 0x90befffa23631e28, 0xa4506cebde82bde9, 0xbef9a3f7b2c67915,
   0xc67178f2e372532b, 0xca273eceea26619c, 0xd186b8c721c0c207, 0xeada7dd6cde0eb1e, 0xf57d4f7fee6ed178, 0x06f067aa72176fba, 0x0a637dc5a2c898a6, 0x113f9804bef90dae, 0x1b710b35131c471b,
   0x28db77f523047d84, 0x32caab7b40c72493, 0x3c9ebe0a15c9bebc, 0x431d67c49c100d4c, 0x4cc5d4becb3e42b6, 0x597f299cfc657e2a, 0x5fcb6fab3ad6faec, 0x6c44198c4a475817] }

/-! ## RSA -/

/-- `b ^ e` modulo `m`, with at most `n` bits of `e`. -/
def powMod (m : Nat) : Nat → Nat → Nat → Nat → Nat
  | 0, _, _, acc => acc
  | n + 1, b, e, acc =>
    force (if e % 2 = 1 then acc * b % m else acc) fun acc =>
    force (b * b % m) fun b =>
    force (e / 2) fun e => if e = 0 then acc else powMod m n b e acc

/-- Tag, contents and rest of the first value in DER. -/
def der (bs : Bytes) : Option (UInt8 × Bytes × Bytes) :=
  match bs with
  | tag :: l :: r =>
    if l.toNat < 128 then some (tag, r.take l.toNat, r.drop l.toNat)
    else
      let n := l.toNat - 128
      let len := toNumber 0 (r.take n)
      some (tag, (r.drop n).take len, (r.drop n).drop len)
  | _ => none

/-- Modulus and exponent of a key in PKIX form. -/
def rsaNumbers (key : Bytes) : Option (Nat × Nat) := do
  let (_, spki, _) ← der key
  let (_, _, r) ← der spki
  let (_, bits, _) ← der r
  let (_, seq, _) ← der bits.tail
  let (_, n, r) ← der seq
  let (_, e, _) ← der r
  pure (toNumber 0 n, toNumber 0 e)

def digestInfo : Bytes := [0x30, 0x31, 0x30, 0x0d, 0x06, 0x09, 0x60, 0x86, 0x48, 0x01, 0x65, 0x03, 0x04, 0x02, 0x01, 0x05, 0x00, 0x04, 0x20]

def rsaVerify (key sig data : Bytes) : Bool :=
  match rsaNumbers key with
  | none => false
  | some (n, e) =>
    let k := (n.log2 + 8) / 8
    let t := digestInfo ++ sha256 data
    sig.length = k && powMod n 64 (toNumber 0 sig) e 1 = toNumber 0 ([0, 1] ++ List.replicate (k - 3 - t.length) 255 ++ [0] ++ t)

/-! ## Ed25519 -/

def q : Nat := 2 ^ 255 - 19
def order : Nat := 2 ^ 252 + 27742317777372353535851937790883648493
def dConst : Nat := 37095705934669439343138083508754565189542113879843219016388785533085940283555
def root4 : Nat := 19681161376707505956807079304988542015446066515923890162744021073123829784752
/-- The base point. -/
def baseX : Nat := 15112221349535400772501151409588531511454012693041857206046113283949847762202
def baseY : Nat := 46316835694926478169428394003475163141307993866256225615783033603165251855960

/-- A point in extended coordinates. -/
structure Point where
  x : Nat
  y : Nat
  z : Nat
  t : Nat

def add (a b : Point) : Point :=
  force ((a.y + q - a.x) * (b.y + q - b.x) % q) fun u =>
  force ((a.y + a.x) * (b.y + b.x) % q) fun v =>
  force (2 * a.t * b.t * dConst % q) fun c =>
  force (2 * a.z * b.z % q) fun d =>
  force (v + q - u) fun e =>
  force (d + q - c) fun f =>
  force (d + c) fun g =>
  force (v + u) fun h =>
  force (e * f % q) fun x =>
  force (g * h % q) fun y =>
  force (f * g % q) fun z =>
  force (e * h % q) fun t => ⟨x, y, z, t⟩

/-- `acc + s * a`, with at most `n` bits of `s`. -/
def mul : Nat → Nat → Point → Point → Point
  | 0, _, _, acc => acc
  | n + 1, s, a, acc =>
    match a, acc with
    | ⟨x, y, z, t⟩, ⟨x', y', z', t'⟩ =>
      let acc : Point := if s % 2 = 1 then add ⟨x', y', z', t'⟩ ⟨x, y, z, t⟩ else ⟨x', y', z', t'⟩
      force (s / 2) fun s => if s = 0 then acc else mul n s (add ⟨x, y, z, t⟩ ⟨x, y, z, t⟩) acc

/-- The number of little-endian bytes. -/
def little (bs : Bytes) : Nat := toNumber 0 bs.reverse

def power (b e : Nat) : Nat := powMod q 256 b e 1

/-- The point with the given encoding. -/
def decode (bs : Bytes) : Option Point :=
  force (little bs % 2 ^ 255) fun y =>
  let sign := little bs / 2 ^ 255
  force ((y * y + q - 1) % q) fun u =>
  force ((dConst * (y * y) + 1) % q) fun v =>
  force (u * power v 3 * power (u * power v 7 % q) ((q - 5) / 8) % q) fun x =>
  force (if (v * x * x) % q = u then x else x * root4 % q) fun x =>
  if bs.length ≠ 32 ∨ (v * x * x) % q ≠ u then none
  else
    force (if x % 2 = sign then x else (q - x) % q) fun x => some ⟨x, y, 1, x * y % q⟩

/-- Whether a point has the given coordinates. -/
def samePoint (a b : Point) : Bool := a.x * b.z % q = b.x * a.z % q && a.y * b.z % q = b.y * a.z % q

def edVerify (key sig data : Bytes) : Bool :=
  match decode key, decode (sig.take 32) with
  | some a, some r =>
    force (little (sig.drop 32)) fun s =>
    force (little (sha512 (sig.take 32 ++ key ++ data)) % order) fun k =>
      sig.length = 64 && decide (s < order) && samePoint (mul 256 s ⟨baseX, baseY, 1, baseX * baseY % q⟩ ⟨0, 1, 1, 0⟩) (mul 256 k a r)
  | _, _ => false

/-! ## The environment -/

def verify : PublicKey → Bytes → Bytes → Bool
  | .rsa key, sig, data => rsaVerify key sig data
  | .ed25519 key, sig, data => edVerify key sig data
  | _, _, _ => false

def env : Env := std
  { Sample.env0 with
    sha256 := sha256
    sha512 := sha512
    pem := fun s => match pemDecode s with
      | some (_, key) => (rsaNumbers key).map (fun _ => .rsa key)
      | none => none
    toPem := fun k => match k with
      | .rsa key => some (pemEncode b!"PUBLIC KEY" key)
      | _ => none
    verifySig := fun k _ sig data => if verify k sig data then .ok () else .err (.other "bad signature") }

/-- SHA-256 and SHA-512 of `abc` and of the empty text. -/
example : hexEncode (sha256 b!"abc") = b!"ba7816bf8f01cfea414140de5dae2223b00361a396177a9cb410ff61f20015ad" := by decide +kernel
example : hexEncode (sha256 []) = b!"e3b0c44298fc1c149afbf4c8996fb92427ae41e4649b934ca495991b7852b855" := by decide +kernel
example : hexEncode (sha512 b!"abc") = b!"ddaf35a193617abacc417349ae20413112e6fa4e89a97ea20a9eeee64b55d39a2192992a274fc1a836ba3c23a3feebbd454d4423643ce80e2a9ac94fa54ca49f" := by decide +kernel

end Tuf.Real
