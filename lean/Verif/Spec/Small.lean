import Verif.Model.Metadata
import Verif.Model.Errors
import Verif.Model.Fetcher
import Verif.Model.Repository

/-! # Specifications: target infos, hex, errors, fetcher, repository store -/

namespace Tuf.Spec
open Tuf

/-- The hash algorithms of the library. -/
def Supported (alg : Str) : Prop := alg = b!"sha256" ∨ alg = b!"sha512"

/-- Two infos list a common algorithm, and all common algorithms have the same hash. -/
def SameHashes (a b : Hashes) : Prop :=
  (∃ alg, (a.get? alg).isSome ∧ (b.get? alg).isSome) ∧ ∀ alg x y, a.get? alg = some x → b.get? alg = some y → x = y

/-- Map keys are unique (every Go map). -/
def UniqueKeys {α : Type} (m : GoMap α) : Prop := (m.entries.map Prod.fst).Nodup

/-- Value of a hex digit of either case. -/
def HexDigit (c : UInt8) (v : Nat) : Prop :=
  (48 ≤ c.toNat ∧ c.toNat ≤ 57 ∧ v = c.toNat - 48) ∨ (97 ≤ c.toNat ∧ c.toNat ≤ 102 ∧ v = c.toNat - 87) ∨
  (65 ≤ c.toNat ∧ c.toNat ≤ 70 ∧ v = c.toNat - 55)

/-- A string of pairs of hex digits and the bytes it stands for. -/
inductive HexPairs : Str → Bytes → Prop
  | nil : HexPairs [] []
  | cons {a b : UInt8} {x y : Nat} {c : UInt8} {s : Str} {r : Bytes} (ha : HexDigit a x) (hb : HexDigit b y)
      (hc : c.toNat = x * 16 + y) (h : HexPairs s r) : HexPairs (a :: b :: s) (c :: r)

/-! ## Errors -/

/-- The error types of `metadata/errors.go`. -/
inductive Kind where
  | repository | unsignedMetadata | badVersionNumber | equalVersionNumber | expiredMetadata | lengthOrHashMismatch
  | download | downloadLengthMismatch | downloadHTTP | value | type | runtime
  deriving DecidableEq, Repr

/-- "is a subset of" in the comments of `metadata/errors.go`. -/
inductive DirectSubset : Kind → Kind → Prop
  | unsigned : DirectSubset .unsignedMetadata .repository
  | badVersion : DirectSubset .badVersionNumber .repository
  | equalVersion : DirectSubset .equalVersionNumber .badVersionNumber
  | expired : DirectSubset .expiredMetadata .repository
  | mismatch : DirectSubset .lengthOrHashMismatch .repository
  | downloadLength : DirectSubset .downloadLengthMismatch .download
  | http : DirectSubset .downloadHTTP .download

/-- The documented hierarchy: reflexive and transitive closure. -/
inductive SubKind : Kind → Kind → Prop
  | refl (k : Kind) : SubKind k k
  | step {a b c : Kind} (h : DirectSubset a b) (r : SubKind b c) : SubKind a c

/-- The empty error value of each type, as used with `errors.Is`. -/
def Kind.empty : Kind → Err
  | .repository => .repository ""
  | .unsignedMetadata => .unsignedMetadata ""
  | .badVersionNumber => .badVersionNumber ""
  | .equalVersionNumber => .equalVersionNumber ""
  | .expiredMetadata => .expiredMetadata ""
  | .lengthOrHashMismatch => .lengthOrHashMismatch ""
  | .download => .download ""
  | .downloadLengthMismatch => .downloadLengthMismatch ""
  | .downloadHTTP => .downloadHTTP 0 []
  | .value => .value ""
  | .type => .type ""
  | .runtime => .runtime ""

/-- The type of an error value; foreign errors have none. -/
def kindOf : Err → Option Kind
  | .repository _ => some .repository
  | .unsignedMetadata _ => some .unsignedMetadata
  | .badVersionNumber _ => some .badVersionNumber
  | .equalVersionNumber _ => some .equalVersionNumber
  | .expiredMetadata _ => some .expiredMetadata
  | .lengthOrHashMismatch _ => some .lengthOrHashMismatch
  | .download _ => some .download
  | .downloadLengthMismatch _ => some .downloadLengthMismatch
  | .downloadHTTP _ _ => some .downloadHTTP
  | .value _ => some .value
  | .type _ => some .type
  | .runtime _ => some .runtime
  | .other _ => none

/-! ## HTTP responses -/

/-- Reading the body to its end fails. -/
def Response.Broken (r : Response) : Prop := ∃ k, r.failAt = some k ∧ k ≤ r.body.length

/-- Decimal notation, leading zeros allowed. -/
inductive Numeral : Str → Nat → Prop
  | digit (d : Nat) : d < 10 → Numeral [UInt8.ofNat (48 + d)] d
  | snoc {s : Str} {n : Nat} (d : Nat) : Numeral s n → d < 10 → Numeral (s ++ [UInt8.ofNat (48 + d)]) (10 * n + d)

/-- The header declares this length: decimal notation with an optional sign. -/
inductive DeclaresLength : Str → Int → Prop
  | plain {s : Str} {n : Nat} : Numeral s n → DeclaresLength s n
  | plus {s : Str} {n : Nat} : Numeral s n → DeclaresLength (43 :: s) n
  | minus {s : Str} {n : Nat} : Numeral s n → DeclaresLength (45 :: s) (-(n : Int))

/-! ## Repository store -/

/-- A call of a setter. -/
inductive SetCall where
  | root (m : Option (Metadata RootType))
  | snapshot (m : Option (Metadata SnapshotType))
  | timestamp (m : Option (Metadata TimestampType))
  | targets (name : Str) (m : Option (Metadata TargetsType))

def SetCall.run (r : Repository) : SetCall → Repository
  | .root m => r.setRoot m
  | .snapshot m => r.setSnapshot m
  | .timestamp m => r.setTimestamp m
  | .targets n m => r.setTargets n m

/-- The value that a role was last set to in a history; nil if it never was. -/
def lastRoot (cs : List SetCall) : Option (Metadata RootType) :=
  (cs.filterMap (fun c => match c with | .root m => some m | _ => none)).getLast?.join
def lastSnapshot (cs : List SetCall) : Option (Metadata SnapshotType) :=
  (cs.filterMap (fun c => match c with | .snapshot m => some m | _ => none)).getLast?.join
def lastTimestamp (cs : List SetCall) : Option (Metadata TimestampType) :=
  (cs.filterMap (fun c => match c with | .timestamp m => some m | _ => none)).getLast?.join
def lastTargets (name : Str) (cs : List SetCall) : Option (Metadata TargetsType) :=
  (cs.filterMap (fun c => match c with | .targets n m => if n = name then some m else none | _ => none)).getLast?.join

end Tuf.Spec
