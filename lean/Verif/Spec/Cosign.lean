import Verif.Spec.Publish

/-! # Specification of signing a file in turn -/

namespace Tuf.Spec
open Tuf

/-- A document is signed by one signer after the other, each at another place: it is signed, written, and read by the next; `encoding/json` can read what it printed. -/
inductive Cosigned {T : Type} [RoleType T] (env : Env) : Metadata T → List Signer → Metadata T → Prop
  | nil {m : Metadata T} : Cosigned env m [] m
  | cons {m m1 m2 m3 : Metadata T} {s : Signer} {ss : List Signer} {sig : Signature} {pretty : Bool} {data : Bytes} :
      sign env m s = .ok (sig, m1) → toBytes env m1 pretty = .ok data → (∀ j, m1.marshal = .ok j → env.parse (env.print pretty j) = some j) →
      fromBytes env data = .ok m2 → Cosigned env m2 ss m3 → Cosigned env m (s :: ss) m3

/-- The key IDs of the signatures, in order. -/
def signatureIDs {T : Type} (m : Metadata T) : List Str := m.signatures.elems.map Signature.keyID

/-- What signing in turn gives: exactly the signatures (in the same order) that the signers would have made of the document in memory, below the same payload, provided that no
two signers (nor the signatures that were there) have the same key ID; otherwise there is no such result. -/
structure CosigningWorks {T : Type} [RoleType T] (env : Env) (P : T → Prop) : Prop where
  same : ∀ (m m3 : Metadata T) (ss : List Signer), GoodDocument env P m → Cosigned env m ss m3 →
    ∃ m', SignedBy env m ss m' ∧ m3.signatures.elems = m'.signatures.elems ∧ m3.unrec = m.unrec ∧ RoleType.marshal m3.signed = RoleType.marshal m.signed
  distinct : ∀ (m m3 : Metadata T) (ss : List Signer), GoodDocument env P m → Cosigned env m ss m3 →
    ss.Pairwise (fun s s' => ∀ id, SignerID env s id → ¬ SignerID env s' id) ∧ ∀ s ∈ ss, ∀ id, SignerID env s id → id ∉ signatureIDs m
  possible : ∀ (m m' : Metadata T) (ss : List Signer) (pretty : Bool), GoodDocument env P m → SignedBy env m ss m' → (signatureIDs m').Nodup →
    (∀ pre m1 j, pre <+: ss → SignedBy env m pre m1 → m1.marshal = .ok j → env.parse (env.print pretty j) = some j) → ∃ m3, Cosigned env m ss m3
  refused : ∀ (m m1 m3 : Metadata T) (s : Signer) (sig : Signature) (data : Bytes) (pretty : Bool), GoodDocument env P m → sign env m s = .ok (sig, m1) →
    sig.keyID ∈ signatureIDs m → toBytes env m1 pretty = .ok data → (∀ j, m1.marshal = .ok j → env.parse (env.print pretty j) = some j) →
    fromBytes env data ≠ .ok m3

end Tuf.Spec
