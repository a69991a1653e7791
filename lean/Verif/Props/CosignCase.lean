import Verif.Props.Cosign
import Verif.Props.Example
import Verif.Props.FollowCase

/-!
# Signing in turn reaches the threshold (C115)
-/

namespace Tuf
open Spec Sample

variable {env : Env}

/-- Verification looks only at the signatures and the payload. -/
theorem verifyDelegate_same {D a b : AnyMeta} {role : Str} (hs : a.signatures = b.signatures) (hp : a.payload = b.payload) :
    verifyDelegate env D role a = verifyDelegate env D role b := by
  have h1 : ∀ keys id, verifyWithKey env keys a id = verifyWithKey env keys b id := by
    intro keys id
    unfold verifyWithKey
    simp only [hs, hp]
  have h2 : ∀ keys ids acc, verifyLoop env keys a ids acc = verifyLoop env keys b ids acc := by
    intro keys ids
    induction ids with
    | nil => intro acc; rfl
    | cons id r ih => intro acc; simp only [verifyLoop, h1, ih]
  unfold verifyDelegate
  simp only [h2]

/-- C115: a document that enough signers of a role signed in turn is accepted by the delegator, as if they had signed it in one place. -/
theorem C115_threshold {T : Type} [RoleType T] {P : T → Prop} (hw : CosigningWorks env P)
    (hany : ∀ m : Metadata T, (RoleType.any m).signatures = m.signatures.elems ∧ (RoleType.any m).payload = payload m.signed)
    {m m3 : Metadata T} {ss : List Signer} (hg : GoodDocument env P m) (h : Cosigned env m ss m3) {D : AnyMeta} {role : Str} (hsuf : Suffice env D role ss) :
    verifyDelegate env D role (RoleType.any m3) = .ok () := by
  obtain ⟨m', h1, h2, _, h4⟩ := hw.same m m3 ss hg h
  rw [← signed_verifies hany h1 hsuf]
  refine verifyDelegate_same ?_ ?_
  · rw [(hany _).1, (hany _).1, h2]
  · rw [(hany _).2, (hany _).2]
    show RoleType.marshal _ >>= canonical = RoleType.marshal _ >>= canonical
    rw [h4, signedBy_signed h1]

/-! ## A case -/

namespace Sample

def cosStart : Metadata TimestampType := { signed := folTimestamp 1, signatures := some [] }
def cosSigned (ks : List UInt8) : Metadata TimestampType :=
  ks.foldl (fun m k => match sign env0 m (signer k) with
    | .ok (_, m) => m
    | _ => m) cosStart
def cosJson (ks : List UInt8) : Json :=
  match (cosSigned ks).marshal with
  | .ok j => j
  | _ => .null

def cosSignatures (j : Json) : List UInt8 :=
  match j with
  | .obj m => match Entries.get? m b!"signatures" with
    | some (.arr l) => l.map (fun s => match s with
      | .obj s => match Entries.get? s b!"sig" with
        | some (.str [_, c]) => c - 48
        | _ => 9
      | _ => 9)
    | _ => []
  | _ => []

/-- What `encoding/json` does on a timestamp with signatures of the keys 1 and 2. -/
def cosEnv : Env :=
  { folEnv with
    print := fun _ j => 2 :: cosSignatures j
    parse := fun b => match b with
      | [2, 1] => some (cosJson [1])
      | [2, 2] => some (cosJson [2])
      | [2, 1, 2] => some (cosJson [1, 2])
      | [2, 2, 1] => some (cosJson [2, 1])
      | [2, 1, 1] => some (cosJson [1, 1])
      | _ => none }

end Sample

theorem cosEnv_laws : EnvLaws cosEnv where
  anyIdem := fun _ _ _ => rfl
  anyInt := fun _ _ => rfl
  time := folEnv_laws.time
  zeroTime := rfl

theorem cosGood : GoodDocument cosEnv (GoodTimestamp cosEnv) cosStart where
  signed := ⟨goodFields_nil _, rfl, rfl, rfl, ⟨by simp [cosStart, folTimestamp, Entries.Sorted, GoMap.entries], by
    simp only [cosStart, folTimestamp, GoMap.entries, Option.getD_some, List.mem_singleton, forall_eq]
    exact ⟨_, rfl, goodFields_nil _, rfl, rfl, List.Pairwise.nil⟩⟩⟩
  signatures := by intro s hs; cases hs
  distinct := List.Pairwise.nil
  fields := goodFields_nil _

/-- The hypotheses of C115 are met: the signers 1 and 2 sign in turn, ... -/
theorem cosCase : ∃ m3, Cosigned cosEnv cosStart [signer 1, signer 2] m3 :=
  ⟨_, .cons (pretty := true) (sig := { keyID := idOf 1, sig := [1] }) (m1 := cosSigned [1]) (data := [2, 1]) rfl rfl (by intro j hj; cases hj; rfl) rfl
    (.cons (pretty := true) (sig := { keyID := idOf 2, sig := [2] }) (m1 := { cosSigned [1, 2] with signed := viewTimestamp (folTimestamp 1) }) (data := [2, 1, 2]) rfl rfl
      (by intro j hj; cases hj; rfl) rfl .nil)⟩

/-- ... but not signer 1 twice: the file that is written then cannot be read. -/
example : (¬ ∃ m3, Cosigned cosEnv cosStart [signer 1, signer 1] m3) ∧ toBytes cosEnv (cosSigned [1, 1]) true = .ok [2, 1, 1] ∧
    (fromBytes cosEnv [2, 1, 1] : Res (Metadata TimestampType)).isOk = false := by
  refine ⟨?_, by decide +kernel, by decide +kernel⟩
  rintro ⟨m3, h⟩
  have hd := ((C115_timestamp cosEnv_laws).distinct _ _ _ cosGood h).1
  rw [List.pairwise_cons] at hd
  have hid : SignerID cosEnv (signer 1) (idOf 1) := ⟨_, folKey 1, _, rfl, rfl, rfl⟩
  exact hd.1 (signer 1) (by simp) _ hid hid

end Tuf
