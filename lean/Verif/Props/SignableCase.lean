import Verif.Props.Signable
import Verif.Props.PublishCase
import Verif.Props.Std.Time

/-! # Cases of C109: metadata that can and that cannot be signed -/

namespace Tuf
open Tuf.Spec Tuf.Sample Tuf.Std

theorem worksSigner1 : Works pubEnv (signer 1) := ⟨fun _ => ⟨_, rfl⟩, _, _, rfl, rfl⟩

/-- C109: targets metadata with an integer in an unrecognised field can be signed. -/
example : ∃ r, sign pubEnv { signed := pubTargets, signatures := some [] } (signer 1) = .ok r := by
  refine (C109_targets (m := { signed := pubTargets, signatures := some [] }) goodPubTargets worksSigner1).2 ⟨?_, ?_, ?_⟩
  · intro e he
    simp only [pubTargets, List.mem_singleton] at he
    subst he
    exact .num (by decide) (by decide)
  · intro e he a ha
    simp only [pubTargets, GoMap.entries, Option.getD_some, List.mem_singleton] at he
    subst he
    cases ha
    exact ⟨fun e he => (by cases he), fun c hc => (by cases hc)⟩
  · intro d hd
    cases hd

namespace Sample

def halfTargets : TargetsType := { pubTargets with unrec := [(b!"x-extra", .frac b!"0.5")] }

/-- A timestamp file with a fraction in an unrecognised field. -/
def halfText : Bytes := b!"{\"signatures\":[],\"signed\":{\"_type\":\"timestamp\",\"expires\":\"2030-06-01T12:00:00Z\",\"meta\":{\"snapshot.json\":{\"version\":1}},\"ratio\":0.5,\"spec_version\":\"1\",\"version\":7}}"

end Sample

theorem goodHalfTargets : GoodTargets pubEnv halfTargets :=
  { goodPubTargets with
    fields := ⟨by simp [halfTargets, Entries.Sorted], noVariants_one (by decide), by simp only [halfTargets, List.mem_singleton, forall_eq]; rfl⟩ }

/-- C109: with a fraction instead it cannot be signed. -/
example : ¬ ∃ r, sign pubEnv { signed := halfTargets, signatures := some [] } (signer 1) = .ok r := by
  rw [C109_targets (m := { signed := halfTargets, signatures := some [] }) goodHalfTargets worksSigner1]
  intro h
  have := h.1 (b!"x-extra", .frac b!"0.5") (List.mem_singleton.2 rfl)
  cases this

/-- C109: `FromBytes` reads such a file and `Sign` does not sign it. -/
theorem C109_read_not_signed : (fromBytes (T := TimestampType) (std env0) halfText >>= fun m => .ok m.signed.version) = .ok 7 ∧
    (fromBytes (T := TimestampType) (std env0) halfText >>= fun m => sign (std env0) m (signer 1) >>= fun _ => .ok ()) = .err (.other "cjson") := by
  decide +kernel

end Tuf
