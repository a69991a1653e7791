import Verif.Props.Retry
import Verif.Props.AttackCase

/-!
# A client that refreshes again

Hypotheses of C145 are met: the client of C134 is first given only the timestamp of the first release with one more signature, so its refresh fails. It calls `Refresh` again when the
repository with the second release can be reached.
-/

namespace Tuf
open Spec Sample

namespace Sample
def againServer (url : Str) : Except Err Bytes := if url = b!"u/timestamp.json" then .ok [2, 5] else .error (.downloadHTTP 404 url)
def againCtx : Ctx := ⟨attEnv, hostOf againServer, attCfg⟩
/-- The client after the failed refresh. -/
def againState : St := (refresh againCtx attStart).2
end Sample

theorem again_careful : Careful attEnv attHolders b!"m" (folFiles 2) againCtx attStart.trusted := ⟨rfl, rfl, ⟨now, attStart_new⟩, att_wellGuarded, attReleases _⟩

theorem again_files : (refresh againCtx attStart).2.world.fs = replay attStart.world.fs (refresh againCtx attStart).2.world.trace := by
  obtain ⟨evs, h1, h2, _⟩ := exec_all (Q := fun _ => True) (session_exec (x := againCtx) (.step .refresh (.refl (s := attStart)))) (fun _ _ _ _ => trivial)
  have h1' : (refresh againCtx attStart).2.world.trace = evs := h1
  rw [h1']
  exact h2

theorem again_attacked : Attacked (Careful attEnv attHolders b!"m" (folFiles 2)) b!"m" (fun _ => none) againState.world.fs :=
  .call (x := againCtx) (w := attStart.world) (s := attStart) (a := .refresh) (evs := (refresh againCtx attStart).2.world.trace) .start
    again_careful .refl rfl ⟨_, [], (List.append_nil _).symm, .inl again_files⟩ (by intro _ _ _ _ h; cases h)

/-- A case of `C145_again_partial`. -/
example : (refresh againCtx attStart).1.isOk = false ∧ versions againState.trusted = (1, some 1, none, none) ∧
    ∃ ts sn tg s', refresh { againCtx with host := attRun.x.host } againState = (.ok (), s') ∧ s'.trusted.root = againState.trusted.root ∧
      s'.trusted.timestamp = some ts ∧ viewTimestamp ts.signed = viewTimestamp (folTimestamp 2) ∧ s'.trusted.snapshot = some sn ∧ viewSnapshot sn.signed = viewSnapshot (folSnapshot 2) ∧
      s'.trusted.targets = [(b!"targets", tg)] ∧ viewTargets tg.signed = viewTargets (readTargets (folTargets 2)) := by
  refine ⟨by decide +kernel, by decide +kernel, ?_⟩
  have hroot : againState.trusted.root = attSigned attRoot := by
    rfl
  refine C145_again_partial attEnv_laws att_diligent again_careful (w := attStart.world) (.step .refresh .refl) again_attacked ⟨by simp, by simp, by simp⟩ (by decide +kernel)
    (srv := attRun.srv) (r := attRoot) rfl (attReleased (.inr rfl)) attServing attGood.network attGood.disk ?_ ?_ ?_ ?_
  · rintro p ⟨tr, cwd, n, h1, h2, rfl⟩
    cases h1
    cases h2
    decide +kernel
  · decide +kernel
  · exact .newest (n := 31) (url := b!"u/2.root.json") (status := 404) ⟨_, pubBase, by
      show _ = b!"u/" ++ formatInt 10 (wrap64 (againState.trusted.root.signed.version + 1)) ++ _ ++ _ ++ _
      rw [hroot]; decide +kernel⟩ rfl (.inr rfl)
  · show againState.trusted.root.signed = _
    rw [hroot]; rfl

end Tuf
