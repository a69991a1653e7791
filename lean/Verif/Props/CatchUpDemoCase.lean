import Verif.Props.CatchUpDemo
import Verif.Props.CatchUpCase

/-!
# The example client, 39 root rotations behind

Hypotheses of the theorems on the example client are met.
-/

namespace Tuf
open Spec Sample

namespace Sample

/-- The example client with this trusted root. -/
def upDemo (d : Bytes) : CliSt := { world := { fs := disk [(b!"w/tmp/root.json", d)] }, folder := fun _ => false }

def upURLs : DemoURLs := ⟨b!"u", b!"u/targets"⟩

/-- The result of a run: the file, or whether the root has expired. -/
def upShown : Res (Except Err Str) → Str × Bool
  | .ok (.ok file) => (file, false)
  | .ok (.error e) => ([], decide (e = .expiredMetadata "final root.json is expired"))
  | _ => ([], false)

end Sample

theorem upDemoTemps {d : Bytes} : NoTemps (upDemo d).world.fs := by
  intro p hp
  have e : persistPath { cfg with localMetadataDir := b!"w/tmp" } ROOT = b!"w/tmp/root.json" := by decide +kernel
  by_cases h : b!"w/tmp/root.json" = p
  · rw [← h, ← e] at hp
    exact absurd hp (persistPath_not_temp _ _)
  · simp [upDemo, disk, h]

theorem upDemoGood (s : CliSt) (h2 : NoTemps s.world.fs) : DemoGood upEnv b!"w" upLine (cliHost upServer) upURLs s where
  getwd := rfl
  stat := fun _ _ => rfl
  read := fun _ _ => rfl
  mkdir := fun _ _ => rfl
  disk := ⟨fun _ => rfl, fun _ => rfl, fun _ _ => rfl, fun _ _ => Nat.le_refl _, fun _ _ _ => rfl⟩
  temps := h2
  url := ⟨by decide, rfl⟩
  server := ⟨fun u _ => upServer u, fun _ _ _ => rfl, upHas _, upNoTargets⟩

theorem upDemoAnchor : demoAnchor (joinPath b!"w" b!"tmp") = b!"w/tmp/root.json" := by decide +kernel

theorem upDemoAnchor_at (d : Bytes) : (upDemo d).world.fs (demoAnchor (joinPath b!"w" b!"tmp")) = some d := by
  rw [upDemoAnchor]
  rfl

theorem upDemoApart (path : Str) : upEnv.urlJoin (joinPath (joinPath b!"w" b!"tmp") b!"download") (queryEscape path) ≠ some (demoAnchor (joinPath b!"w" b!"tmp")) := by
  have e1 : joinPath (joinPath b!"w" b!"tmp") b!"download" = b!"w/tmp/download" := by decide +kernel
  rw [e1, upDemoAnchor]
  simp [upEnv, repoEnv, env0, envOf]

/-- A case of `C136_demo_runs`: one run takes the trusted root from the first root to the 33rd. -/
theorem upDemoOnce : DemoRuns upEnv b!"w" upLine (upDemo [1, 1]).world.fs 1 (upDemo [1, 33]).world.fs := by
  have h1 : DemoRuns upEnv b!"w" upLine (upDemo [1, 1]).world.fs 1 (demoMain upEnv (cliHost upServer) upURLs b!"f" (upDemo [1, 1])).2.world.fs := .run .start rfl (upDemoGood _ upDemoTemps)
  obtain ⟨g, k1, k2⟩ := C136_demo_runs upRootLine h1 upDemoApart (i := 0) (f := ⟨[1, 1], upValue 1⟩) (by simp [upLine]) (upDemoAnchor_at _)
  refine .other h1 ?_
  rw [k2, upDemoAnchor_at]
  obtain ⟨_, rfl⟩ := upLine_get k1
  simp [upLine]

/-- A case of `C136_demo_caught_up`: with the second run the trusted root is the newest one. -/
example : (demoMain upEnv (cliHost upServer) upURLs b!"f" (upDemo [1, 33])).2.world.fs (demoAnchor (joinPath b!"w" b!"tmp")) = some [1, 40] :=
  C136_demo_caught_up upRootLine (.run upDemoOnce rfl (upDemoGood _ upDemoTemps)) upDemoApart (f := ⟨[1, 1], upValue 1⟩) (newest := ⟨[1, 40], upValue 40⟩) (by simp [upLine])
    (upDemoAnchor_at _) (by simp [upLine]) (by simp [upLine])

/-- The first run finds that the root it got to has expired. -/
example : upShown (demoMain upEnv (cliHost upServer) upURLs b!"f" (upDemo [1, 1])).1 = ([], true) := by decide +kernel

end Tuf
