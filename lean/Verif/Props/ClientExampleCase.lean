import Verif.Props.ClientExample
import Verif.Props.CliCase

/-!
# Cases and counterexamples for the example client with trust on first use
-/

namespace Tuf
open Spec Sample

namespace Sample

/-- The URLs of the sample repository. -/
def demoURLs : DemoURLs := ⟨b!"u", b!"u/targets"⟩

/-- The server of the sample repository, with the first root and with the name of the target that carries its hash. -/
def demoServer (first : Bytes) (url : Str) : Except Err Bytes :=
  if url = b!"u/targets/0207070000000000000000000000000000000000000000000000000000000000.f" then .ok [7, 7] else cliServer first url

/-- A run of the example client for the target `f` in the working directory `w`; the server has these bytes as first root. -/
def demoRun (first : Bytes) (s : CliSt) (statFails : Bool := false) : Res (Except Err Str) × CliSt :=
  demoMain repoEnv { cliHost (demoServer first) with statFails := fun _ _ => statFails } demoURLs b!"f" s

/-- The delivered file, if any. -/
def demoFile (r : Res (Except Err Str)) : Option Str :=
  match r with
  | .ok (.ok p) => some p
  | _ => none

/-- The logged error, if any. -/
def demoError (r : Res (Except Err Str)) : Option Err :=
  match r with
  | .ok (.error e) => some e
  | _ => none

/-- The files of the client. -/
def demoFiles (s : CliSt) : List (Option Bytes) := [b!"w/tmp/root.json", b!"w/tmp/timestamp.json", b!"w/tmp/download/f"].map s.world.fs

end Sample

/-- Concrete case for C124: runs in an empty directory, also after the server has lost its first root. -/
example : demoFile (demoRun [1, 1] (cliStart [])).1 = some b!"w/tmp/download/f" ∧ demoFile (demoRun [1, 1] (demoRun [1, 1] (cliStart [])).2).1 = some b!"w/tmp/download/f" ∧
    demoFile (demoRun [9, 1] (demoRun [1, 1] (cliStart [])).2).1 = some b!"w/tmp/download/f" ∧
    demoFiles (demoRun [9, 1] (demoRun [1, 1] (cliStart [])).2).2 = [some [1, 1], some [2, 4], some [7, 7]] ∧ demoAnchor b!"w/tmp" = b!"w/tmp/root.json" := by decide +kernel

/-- Downloads do not end up in the root file of the sample client (hypothesis of C124). -/
example (path : Str) : repoEnv.urlJoin (joinPath b!"w/tmp" b!"download") (queryEscape path) ≠ some (demoAnchor b!"w/tmp") := by
  have e1 : joinPath b!"w/tmp" b!"download" = b!"w/tmp/download" := by decide +kernel
  have e2 : demoAnchor b!"w/tmp" = b!"w/tmp/root.json" := by decide +kernel
  rw [e1, e2]
  simp [repoEnv, env0, envOf]

/-- C124 does not hold when asking for the root file fails: the root file is overwritten with whatever the server has as first root. -/
theorem C124_false_stat :
    ∃ bad, (cliStart [(b!"w/tmp/root.json", [1, 1])]).world.fs b!"w/tmp/root.json" = some [1, 1] ∧ (∀ now t, Trusted.new repoEnv now bad ≠ .ok t) ∧
      (demoRun bad (cliStart [(b!"w/tmp/root.json", [1, 1])]) true).2.world.fs b!"w/tmp/root.json" = some bad ∧
      demoFile (demoRun bad (cliStart [(b!"w/tmp/root.json", [1, 1])])).1 = some b!"w/tmp/download/f" :=
  ⟨[9, 1], by decide +kernel, fun now t ht => (by obtain ⟨root, ⟨j, hj, _⟩, _⟩ := C78_new.1 ht), by decide +kernel, by decide +kernel⟩

/-- The first use does not check what it gets: when the server's answer is no root (an error page, say), it is kept as root file, the run ends with status 0 all the same, and no later run
delivers the target, though the server has a good root by then. -/
theorem C124_false_first :
    ∃ bad, demoError (demoRun bad (cliStart [])).1 = some (.other "json") ∧ (demoRun bad (cliStart [])).2.world.fs b!"w/tmp/root.json" = some bad ∧
      demoFile (demoRun [1, 1] (cliStart [])).1 = some b!"w/tmp/download/f" ∧ demoFile (demoRun [1, 1] (demoRun bad (cliStart [])).2).1 = none ∧
      (demoRun [1, 1] (demoRun bad (cliStart [])).2).2.world.fs b!"w/tmp/root.json" = some bad :=
  ⟨[9, 1], by decide +kernel⟩

/-- Concrete case for `C124_bad_anchor`: the file left by such a first use. -/
example : DemoFolder ((cliHost (cliServer [1, 1])).cwd []) b!"w/tmp" ∧ (demoRun [9, 1] (cliStart [])).2.world.fs (demoAnchor b!"w/tmp") = some [9, 1] :=
  ⟨DemoFolder.found (cwd := b!"w"), by decide +kernel⟩

end Tuf
