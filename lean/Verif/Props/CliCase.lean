import Verif.Props.CliInit

/-!
# Cases and counterexamples for the command line client
-/

namespace Tuf
open Spec Sample

namespace Sample

/-- The command line client in front of a server; everything works, the user agrees to everything. -/
def cliHost (server : Str → Except Err Bytes) (keep : Bool := false) : CliHost where
  toHost := hostOf server
  statFails _ _ := false
  httpGet _ := server
  keeps _ _ _ := keep
  answer _ _ := some true

/-- The server of the sample repository, with the first root. -/
def cliServer (first : Bytes) (url : Str) : Except Err Bytes := if url = b!"u/1.root.json" then .ok first else server url

/-- Flags. -/
def cliArgs (rootPath : Str := []) (force : Bool := false) : CliArgs :=
  { repositoryURL := b!"u", targetsURL := b!"u/targets", nonPrefixed := true, rootPath := rootPath, force := force }

/-- An empty working directory `w` but for the given files. -/
def cliStart (files : List (Str × Bytes)) : CliSt := { world := { fs := disk files }, folder := fun _ => false }

/-- `init`. -/
def cliInit (first : Bytes) (files : List (Str × Bytes)) (rootPath : Str) : Res Unit × CliSt :=
  initCmd repoEnv (cliHost (cliServer first)) (cliArgs rootPath) (cliStart files)

/-- `get f`. -/
def cliGet (first : Bytes) (s : CliSt) : Res GetResult × CliSt := getCmd repoEnv (cliHost (cliServer first)) (cliArgs) b!"f" s

/-- The files of the client. -/
def cliFiles (s : CliSt) : List (Option Bytes) :=
  [b!"w/tuf_metadata/root.json", b!"w/tuf_metadata/timestamp.json", b!"w/tuf_metadata/snapshot.json", b!"w/tuf_metadata/targets.json", b!"w/tuf_download/f"].map s.world.fs

end Sample

/-- Concrete case for C94, C95, C96: `init` and two `get`s in an empty directory. -/
example : (cliInit [1, 1] [] []).1 = .ok () ∧ (cliStart []).world.fs (anchorFile b!"w") = none ∧ anchorFile b!"w" = b!"w/tuf_metadata/root.json" ∧
    (cliGet [1, 1] (cliInit [1, 1] [] []).2).1 = .ok (.downloaded b!"w/tuf_download/f") ∧
    (cliGet [1, 1] (cliGet [1, 1] (cliInit [1, 1] [] []).2).2).1 = .ok (.present b!"w/tuf_download/f") ∧
    cliFiles (cliGet [1, 1] (cliInit [1, 1] [] []).2).2 = [some [1, 1], some [2, 4], some [3, 4], some [4, 4], some [7, 7]] := by decide +kernel

/-- Downloads do not end up in the root file of the sample client (hypothesis of C95). -/
example (path : Str) : repoEnv.urlJoin (joinPath b!"w" b!"tuf_download") (queryEscape path) ≠ some (anchorFile b!"w") := by
  have e1 : joinPath b!"w" b!"tuf_download" = b!"w/tuf_download" := by decide +kernel
  have e2 : anchorFile b!"w" = b!"w/tuf_metadata/root.json" := by decide +kernel
  rw [e1, e2]
  simp [repoEnv, env0, envOf]

/-- Concrete case for C96 with a file: its name is that of the root file. -/
example : (cliInit [9] [(b!"root.json", [1, 1])] b!"root.json").1 = .ok () ∧ joinPath (joinPath b!"w" b!"tuf_metadata") b!"root.json" = anchorFile b!"w" ∧
    (cliGet [9] (cliInit [9] [(b!"root.json", [1, 1])] b!"root.json").2).1 = .ok (.downloaded b!"w/tuf_download/f") := by decide +kernel

/-- C96 does not hold for other names: `init -f my.json` ends well, but there is no root file, and `get` fails for lack of it. -/
theorem C96_false_copy :
    ∃ (files : List (Str × Bytes)), (cliInit [1, 1] files b!"my.json").1 = .ok () ∧ (cliInit [1, 1] files b!"my.json").2.world.fs (anchorFile b!"w") = none ∧
      (cliGet [1, 1] (cliInit [1, 1] files b!"my.json").2).1 = .err ioErr :=
  ⟨[(b!"my.json", [1, 1])], by decide +kernel⟩

/-- C96 does not hold for failed calls: an `init` that fails since the server's root does not verify leaves it behind as root file, and when the server has a good root again, another
`init` fails on account of the folder. -/
theorem C96_false_failure :
    ∃ bad, (cliInit bad [] []).1 ≠ .ok () ∧ (cliInit bad [] []).2.world.fs (anchorFile b!"w") = some bad ∧
      (cliInit [1, 1] [] []).1 = .ok () ∧ (initCmd repoEnv (cliHost (cliServer [1, 1])) (cliArgs) (cliInit bad [] []).2).1 = .err ioErr ∧
      (∀ r, (cliGet [1, 1] (cliInit bad [] []).2).1 ≠ .ok r) :=
  ⟨[9, 1], by decide +kernel, by decide +kernel, by decide +kernel, by decide +kernel, fun r hr => by
    have : (cliGet [1, 1] (cliInit [9, 1] [] []).2).1 = .err (.other "json") := by decide +kernel
    rw [this] at hr
    cases hr⟩

/-- Concrete case for `C96_no_second_init`. -/
example : (cliHost (cliServer [1, 1])).cwd (cliInit [1, 1] [] []).2.world.trace = some b!"w" ∧ (cliInit [1, 1] [] []).2.folder (joinPath b!"w" b!"tuf_metadata") = true := by
  decide +kernel

/-- Concrete case for `C96_bad_anchor`: the file left by a failed `init`. -/
example : (cliInit [9, 1] [] []).2.world.fs (anchorFile b!"w") = some [9, 1] ∧ ∀ now t, Trusted.new repoEnv now [9, 1] ≠ .ok t := by
  refine ⟨by decide +kernel, ?_⟩
  intro now t ht
  obtain ⟨root, ⟨j, hj, _⟩, _⟩ := C78_new.1 ht

/-- Concrete case for C98: `reset` after `init` and `get`, with and without `--force`. -/
example : (resetCmd (cliHost (cliServer [1, 1])) (cliArgs [] true) (cliGet [1, 1] (cliInit [1, 1] [] []).2).2).1 = .ok (true, true) ∧
    (resetCmd (cliHost (cliServer [1, 1])) (cliArgs) (cliGet [1, 1] (cliInit [1, 1] [] []).2).2).1 = .ok (true, true) ∧
    cliFiles (resetCmd (cliHost (cliServer [1, 1])) (cliArgs) (cliGet [1, 1] (cliInit [1, 1] [] []).2).2).2 = [none, none, none, none, none] := by decide +kernel

/-- C98 does not hold when deletions fail: `reset` says that both folders were deleted, and they are there still. -/
theorem C98_false :
    ∃ s : CliSt, (resetCmd (cliHost server true) (cliArgs [] true) s).1 = .ok (true, true) ∧ (resetCmd (cliHost server true) (cliArgs [] true) s).2.folder b!"w/tuf_metadata" = true ∧
      (resetCmd (cliHost server true) (cliArgs [] true) s).2.world.fs b!"w/tuf_metadata/root.json" = some [1, 1] :=
  ⟨{ world := { fs := disk [(b!"w/tuf_metadata/root.json", [1, 1])] }, folder := fun p => p = b!"w/tuf_metadata" || p = b!"w/tuf_download" }, by decide +kernel⟩

end Tuf
