import Verif.Props.TestSetup
import Verif.Props.SimulatorDumpCase

/-! # Cases of C147 and C148 -/

namespace Tuf
open Tuf.Spec Tuf.Sample Tuf.Std

/-- C147: the hypotheses are met by the simulator of C131. -/
example (w : World) : ∃ sim w' d w2, initMetadataDir simEnv dumpHost (some b!"/tmp/x") simExpiry w = (.ok (sim, b!"/tmp/x/metadata", b!"/tmp/x/targets", none), w') ∧ sim.localDir = b!"/tmp/x" ∧
    sim.signedRoots = [d] ∧ getRootBytes dumpHost b!"/tmp/x/metadata" w' = (.ok d, w2) ∧ ∀ now, ∃ t, Trusted.new simEnv.env now d = .ok t ∧ t.root.signed = readRoot sim.root.signed :=
  C147_new (env := env0) rfl simFresh simCalendar dumpDisk (fun _ _ => rfl) b!"/tmp/x" w

/-- C147: a write that stops early is an error, and the root file then is shorter. -/
example : (match initMetadataDir simEnv { dumpHost with writeCount := fun _ _ => 5 } (some b!"/tmp/x") simExpiry { fs := disk [] } with
    | (.ok (_, _, _, er), w') => (er.isSome, (w'.fs b!"/tmp/x/metadata/root.json").map List.length)
    | _ => (false, none)) = (true, some 5) := by decide +kernel

namespace Sample

/-- Folders of two, one and no files, below the working directory `w`. -/
def setupList (_ : List Event) (p : Str) : Option (List Str) := if p = b!"w/repo" then some [b!"a", b!"b"] else if p = b!"/t" then some [b!"f"] else if p = b!"w/keys" then some [] else none
def setupWorld : World := { fs := disk [(b!"w/repo/a", [1]), (b!"w/repo/b", [2]), (b!"/t/f", [3])] }
def setupRun (h : Host) : Res (Str × Str × Str × Str) × World := setupTestDirs h setupList (some b!"/tmp/x") b!"repo" b!"/t" b!"keys" setupWorld
/-- One of the entries is a folder. -/
def setupFolder : Host := { dumpHost with readFails := fun _ p => p == b!"w/repo/b" }

end Sample

theorem setupList_plain : ∀ tr p names, setupList tr p = some names → ∀ n ∈ names, (47 : UInt8) ∉ n := by
  intro tr p names hp
  unfold setupList at hp
  split at hp
  · cases hp; decide
  · split at hp
    · cases hp; decide
    · split at hp
      · cases hp; decide
      · cases hp

/-- C148: the hypotheses are met; the files are copied. -/
example : (setupRun dumpHost).1 = .ok (b!"/tmp/x", b!"/tmp/x/repository_data/repository", b!"/tmp/x/repository_data/repository/targets", b!"/tmp/x/keystore") ∧
    (setupRun dumpHost).2.fs b!"/tmp/x/repository_data/repository/b" = some [2] ∧ (setupRun dumpHost).2.fs b!"/tmp/x/repository_data/repository/targets/f" = some [3] ∧
    (setupRun dumpHost).2.fs b!"/t/f" = some [3] := by decide +kernel

/-- C148: a folder among the entries makes it fail. -/
example : (setupRun setupFolder).1 = .err ioErr := by decide +kernel

/-- C148: its conclusion for this case. -/
example {w' : World} (hs : setupRun dumpHost = (.ok (b!"/tmp/x", b!"/tmp/x/repository_data/repository", b!"/tmp/x/repository_data/repository/targets", b!"/tmp/x/keystore"), w')) :
    ∀ p, ¬ Below b!"/tmp/x" p → w'.fs p = setupWorld.fs p := (C148_setup setupList_plain hs).2.2.2.2.1

end Tuf
