import Verif.Props.Bootstrap
import Verif.Props.ClientExampleCase

/-!
# Cases and counterexamples for the example client for several repositories
-/

namespace Tuf
open Spec Sample

namespace Sample

/-- The entry of a target with these bytes. -/
def entryJ (data : Bytes) : Json := .obj [(b!"length", .num data.length), (b!"hashes", .obj [(b!"sha256", .str (hexEncode (digest data)))])]

/-- What the first repository lists. -/
def bootListing : UInt8 → List (Str × Json)
  | 0 => [(b!"map.json", entryJ [10]), (b!"1/root.json", entryJ [1, 1]), (b!"2/root.json", entryJ [1, 1]), (b!"3/root.json", entryJ [1, 1])]
  | 1 => [(b!"map.json", entryJ [10]), (b!"1/old.json", entryJ [1, 1]), (b!"1/root.json", entryJ [1, 2])]
  | 2 => [(b!"map.json", entryJ [10]), (b!"../../root.json", entryJ [8, 8])]
  | _ => [(b!"1/root.json", entryJ [1, 1])]

/-- The repositories of `multiEnv`, and bytes `[11, k]` are targets with such a listing. -/
def bootEnv : Env :=
  { multiEnv two with
    parse := fun b => match b with
      | [11, k] => some (delegatingDoc (bootListing k) [])
      | b => (multiEnv two).parse b }

/-- The servers: targets of the first repository are found by their hash. -/
def bootServer (k : UInt8) (url : Str) : Except Err Bytes :=
  if url = b!"u/timestamp.json" then .ok [2, 4]
  else if url = b!"u/4.snapshot.json" then .ok [3, 4]
  else if url = b!"u/4.targets.json" then .ok [11, k]
  else if b!"u/targets/".isPrefixOf url then
    match [[10], [1, 1], [1, 2], [8, 8]].find? (fun d => (List.range url.length).any (fun i => (hexEncode (digest d)).isPrefixOf (url.drop i))) with
    | some d => .ok d
    | none => .error (.downloadHTTP 404 url)
  else multiServer [2, 2, 2] url

def bootHost (k : UInt8) (backwards : Bool := false) : Host :=
  { hostOf (bootServer k) with
    cwd := fun _ => some b!"/w"
    order := fun _ n => if backwards then (List.range n).reverse else List.range n }

/-- A bootstrap in the working directory `/w`. -/
def bootRun (k : UInt8) (backwards : Bool := false) (root : Bytes := [1, 1]) : Res (Bytes × Entries Bytes) × World :=
  bootstrapTUF bootEnv (bootHost k backwards) demoURLs { fs := disk [(b!"/w/root.json", root)] }

/-- The example client for several repositories in the working directory `/w`. -/
def bootMain (k : UInt8) : Res (Str × Bytes) := (multiDemoMain bootEnv (bootHost k) demoURLs b!"f" { world := { fs := disk [(b!"/w/root.json", [1, 1])] } }).1

end Sample

/-- Concrete case for `C125_bootstrap` and `C125_main`: the map file and three roots; the target arrives. Without a map file there is no client. -/
example : (bootRun 0).1 = .ok ([10], [(b!"1", [1, 1]), (b!"2", [1, 1]), (b!"3", [1, 1])]) ∧ bootMain 0 = .ok (b!"/w/download/f", [7, 7]) ∧
    (bootRun 3).1 = .ok ([], [(b!"1", [1, 1])]) ∧ bootMain 3 = .err (.other "no map file or roots") := by decide +kernel

/-- Concrete case for `C125_anchor_partial`: the root file after a bootstrap. -/
example : (bootRun 0).2.fs b!"/w/root.json" = some [1, 1] := by decide +kernel

/-- When two targets share a folder, the order in which Go walks a map decides which of them becomes the root of the repository: the same server and the same files give different roots. -/
theorem C125_false_order :
    ∃ a b, a ≠ b ∧ (bootRun 1 false).1 = .ok ([10], [(b!"1", a)]) ∧ (bootRun 1 true).1 = .ok ([10], [(b!"1", b)]) :=
  ⟨[1, 2], [1, 1], by decide, by decide +kernel, by decide +kernel⟩

/-- The root file is not kept: a target named `../../root.json` replaces it, here with bytes no client starts from. -/
theorem C125_false_traversal :
    ∃ bad, (bootRun 0).2.fs b!"/w/root.json" = some [1, 1] ∧ (∀ now t, Trusted.new bootEnv now bad ≠ .ok t) ∧ (bootRun 2).1 = .ok ([10], [(b!"..", bad)]) ∧ (bootRun 2).2.fs b!"/w/root.json" = some bad :=
  ⟨[8, 8], by decide +kernel, fun now t ht => (by obtain ⟨root, ⟨j, hj, _⟩, _⟩ := C78_new.1 ht), by decide +kernel, by decide +kernel⟩

end Tuf
