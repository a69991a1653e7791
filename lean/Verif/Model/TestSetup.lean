import Verif.Model.World

/-!
# testutils/testutils/setup.go

How the tests of the package get copies of repository files. What `os.ReadDir` gives is a parameter: the names of the entries of a folder, in order, or nothing if it fails. Reading an entry that is a
folder fails, so `readFails` is true for it. The global variables are results here.
-/

namespace Tuf

/-- `filepath.Abs`: the cleaned path, or the path below the working directory. -/
def absPath (h : Host) (path : Str) : W Str := fun w =>
  if path.head? = some 47 then (.ok (cleanPath path), w)
  else match h.cwd w.trace with
    | some cwd => (.ok (joinPath cwd path), w)
    | none => (.err ioErr, w)

/-- The loop of `Copy`, `setup.go:81-91`. -/
def copyFiles (h : Host) (fromPath toPath : Str) : List Str → W Unit
  | [] => pure ()
  | name :: rest => do
    let data ← readFile h (fromPath ++ b!"/" ++ name)
    writeFile h (toPath ++ b!"/" ++ name) data
    copyFiles h fromPath toPath rest

/-- `Copy`, `setup.go:72-93`. -/
def copyDir (h : Host) (readDir : List Event → Str → Option (List Str)) (fromPath toPath : Str) : W Unit := do
  mkdirAll h toPath
  let names ← (fun w => (Res.ofOption ioErr (readDir w.trace fromPath), w))
  copyFiles h fromPath toPath names

/-- `SetupTestDirs`, `setup.go:27-70`: `TempDir`, `RepoDir`, `TargetsDir` and `KeystoreDir`. `temp` is the new folder that `os.MkdirTemp` makes. -/
def setupTestDirs (h : Host) (readDir : List Event → Str → Option (List Str)) (temp : Option Str) (repoPath targetsPath keystorePath : Str) : W (Str × Str × Str × Str) := do
  match temp with
  | none => SM.throw ioErr
  | some tempDir => do
    let repoDir := tempDir ++ b!"/repository_data/repository"
    copyDir h readDir (← absPath h repoPath) repoDir
    let targetsDir := tempDir ++ b!"/repository_data/repository/targets"
    copyDir h readDir (← absPath h targetsPath) targetsDir
    let keystoreDir := tempDir ++ b!"/keystore"
    mkdirAll h keystoreDir
    copyDir h readDir (← absPath h keystorePath) keystoreDir
    pure (tempDir, repoDir, targetsDir, keystoreDir)

end Tuf
