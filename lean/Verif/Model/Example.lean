import Verif.Model.Metadata

/-!
# examples/multirepo/repository/generate_metadata.go

The example program that generates a repository. Its target files and its keys are parameters; what it writes is its result. The store `repository.New()` of the program only holds
the four documents (`Model/Repository.lean`). The current time is read four times, so every document has an expiry time of its own. Errors end the program (it panics with the
error); they are returned here.
-/

namespace Tuf

/-- The name of the copy that `copyHashPrefixed` makes, `generate_metadata.go:181-192`, for a path that is already clean: hash and dot before the last component. -/
def copyName (path hash : Str) : Str :=
  (path.reverse.dropWhile (fun c => c ≠ 47)).reverse ++ hash ++ b!"." ++ (path.reverse.takeWhile (fun c => c ≠ 47)).reverse

/-- The loop over the target files, `generate_metadata.go:38-51`: the files (paths below `targets/`, which the program trims) with their contents, the targets metadata so far and the files in the
folder `targets` so far. -/
def genTargets (env : Env) : List (Str × Bytes) → TargetsType → List (Str × Bytes) → Res (TargetsType × List (Str × Bytes))
  | [], t, out => .ok (t, out)
  | (path, data) :: r, t, out => do
    let f ← targetFileFromBytes env (b!"targets/" ++ path) data [b!"sha256"]
    let ts ← t.targets.set path (some f)
    genTargets env r { t with targets := ts } (out ++ (path, data) :: f.hashes.entries.map (fun e => (copyName path (hexEncode e.2), data)))

/-- The loop that adds the keys, `generate_metadata.go:66-80`, in this order of roles. -/
def genKeys (env : Env) : List (Str × Signer) → RootType → Res RootType
  | [], r => .ok r
  | (name, s) :: rest, r => do
    let pk ← Res.ofOption keyErr s.publicKey
    let key ← keyFromPublicKey env pk
    let added := r.addKey env key name
    let _ ← added.1
    genKeys env rest added.2

/-- The keys of the top-level roles. -/
structure RoleSigners where
  targets : Signer
  snapshot : Signer
  timestamp : Signer
  root : Signer

/-- What the program writes: the folder `metadata`, the folder `targets`, and the trusted root of the client. -/
structure Generated where
  metadata : List (Str × Bytes)
  targets : List (Str × Bytes)
  clientRoot : Bytes

/-- The names of the metadata files, `generate_metadata.go:112-124`. -/
def versionedFile (version : Int) (name : Str) : Str := formatInt 10 version ++ b!"." ++ name ++ b!".json"

/-- `main`, `generate_metadata.go:28-163`. -/
def generateMetadata (env : Env) (expires : Str → Time) (files : List (Str × Bytes)) (k : RoleSigners) : Res Generated := do
  let (tg, out) ← genTargets env files (newTargets (expires TARGETS)).signed []
  let rt ← genKeys env [(TARGETS, k.targets), (SNAPSHOT, k.snapshot), (TIMESTAMP, k.timestamp), (ROOT, k.root)] (newRoot (expires ROOT)).signed
  let (_, targets) ← sign env { newTargets (expires TARGETS) with signed := tg } k.targets
  let (_, snapshot) ← sign env (newSnapshot (expires SNAPSHOT)) k.snapshot
  let (_, timestamp) ← sign env (newTimestamp (expires TIMESTAMP)) k.timestamp
  let (_, root) ← sign env { newRoot (expires ROOT) with signed := rt } k.root
  let dtg ← toBytes env targets true
  let dsn ← toBytes env snapshot true
  let dts ← toBytes env timestamp true
  let drt ← toBytes env root true
  verifyDelegate env (.root root) ROOT (.root root)
  verifyDelegate env (.root root) TARGETS (.targets targets)
  verifyDelegate env (.root root) SNAPSHOT (.snapshot snapshot)
  verifyDelegate env (.root root) TIMESTAMP (.timestamp timestamp)
  .ok
    { metadata :=
        [(versionedFile targets.signed.version TARGETS, dtg), (versionedFile snapshot.signed.version SNAPSHOT, dsn), (TIMESTAMP ++ b!".json", dts),
          (versionedFile root.signed.version ROOT, drt)]
      targets := out
      clientRoot := drt }

end Tuf
