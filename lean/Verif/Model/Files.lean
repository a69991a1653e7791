import Verif.Model.World

/-!
# Metadata and target files on disk: `FromFile` and `ToFile` of metadata/metadata.go
-/

namespace Tuf

/-- The receiver `meta` and the world. -/
structure FileSt (T : Type) where
  held : Metadata T
  world : World

/-- Run world code. -/
def withWorld {T α : Type} (m : W α) : SM (FileSt T) α := fun s =>
  match m s.world with
  | (r, w) => (r, { s with world := w })

/-- `FromFile`, `metadata.go:156-173`: `os.Open` and `io.ReadAll` are one event (`readFile`), closing cannot fail. The receiver is assigned at the end only. -/
def fromFile {T : Type} [RoleType T] (env : Env) (h : Host) (name : Str) : SM (FileSt T) (Metadata T) := do
  let data ← withWorld (readFile h name)
  let m ← SM.lift (fromBytes (T := T) env data)
  (fun s => (.ok (), { s with held := m }) : SM (FileSt T) Unit)
  pure m

/-- `ToFile`, `metadata.go:196-203`. -/
def toFile {T : Type} [RoleType T] (env : Env) (h : Host) (name : Str) (pretty : Bool) : SM (FileSt T) Unit := fun s =>
  match toBytes env s.held pretty with
  | .ok data => withWorld (writeFile h name data) s
  | .err e => (.err e, s)
  | .panic => (.panic, s)

/-- `TargetFiles.FromFile`, `metadata.go:447-461`; the receiver is neither read nor changed. -/
def targetFromFile (env : Env) (h : Host) (localPath : Str) (hashes : List Str) : W TargetFiles := do
  let data ← readFile h localPath
  SM.lift (targetFileFromBytes env localPath data hashes)

end Tuf
