import Verif.Spec.Follow
import Verif.Spec.Cli

/-!
# Specification of clients that are many root rotations behind
-/

namespace Tuf.Spec
open Tuf

/-- A root file of a repository. -/
structure RootFile where
  data : Bytes
  value : Metadata RootType

/-- The root files of a repository, oldest first: a first one that verifies itself, and each further one as a rotation of the one before. -/
structure RootLine (env : Env) (rs : List RootFile) : Prop where
  first : ∀ f : RootFile, rs[0]? = some f → ParsesTo env f.data f.value ∧ f.value.signed.type = b!"root" ∧ Verifies env (.root f.value) b!"root" (.root f.value)
  parsed : ∀ (i : Nat) (f g : RootFile), rs[i]? = some f → rs[i + 1]? = some g → ParsesTo env g.data g.value ∧ g.value.signed.type = b!"root"
  signed : ∀ (i : Nat) (f g : RootFile), rs[i]? = some f → rs[i + 1]? = some g → Verifies env (.root f.value) b!"root" (.root g.value) ∧ Verifies env (.root g.value) b!"root" (.root g.value)
  numbered : ∀ (i : Nat) (f g : RootFile), rs[i]? = some f → rs[i + 1]? = some g → g.value.signed.version = f.value.signed.version + 1
  nonempty : ∀ (i : Nat) (f : RootFile), rs[i]? = some f → f.data ≠ []
  range : ∀ (i : Nat) (f : RootFile), rs[i]? = some f → 0 ≤ f.value.signed.version ∧ f.value.signed.version < 2 ^ 62

/-- The server has these root files below the URL, and none that is newer. -/
structure HasRoots (base : Str) (limit : Int) (srv : Str → Int → Except Err Bytes) (rs : List RootFile) : Prop where
  file : ∀ (i : Nat) (f : RootFile), rs[i]? = some f → ∃ url, VersionedURL base b!"root" f.value.signed.version url ∧ srv url limit = .ok f.data
  newest : ∀ f : RootFile, rs[rs.length - 1]? = some f → ∃ url u status, VersionedURL base b!"root" (f.value.signed.version + 1) url ∧
    srv url limit = .error (.downloadHTTP status u) ∧ (status = 403 ∨ status = 404)

/-- No file on the server with the name of a root file is targets metadata. -/
def NoRootTargets (env : Env) (base : Str) (srv : Str → Int → Except Err Bytes) : Prop :=
  ∀ url limit data, (PlainURL base b!"root" url ∨ ∃ v, VersionedURL base b!"root" v url) → srv url limit = .ok data → ∀ m : Metadata TargetsType, ¬ ParsesTo env data m

/-- A `get` command runs under good conditions against a server with these root files. Nothing is said about the other files of the server: the command may fail. -/
structure GetGood (env : Env) (cwd : Str) (rs : List RootFile) (h : CliHost) (a : CliArgs) (s : CliSt) : Prop where
  getwd : h.cwd s.world.trace = some cwd
  metadata : s.folder (joinPath cwd b!"tuf_metadata") = true
  download : s.folder (joinPath cwd b!"tuf_download") = true
  stat : ∀ tr p, h.statFails tr p = false
  read : ∀ tr p, h.readFails tr p = false
  mkdir : ∀ tr p, h.mkdirFails tr p = false
  disk : GoodDisk h.toHost
  temps : NoTemps s.world.fs
  url : a.repositoryURL ≠ [] ∧ (env.urlJoin a.repositoryURL b!"targets").isSome
  server : ∃ srv, Serves h.toHost srv ∧ HasRoots a.repositoryURL 512000 srv rs ∧ NoRootTargets env a.repositoryURL srv

/-- `k` such `get` commands for any targets, and any changes of files other than the trust anchor in between. -/
inductive Gets (env : Env) (cwd : Str) (rs : List RootFile) (fs : FS) : Nat → FS → Prop
  | start : Gets env cwd rs fs 0 fs
  | get {k : Nat} {fs1 : FS} {h : CliHost} {a : CliArgs} {target : Str} {s : CliSt} : Gets env cwd rs fs k fs1 → s.world.fs = fs1 → GetGood env cwd rs h a s →
      Gets env cwd rs fs (k + 1) (getCmd env h a target s).2.world.fs
  | other {k : Nat} {fs1 fs2 : FS} : Gets env cwd rs fs k fs1 → fs2 (anchorFile cwd) = fs1 (anchorFile cwd) → Gets env cwd rs fs k fs2

end Tuf.Spec
