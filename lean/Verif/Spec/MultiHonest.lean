import Verif.Spec.MultiDirs
import Verif.Spec.Follow
import Verif.Spec.Small
import Verif.Props.SearchComplete

/-! # Specification of repositories that agree on a target -/

namespace Tuf.Spec
open Tuf

/-- The answers agree: one of the repositories has an info, and any two infos are equal in the sense of the library. -/
structure Agreed (as : Answers) : Prop where
  some' : ∃ repo info, (repo, some info) ∈ as
  equal : ∀ a i b j, (a, some i) ∈ as → (b, some j) ∈ as → i.equal j = true

/-- The repository of the client `x` has a release under a root to which the client's root leads. The roles for the path are all published and signed, they are not more than the client
visits, and exactly one of those that delegations lead to lists the path, with the length and hashes. -/
structure ListedAt (x : Ctx) (srv : Str → Int → Except Err Bytes) (now : Time) (path : Str) (len : Int) (hashes : Hashes) (r : RootType) (R : Files) (docs : Str → Option PubRole) : Prop where
  released : Released x.env now r R
  served : ServingFiles x srv r R
  roots : ∃ t0 t, Tuf.Trusted.new x.env now x.cfg.localTrustedRoot = .ok t0 ∧ 0 < t0.root.signed.version ∧ t0.root.signed.version < 2 ^ 62 ∧ RootsLeadTo x srv x.cfg.maxRootRotations.toNat t0 t ∧
    t.root.signed = readRoot r
  branches : Branches x srv now r R.sn R.tg path docs
  few : ∃ names : List Str, (∀ role, (docs role).isSome → role ∈ names) ∧ (names.length : Int) ≤ x.cfg.maxDelegations
  unhindered : Unhindered x.env path (fun m => ∃ role p, docs role = some p ∧ m = { signed := p.value })
  listed : ∃ role p f, PubReached x.env docs path role ∧ docs role = some p ∧ p.value.targets.get? path = some (some f) ∧ f.length = len ∧ f.hashes = hashes ∧
    ∀ role' p', PubReached x.env docs path role' → docs role' = some p' → (p'.value.targets.get? path).isSome → role' = role

/-- The disk has no metadata of the repository except possibly its root. -/
def NothingCached (dir : Str) (docs : Str → Option PubRole) (fs : FS) : Prop :=
  (∀ name ∈ [b!"timestamp.json", b!"snapshot.json", b!"targets.json"], fs (joinPath dir name) = none) ∧ ∀ role, (docs role).isSome → fs (joinPath dir (role ++ b!".json")) = none

/-- Disk, network and clock of the client. -/
structure GoodHost (h : Host) (srv : Str → Int → Except Err Bytes) (now : Time) : Prop where
  disk : GoodDisk h
  remove : ∀ tr p, h.removeFails tr p = false
  mkdir : ∀ tr p, h.mkdirFails tr p = false
  network : Serves h srv
  clock : ∀ tr, h.now tr = now

/-- A configuration with which a client can start: folders, and for every repository a plain name, a URL and a valid root. -/
structure CanStart (env : Env) (now : Time) (c : MultiCfg) : Prop where
  caching : c.disableLocalCache = false
  dirs : c.localMetadataDir ≠ [] ∧ c.localTargetsDir ≠ []
  unique : UniqueKeys c.repoMap.repositories
  repos : ∀ repo urls, c.repoMap.repositories.get? repo = some urls → PlainName repo ∧
    (∃ url rest, urls = some (url :: rest) ∧ url ≠ [] ∧ (env.urlJoin url b!"targets").isSome) ∧
    ∃ bytes t, c.trustedRoots.get? repo = some bytes ∧ bytes ≠ [] ∧ Tuf.Trusted.new env now bytes = .ok t

end Tuf.Spec
