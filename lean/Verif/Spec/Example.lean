import Verif.Model.Example
import Verif.Spec.Follow
import Verif.Spec.KeyIds
import Verif.Spec.Std.Text
import Verif.Model.Std.Env
import Verif.Spec.Std.Time

/-! # Specification of the example repository -/

namespace Tuf.Spec
open Tuf Tuf.Std

/-- A working Ed25519 signer with public key `m`: it signs every message, and the library for signatures accepts the key and what was signed with it. -/
structure EdSigner (env : Env) (s : Signer) (m : Bytes) : Prop where
  «public» : s.publicKey = some (.ed25519 m)
  usable : env.pkix (.ed25519 m) = true ∧ env.loadVerifier (.ed25519 m) .none = true
  total : ∀ sig p, env.verifySig (.ed25519 m) .none sig p ≠ .panic
  signs : ∀ p, ∃ sig, s.signMessage p = some sig ∧ env.verifySig (.ed25519 m) .none sig p = .ok ()

/-- The four keys of the program; different keys have different key IDs. -/
structure WorkingKeys (env : Env) (k : RoleSigners) : Prop where
  all : ∀ s ∈ [k.targets, k.snapshot, k.timestamp, k.root], ∃ m, EdSigner env s m
  distinct : ∀ s ∈ [k.targets, k.snapshot, k.timestamp, k.root], ∀ s' ∈ [k.targets, k.snapshot, k.timestamp, k.root], ∀ id,
    SignerID env s id → SignerID env s' id → s.publicKey = s'.publicKey

/-- Target files that metadata can describe: paths are different UTF-8 texts, lengths fit 64 bits. -/
structure GoodFiles (files : List (Str × Bytes)) : Prop where
  paths : (files.map Prod.fst).Nodup
  text : ∀ f ∈ files, Utf8 f.1
  length : ∀ f ∈ files, f.2.length < 2 ^ 63

/-- The time is one of the calendar. -/
def CalendarTime (t : Time) : Prop := ∃ c, ValidCivil c ∧ t = timeOf c

/-- A client that starts with the root of the example, and a server with the two folders of the example and nothing newer. Disk and network work; the documents are within the
length limits. -/
structure ExampleVisit (env : Env) (g : Generated) (x : Ctx) (srv : Str → Int → Except Err Bytes) (now : Time) : Prop where
  sameEnv : x.env = std env
  root : x.cfg.localTrustedRoot = g.clientRoot
  online : x.cfg.unsafeLocalMode = false
  caching : x.cfg.disableLocalCache = false
  url : x.cfg.remoteMetadataURL ≠ [] ∧ x.cfg.remoteTargetsURL ≠ []
  dirs : x.cfg.localMetadataDir ≠ [] ∧ x.cfg.localTargetsDir ≠ []
  disk : GoodDisk x.host
  mkdir : ∀ tr p, x.host.mkdirFails tr p = false
  network : Serves x.host srv
  clock : ∀ tr, x.host.now tr = now
  rotations : 0 ≤ x.cfg.maxRootRotations ∧ x.cfg.maxRootRotations < 2 ^ 62
  delegations : 0 ≤ x.cfg.maxDelegations
  limits : ∀ f ∈ g.metadata, (f.2.length : Int) ≤ x.cfg.timestampMaxLength ∧ (f.2.length : Int) ≤ x.cfg.snapshotMaxLength ∧ (f.2.length : Int) ≤ x.cfg.targetsMaxLength
  metadata : ∃ b, SlashBase x.cfg.remoteMetadataURL b ∧ (∀ f ∈ g.metadata, ∀ n, (f.2.length : Int) ≤ n → srv (b ++ f.1) n = .ok f.2) ∧
    ∃ status u, (status = 403 ∨ status = 404) ∧ srv (b ++ b!"2.root.json") x.cfg.rootMaxLength = .error (.downloadHTTP status u)
  targets : ∃ b, SlashBase x.cfg.remoteTargetsURL b ∧ ∀ f ∈ g.targets, ∀ n, (f.2.length : Int) ≤ n → srv (b ++ f.1) n = .ok f.2

/-- The cached top-level metadata, where there is any, are the files of the example. -/
def ExampleCache (g : Generated) (x : Ctx) (fs : FS) : Prop :=
  ∀ name file, (name, file) ∈ [(b!"timestamp.json", b!"timestamp.json"), (b!"snapshot.json", b!"1.snapshot.json"), (b!"targets.json", b!"1.targets.json")] →
    ∀ d, fs (joinPath x.cfg.localMetadataDir name) = some d → (file, d) ∈ g.metadata

end Tuf.Spec
