import Verif.Model.BasicRepository
import Verif.Spec.Grants

/-! # Specification of the second example repository -/

namespace Tuf.Spec
open Tuf Tuf.Std

/-- The nine keys of the program. -/
def _root_.Tuf.BasicSigners.all (k : BasicSigners) : List Signer := [k.targets, k.snapshot, k.timestamp, k.root, k.another, k.delegatee, k.newRoot, k.rsa, k.ecdsa]

/-- The keys work and have different key IDs. -/
structure BasicKeys (env : Env) (k : BasicSigners) : Prop where
  work : ∀ s ∈ k.all, ∃ pk key, WorkingSigner env s pk ∧ keyFromPublicKey env pk = .ok key
  distinct : k.all.Pairwise (fun s s' => ∀ id, SignerID env s id → ¬ SignerID env s' id)

/-- PEM texts are UTF-8 (`C138_texts`). -/
def PemTexts (env : Env) : Prop := ∀ pk s, env.toPem pk = some s → Utf8 s

/-- Expiry times of the calendar. -/
structure BasicCalendar (e : BasicTimes) : Prop where
  targets : CalendarTime e.targets
  snapshot : CalendarTime e.snapshot
  timestamp : CalendarTime e.timestamp
  root : CalendarTime e.root
  delegatee : CalendarTime e.delegatee
  targets2 : CalendarTime e.targets2

/-- The files that the program leaves in its folder. -/
def basicNames : List Str :=
  [b!"1.go-scripts.json", b!"1.root.json", b!"1.snapshot.json", b!"1.targets.json", b!"2.root.json", b!"2.snapshot.json", b!"2.targets.json", b!"3.root.json", b!"timestamp.json"]

/-- A client that starts with any of the three roots of the example, and a server with the folder of the example, nothing newer, and the target file. Disk and network work; the
documents are within the length limits; two rotations and two delegations are allowed. -/
structure BasicVisit (env : Env) (dir : Entries Bytes) (target : Bytes) (x : Ctx) (srv : Str → Int → Except Err Bytes) (now : Time) : Prop where
  sameEnv : x.env = std env
  root : ∃ name ∈ [b!"1.root.json", b!"2.root.json", b!"3.root.json"], dir.get? name = some x.cfg.localTrustedRoot
  online : x.cfg.unsafeLocalMode = false
  caching : x.cfg.disableLocalCache = false
  url : x.cfg.remoteMetadataURL ≠ [] ∧ x.cfg.remoteTargetsURL ≠ []
  dirs : x.cfg.localMetadataDir ≠ [] ∧ x.cfg.localTargetsDir ≠ []
  disk : GoodDisk x.host
  mkdir : ∀ tr p, x.host.mkdirFails tr p = false
  network : Serves x.host srv
  clock : ∀ tr, x.host.now tr = now
  rotations : 2 ≤ x.cfg.maxRootRotations ∧ x.cfg.maxRootRotations < 2 ^ 62
  delegations : 2 ≤ x.cfg.maxDelegations
  limits : ∀ f ∈ dir, (f.2.length : Int) ≤ x.cfg.rootMaxLength ∧ (f.2.length : Int) ≤ x.cfg.timestampMaxLength ∧ (f.2.length : Int) ≤ x.cfg.snapshotMaxLength ∧
    (f.2.length : Int) ≤ x.cfg.targetsMaxLength
  metadata : ∃ b, SlashBase x.cfg.remoteMetadataURL b ∧ (∀ f ∈ dir, ∀ n, (f.2.length : Int) ≤ n → srv (b ++ f.1) n = .ok f.2) ∧
    ∃ status u, (status = 403 ∨ status = 404) ∧ srv (b ++ b!"4.root.json") x.cfg.rootMaxLength = .error (.downloadHTTP status u)
  targets : ∃ b, SlashBase x.cfg.remoteTargetsURL b ∧ ∀ name ∈ [b!"basic_repository.go", hexEncode (env.sha256 target) ++ b!".basic_repository.go"], ∀ n, (target.length : Int) ≤ n →
    srv (b ++ name) n = .ok target

/-- No metadata is cached, except possibly a root. -/
def NoCache (x : Ctx) (fs : FS) : Prop := ∀ name ∈ [b!"timestamp.json", b!"snapshot.json", b!"targets.json", b!"go-scripts.json"], fs (joinPath x.cfg.localMetadataDir name) = none

/-- The documents of the last release are not expired. -/
def BasicFresh (e : BasicTimes) (now : Time) : Prop :=
  ¬ Expired e.root now ∧ ¬ Expired e.timestamp now ∧ ¬ Expired e.snapshot now ∧ ¬ Expired e.targets2 now ∧ ¬ Expired e.delegatee now

end Tuf.Spec
