import Verif.Spec.RoundTrip
import Verif.Spec.Trusted
import Verif.Spec.Updater
import Verif.Spec.Targets
import Verif.Spec.Search
import Verif.Proofs.Sorted

/-!
# Specification of publishing

Values as a repository builds them with the library, and what a client gets to see of them.
-/

namespace Tuf.Spec
open Tuf

/-- Unrecognised fields: a map (sorted, as all maps here) of decoded JSON values, without recognised names in any letter case. -/
structure GoodFields (env : Env) (names : List Str) (u : Fields) : Prop where
  sorted : Entries.Sorted u
  fresh : NoVariants names u
  values : ∀ e ∈ u, Json.toAny env.anyNum e.2 = some e.2

/-- A time that can be printed and read. -/
def GoodTime (env : Env) (t : Time) : Prop := env.parseTime t.text = some t

/-- A map whose values are not nil and good. -/
structure GoodMap {α : Type} (P : α → Prop) (m : GoMap (Option α)) : Prop where
  sorted : Entries.Sorted m.entries
  values : ∀ e ∈ m.entries, ∃ a, e.2 = some a ∧ P a

structure GoodKey (env : Env) (a : Key) : Prop where
  fields : GoodFields env [b!"keytype", b!"scheme", b!"keyval"] a.unrec
  value : GoodFields env [b!"public"] a.value.unrec

structure GoodRole (env : Env) (a : Role) : Prop where
  fields : GoodFields env [b!"keyids", b!"threshold"] a.unrec
  threshold : inInt64 a.threshold = true

structure GoodMeta (env : Env) (a : MetaFiles) : Prop where
  fields : GoodFields env [b!"length", b!"hashes", b!"version"] a.unrec
  length : inInt64 a.length = true
  version : inInt64 a.version = true
  hashes : Entries.Sorted a.hashes.entries

structure GoodTarget (env : Env) (a : TargetFiles) : Prop where
  fields : GoodFields env [b!"length", b!"hashes", b!"custom"] a.unrec
  length : inInt64 a.length = true
  hashes : Entries.Sorted a.hashes.entries
  custom : ∀ c, a.custom = some c → c ≠ .null ∧ (Json.toAny env.anyNum c).isSome

structure GoodDelegated (env : Env) (a : DelegatedRole) : Prop where
  fields : GoodFields env [b!"name", b!"keyids", b!"threshold", b!"terminating", b!"path_hash_prefixes", b!"paths"] a.unrec
  threshold : inInt64 a.threshold = true
  oneKind : a.paths = none ∨ a.pathHashPrefixes = none

structure GoodSuccinct (env : Env) (a : SuccinctRoles) : Prop where
  fields : GoodFields env [b!"keyids", b!"threshold", b!"bit_length", b!"name_prefix"] a.unrec
  threshold : inInt64 a.threshold = true
  bitLength : inInt64 a.bitLength = true

structure GoodDelegations (env : Env) (a : Delegations) : Prop where
  fields : GoodFields env [b!"keys", b!"roles", b!"succinct_roles"] a.unrec
  keys : GoodMap (GoodKey env) a.keys
  roles : ∀ r ∈ a.roles.elems, GoodDelegated env r
  succinct : ∀ s, a.succinctRoles = some s → GoodSuccinct env s
  oneKind : a.roles = none ∨ a.succinctRoles = none

structure GoodRoot (env : Env) (a : RootType) : Prop where
  fields : GoodFields env [b!"_type", b!"spec_version", b!"consistent_snapshot", b!"version", b!"expires", b!"keys", b!"roles"] a.unrec
  type : a.type = b!"root"
  version : inInt64 a.version = true
  expires : GoodTime env a.expires
  keys : GoodMap (GoodKey env) a.keys
  roles : GoodMap (GoodRole env) a.roles

structure GoodSnapshot (env : Env) (a : SnapshotType) : Prop where
  fields : GoodFields env [b!"_type", b!"spec_version", b!"version", b!"expires", b!"meta"] a.unrec
  type : a.type = b!"snapshot"
  version : inInt64 a.version = true
  expires : GoodTime env a.expires
  metas : GoodMap (GoodMeta env) a.metas

structure GoodTimestamp (env : Env) (a : TimestampType) : Prop where
  fields : GoodFields env [b!"_type", b!"spec_version", b!"version", b!"expires", b!"meta"] a.unrec
  type : a.type = b!"timestamp"
  version : inInt64 a.version = true
  expires : GoodTime env a.expires
  metas : GoodMap (GoodMeta env) a.metas

structure GoodTargets (env : Env) (a : TargetsType) : Prop where
  fields : GoodFields env [b!"_type", b!"spec_version", b!"version", b!"expires", b!"targets", b!"delegations"] a.unrec
  type : a.type = b!"targets"
  version : inInt64 a.version = true
  expires : GoodTime env a.expires
  targets : GoodMap (GoodTarget env) a.targets
  delegations : ∀ d, a.delegations = some d → GoodDelegations env d

/-- A document around a good signed part, with at most one signature per key ID. -/
structure GoodDocument {T : Type} (env : Env) (P : T → Prop) (m : Metadata T) : Prop where
  signed : P m.signed
  signatures : ∀ s ∈ m.signatures.elems, GoodFields env [b!"keyid", b!"sig"] s.unrec
  distinct : (m.signatures.elems.map Signature.keyID).Nodup
  fields : GoodFields env [b!"signed", b!"signatures"] m.unrec

/-! What is read back: key IDs that were computed are forgotten, empty hash maps of meta files are left out, targets know their paths. -/

def readKey (a : Key) : Key := { a with id := [] }

def readRoot (a : RootType) : RootType := { a with keys := mapValues readKey a.keys }

def readTargetMap (m : GoMap (Option TargetFiles)) : GoMap (Option TargetFiles) :=
  m.map (fun es => es.map (fun e => (e.1, e.2.map (fun t => { t with path := e.1 }))))

def readTargets (a : TargetsType) : TargetsType :=
  { a with targets := readTargetMap a.targets, delegations := a.delegations.map (fun d => { d with keys := mapValues readKey d.keys }) }

/-! ## Publishing -/

/-- The signers suffice for the role: at least the threshold (at least 1) of different delegated key IDs belong to them, every delegated key ID resolves to a usable
key, no verifier panics, and the signature schemes are correct: what a signer signs, the key under its key ID accepts. -/
def Suffice (env : Env) (D : AnyMeta) (role : Str) (ss : List Signer) : Prop :=
  ∃ keys ids t, Delegates D role keys ids t ∧ 1 ≤ t ∧
    (∃ S : List Str, S.Nodup ∧ t ≤ (S.length : Int) ∧ ∀ id ∈ S, id ∈ ids ∧ ∃ s ∈ ss, SignerID env s id) ∧
    (∀ id ∈ ids, ∃ key pk hf, keys.get? id = some (some key) ∧ VerifierOf env key pk hf ∧ (∀ sig p, env.verifySig pk hf sig p ≠ .panic) ∧
      ∀ s ∈ ss, SignerID env s id → ∀ p sig, s.signMessage p = some sig → env.verifySig pk hf sig p = .ok ())

/-- `data` is what `ToBytes` gives for the signed part `a` after signing with the signers `ss` (with different key IDs), starting without signatures; `encoding/json` can read
what it printed. -/
structure Publishes {T : Type} [RoleType T] (env : Env) (a : T) (ss : List Signer) (data : Bytes) : Prop where
  distinct : ss.Pairwise (fun s s' => ∀ id, SignerID env s id → ¬ SignerID env s' id)
  written : ∃ m0 m pretty, m0.signed = a ∧ m0.signatures.elems = [] ∧ GoodFields env [b!"signed", b!"signatures"] m0.unrec ∧ SignedBy env m0 ss m ∧
    toBytes env m pretty = .ok data ∧ ∀ j, m.marshal = .ok j → env.parse (env.print pretty j) = some j

/-- A release: timestamp, snapshot and top-level targets, published by signers that suffice for their roles under the root `r`, not expired at the time `now`, and listing each
other's versions (and, if at all, lengths and hashes) correctly. -/
structure Release (env : Env) (now : Time) (r : RootType) (ts : TimestampType) (sn : SnapshotType) (tg : TargetsType) (dts dsn dtg : Bytes) (fsn ftg : MetaFiles) : Prop where
  goodTimestamp : GoodTimestamp env ts
  goodSnapshot : GoodSnapshot env sn
  goodTargets : GoodTargets env tg
  timestamp : ∃ ss, Publishes env ts ss dts ∧ Suffice env (.root { signed := r }) b!"timestamp" ss
  snapshot : ∃ ss, Publishes env sn ss dsn ∧ Suffice env (.root { signed := r }) b!"snapshot" ss
  targets : ∃ ss, Publishes env tg ss dtg ∧ Suffice env (.root { signed := r }) b!"targets" ss
  rootFresh : ¬ Expired r.expires now
  timestampFresh : ¬ Expired ts.expires now
  snapshotFresh : ¬ Expired sn.expires now
  targetsFresh : ¬ Expired tg.expires now
  snapshotListed : ts.metas.get? b!"snapshot.json" = some (some fsn) ∧ fsn.version = sn.version ∧ MetaMatches env fsn dsn
  targetsListed : sn.metas.get? b!"targets.json" = some (some ftg) ∧ ftg.version = tg.version ∧ MetaMatches env ftg dtg

/-- The server has the documents of a release under the names that the client asks for, within the length limits. -/
structure Serving (x : Ctx) (srv : Str → Int → Except Err Bytes) (r : RootType) (dts dsn dtg : Bytes) (fsn ftg : MetaFiles) : Prop where
  timestamp : ∃ url, PlainURL x.cfg.remoteMetadataURL b!"timestamp" url ∧ srv url x.cfg.timestampMaxLength = .ok dts
  snapshot : ∃ url n, RoleURL x { root := { signed := r }, refTime := Time.zero } b!"snapshot" fsn.version url ∧ LengthLimit fsn.length x.cfg.snapshotMaxLength n ∧ srv url n = .ok dsn
  targets : ∃ url n, RoleURL x { root := { signed := r }, refTime := Time.zero } b!"targets" ftg.version url ∧ LengthLimit ftg.length x.cfg.targetsMaxLength n ∧ srv url n = .ok dtg

/-- The server has the target: under its path, or with consistent snapshots and hash prefixes under every prefixed name. -/
def ServingTarget (x : Ctx) (srv : Str → Int → Except Err Bytes) (consistent : Bool) (base : Str) (tf : TargetFiles) (data : Bytes) : Prop :=
  ((consistent = false ∨ x.cfg.prefixTargetsWithHash = false) ∧ srv (base ++ tf.path) tf.length = .ok data) ∨
  (consistent = true ∧ x.cfg.prefixTargetsWithHash = true ∧ tf.hashes.entries ≠ [] ∧
    ∀ alg v name, (alg, v) ∈ tf.hashes.entries → PrefixedName tf.path (hexEncode v) name → srv (base ++ name) tf.length = .ok data)

/-! ## Delegated roles -/

/-- A role name that is a file name and needs no escaping: letters, digits, `-`, `_`, `.` and `~`. -/
structure SafeName (name : Str) : Prop where
  chars : ∀ c ∈ name, (48 ≤ c.toNat ∧ c.toNat ≤ 57) ∨ (65 ≤ c.toNat ∧ c.toNat ≤ 90) ∨ (97 ≤ c.toNat ∧ c.toNat ≤ 122) ∨ c = 45 ∨ c = 95 ∨ c = 46 ∨ c = 126
  nonempty : name ≠ []
  notDot : name ≠ b!"."
  notDotDot : name ≠ b!".."

/-- A published targets role: its value, its entry in the snapshot, its file. -/
structure PubRole where
  value : TargetsType
  entry : MetaFiles
  file : Bytes

/-- The targets roles that matter for a path are all published: `docs` has the top-level role and with every role those that it delegates the path to, each unexpired, listed
in the snapshot, served, and signed by enough signers for every role that delegates to it. Delegated roles do not have the names of other top-level roles. -/
structure Branches (x : Ctx) (srv : Str → Int → Except Err Bytes) (now : Time) (r : RootType) (sn : SnapshotType) (tg : TargetsType) (path : Str) (docs : Str → Option PubRole) : Prop where
  top : ∃ p, docs b!"targets" = some p ∧ p.value = tg
  good : ∀ role p, docs role = some p → GoodTargets x.env p.value ∧ ¬ Expired p.value.expires now
  listed : ∀ role p, docs role = some p → sn.metas.get? (role ++ b!".json") = some (some p.entry) ∧ p.entry.version = p.value.version ∧ MetaMatches x.env p.entry p.file
  served : ∀ role p, docs role = some p → ∃ url n, RoleURL x { root := { signed := r }, refTime := Time.zero } role p.entry.version url ∧
    LengthLimit p.entry.length x.cfg.targetsMaxLength n ∧ srv url n = .ok p.file
  named : ∀ role p, docs role = some p → SafeName role ∧ role ∉ [b!"root", b!"timestamp", b!"snapshot"]
  bins : ∀ role p d sr, docs role = some p → p.value.delegations = some d → d.roles = none → d.succinctRoles = some sr →
    1 ≤ sr.bitLength ∧ sr.bitLength ≤ 32 ∧ 4 ≤ (x.env.sha256 path).length
  closed : ∀ role p child b, docs role = some p → Covers x.env { signed := p.value } path child b →
    ∃ q ss, docs child = some q ∧ Publishes x.env q.value ss q.file ∧ Suffice x.env (.targets { signed := p.value }) child ss

/-- The published roles that are reached from the top-level role by delegations that cover the path. -/
inductive PubReached (env : Env) (docs : Str → Option PubRole) (path : Str) : Str → Prop
  | top : PubReached env docs path b!"targets"
  | step {role child : Str} {p : PubRole} {b : Bool} : PubReached env docs path role → docs role = some p → Covers env { signed := p.value } path child b →
      PubReached env docs path child

end Tuf.Spec
