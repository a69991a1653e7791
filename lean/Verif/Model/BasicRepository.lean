import Verif.Model.Example

/-!
# examples/repository/basic_repository.go

The example program that makes and maintains a repository: creation, signing out of band, delegation, root key rotation, a mixture of key types. Keys, expiry times (the clock is
read for each of them) and the contents of the target file are parameters; the result is the temporary folder that it fills. The store `repository.New()` only holds the documents
(`Model/Repository.lean`). Generating keys, loading signers and writing files do not fail here. Errors end the program (it panics with the error); they are returned here.
-/

namespace Tuf

/-- The keys of the program; the first four are those of the top-level roles. -/
structure BasicSigners where
  targets : Signer
  snapshot : Signer
  timestamp : Signer
  root : Signer
  another : Signer
  delegatee : Signer
  newRoot : Signer
  rsa : Signer
  ecdsa : Signer

/-- The results of `helperExpireIn`, in the order of the program. -/
structure BasicTimes where
  targets : Time
  snapshot : Time
  timestamp : Time
  root : Time
  delegatee : Time
  targets2 : Time

/-- The documents in memory and the files in the temporary folder. -/
structure BasicState where
  root : Metadata RootType
  targets : Metadata TargetsType
  snapshot : Metadata SnapshotType
  timestamp : Metadata TimestampType
  dir : Entries Bytes

/-- `targetPath`, `basic_repository.go:78`. -/
def basicTarget : Str := b!"basic_repository.go"

/-- `delegateeName`, `basic_repository.go:296`. -/
def basicDelegatee : Str := b!"go-scripts"

/-- `Signed.Roles[role].Threshold = n`, `basic_repository.go:164, 529`; without the role it is a nil dereference. -/
def setThreshold (r : RootType) (role : Str) (n : Int) : Res RootType :=
  match r.roles.get? role with
  | some (some a) => .ok { r with roles := r.roles.map (fun es => es.set role (some { a with threshold := n })) }
  | _ => .panic

/-- The loops that sign, `basic_repository.go:446-455, 534-543`. -/
def signAll {T : Type} [RoleType T] (env : Env) : List Signer → Metadata T → Res (Metadata T)
  | [], m => .ok m
  | s :: ss, m => do
    let signed ← sign env m s
    signAll env ss signed.2

/-- `ToFile(filepath.Join(tmpDir, name), true)`. -/
def basicWrite {T : Type} [RoleType T] (env : Env) (dir : Entries Bytes) (name : Str) (m : Metadata T) : Res (Entries Bytes) := do
  let data ← toBytes env m true
  .ok (dir.set name data)

/-- Creation, signing and writing, `basic_repository.go:61-233`. The entry of the target file remembers the local path it was made from (not written to files). -/
def basicCreate (env : Env) (e : BasicTimes) (f : TargetFiles) (k : BasicSigners) : Res BasicState := do
  let ts ← (newTargets e.targets).signed.targets.set basicTarget (some f)
  let r0 ← genKeys env [(TARGETS, k.targets), (SNAPSHOT, k.snapshot), (TIMESTAMP, k.timestamp), (ROOT, k.root), (ROOT, k.another)] (newRoot e.root).signed
  let r ← setThreshold r0 ROOT 2
  let targets ← signAll env [k.targets] { newTargets e.targets with signed := { (newTargets e.targets).signed with targets := ts } }
  let snapshot ← signAll env [k.snapshot] (newSnapshot e.snapshot)
  let timestamp ← signAll env [k.timestamp] (newTimestamp e.timestamp)
  let root ← signAll env [k.root] { newRoot e.root with signed := r }
  let d1 ← basicWrite env [] (versionedFile targets.signed.version TARGETS) targets
  let d2 ← basicWrite env d1 (versionedFile snapshot.signed.version SNAPSHOT) snapshot
  let d3 ← basicWrite env d2 (TIMESTAMP ++ b!".json") timestamp
  let d4 ← basicWrite env d3 (versionedFile root.signed.version ROOT) root
  .ok { root := root, targets := targets, snapshot := snapshot, timestamp := timestamp, dir := d4 }

/-- The verifications of the top-level roles, `basic_repository.go:260-284, 462-486`. -/
def basicVerify (env : Env) (st : BasicState) : Res Unit := do
  verifyDelegate env (.root st.root) ROOT (.root st.root)
  verifyDelegate env (.root st.root) TARGETS (.targets st.targets)
  verifyDelegate env (.root st.root) SNAPSHOT (.snapshot st.snapshot)
  verifyDelegate env (.root st.root) TIMESTAMP (.timestamp st.timestamp)

/-- Signing out of band, `basic_repository.go:235-284`. `FromFile` fails if the file does not exist. -/
def basicCosign (env : Env) (k : BasicSigners) (st : BasicState) : Res BasicState := do
  let data ← Res.ofOption (.other "open") (st.dir.get? b!"1.root.json")
  let m : Metadata RootType ← fromBytes env data
  let root ← signAll env [k.another] m
  let dir ← basicWrite env st.dir b!"1.root.json" root
  basicVerify env { st with root := root, dir := dir }
  .ok { st with root := root, dir := dir }

/-- The delegation, `basic_repository.go:318-336`: the keys and the role; `ID` is called twice. -/
def basicDelegations (env : Env) (s : Signer) : Res Delegations := do
  let pk ← Res.ofOption keyErr s.publicKey
  let key ← keyFromPublicKey env pk
  let id ← key.ID env
  let id' ← id.2.ID env
  .ok
    { keys := some [(id.1, some id'.2)]
      roles := some [{ name := basicDelegatee, keyIDs := some [id'.1], threshold := 1, terminating := true, paths := some [b!"*.go"] }] }

/-- `Signed.Version += 1`. -/
def bump (v : Int) : Int := wrap64 (v + 1)

/-- The new targets, `basic_repository.go:322-351`. -/
def basicTargets2 (e : BasicTimes) (d : Delegations) (t : TargetsType) : TargetsType :=
  { t with delegations := some d, targets := t.targets.del basicTarget, expires := e.targets2, version := bump t.version }

/-- The delegation and the second release, `basic_repository.go:286-409`; also the document of the delegatee. -/
def basicDelegate (env : Env) (e : BasicTimes) (f : TargetFiles) (k : BasicSigners) (st : BasicState) : Res (BasicState × Metadata TargetsType) := do
  let dts ← (newTargets e.delegatee).signed.targets.set basicTarget (some f)
  let d ← basicDelegations env k.delegatee
  let m1 ← st.snapshot.signed.metas.set b!"targets.json" (some (newMetaFile (bump st.targets.signed.version)))
  let m2 ← m1.set (basicDelegatee ++ b!".json") (some (newMetaFile 1))
  let m3 ← st.timestamp.signed.metas.set b!"snapshot.json" (some (newMetaFile (bump st.snapshot.signed.version)))
  let targets ← signAll env [k.targets] (clearSignatures { st.targets with signed := basicTargets2 e d st.targets.signed })
  let d1 ← basicWrite env st.dir (versionedFile targets.signed.version TARGETS) targets
  let snapshot ← signAll env [k.snapshot] (clearSignatures { st.snapshot with signed := { st.snapshot.signed with metas := m2, version := bump st.snapshot.signed.version } })
  let d2 ← basicWrite env d1 (versionedFile snapshot.signed.version SNAPSHOT) snapshot
  let timestamp ← signAll env [k.timestamp] (clearSignatures { st.timestamp with signed := { st.timestamp.signed with metas := m3, version := bump st.timestamp.signed.version } })
  let d3 ← basicWrite env d2 (TIMESTAMP ++ b!".json") timestamp
  let delegatee ← signAll env [k.delegatee] (clearSignatures { newTargets e.delegatee with signed := { (newTargets e.delegatee).signed with targets := dts } })
  let d4 ← basicWrite env d3 (versionedFile delegatee.signed.version basicDelegatee) delegatee
  .ok ({ st with targets := targets, snapshot := snapshot, timestamp := timestamp, dir := d4 }, delegatee)

/-- The key ID of the old root key, `basic_repository.go:425-429`. -/
def signerKeyID (env : Env) (s : Signer) : Res Str := do
  let pk ← Res.ofOption keyErr s.publicKey
  let key ← keyFromPublicKey env pk
  let id ← key.ID env
  .ok id.1

/-- Root key rotation, `basic_repository.go:411-492`. -/
def basicRotate (env : Env) (k : BasicSigners) (st : BasicState) (delegatee : Metadata TargetsType) : Res BasicState := do
  let old ← signerKeyID env k.root
  let revoked := st.root.signed.revokeKey old ROOT
  let _ ← revoked.1
  let r ← genKeys env [(ROOT, k.newRoot)] revoked.2
  let root ← signAll env [k.root, k.another, k.newRoot] (clearSignatures { st.root with signed := { r with version := bump r.version } })
  let dir ← basicWrite env st.dir (versionedFile root.signed.version ROOT) root
  basicVerify env { st with root := root, dir := dir }
  verifyDelegate env (.targets st.targets) basicDelegatee (.targets delegatee)
  .ok { st with root := root, dir := dir }

/-- A mixture of key types, `basic_repository.go:494-576`. -/
def basicMix (env : Env) (k : BasicSigners) (st : BasicState) : Res BasicState := do
  let r0 ← genKeys env [(ROOT, k.rsa), (ROOT, k.ecdsa)] st.root.signed
  let r ← setThreshold r0 ROOT 4
  let root ← signAll env [k.root, k.another, k.newRoot, k.rsa, k.ecdsa] (clearSignatures { st.root with signed := { r with version := bump r.version } })
  verifyDelegate env (.root root) ROOT (.root root)
  let dir ← basicWrite env st.dir (versionedFile root.signed.version ROOT) root
  .ok { st with root := root, dir := dir }

/-- `main`, `basic_repository.go:49-577`: `data` are the contents of the target file, `localPath` its path. -/
def basicRepository (env : Env) (e : BasicTimes) (localPath : Str) (data : Bytes) (k : BasicSigners) : Res (Entries Bytes) := do
  let f ← targetFileFromBytes env localPath data [b!"sha256"]
  let s1 ← basicCreate env e f k
  let s2 ← basicCosign env k s1
  let s3 ← basicDelegate env e f k s2
  let s4 ← basicRotate env k s3.1 s3.2
  let s5 ← basicMix env k s4
  .ok s5.dir

end Tuf
