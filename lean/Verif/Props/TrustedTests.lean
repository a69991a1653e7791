import Verif.Props.RepositoryData

/-!
# The tests of the trusted set

The tests of `metadata/trustedmetadata/trustedmetadata_test.go`, on the files of the repository, with the signatures that the keys of the tests make. They prove none of the claims; they are
evaluated when this file is built, since the kernel would need about a quarter of an hour.
-/

namespace Tuf
open Tuf.Spec Tuf.Std

namespace RepoData

/-! ## Signing -/

/-- The private exponent of `testutils/repository_data/keystore/root_key`. -/
def rootSecret : Nat :=
  0x9961c285156fd9e65b1346c3ce8b57b6daa4377aa825fde822f63c3b062dd58c4e6ad3a9ce73b84e4d901673cf64c7bc849620913f97a807409bf5b810db3317eaba12b8d24f867c4fdf02954e0cdf0a7812cb454cd8c87373ecac1668d1778d8f006cee07cd6a5d68561c7b9afe62a9566686953d1f62e8b096dec65700bc91

/-- The private exponent of `testutils/repository_data/keystore/timestamp_key`. -/
def timestampSecret : Nat :=
  0xc943bc050a4bb3593b00888fad853c34c00d6dbf8ee8637ce95c83a9fb22d5a4006fb71b69f99ddc2bb804d2798a4d080dc7e7e0e655e92794653d2c5be0c7b76124cc3759292aeeb2263866f02cdd630957f028fd00104a9bec6aed0946bd96f9b6645bca8fed955454b6ca27de96e0c6d579b5d3282af910ddda52f683a79

/-- The private exponent of `testutils/repository_data/keystore/snapshot_key`. -/
def snapshotSecret : Nat :=
  0x6cf158b7685ff2aaa1a917d0832b26038416f909c1f3de7ef010910b90ed03fc677ab43fb37dc01245bcaf163e7f16b042311b0056eea7ba470686a827aa9b61b2830521a06454846e1e349eb897d55d2861bf44f8108014713ee3646359860dc57469ecb1a8510aa2b13b1fa11d5bbe6acb0bef48fed0c0ac7b8cb9d9b5b259

/-- The private exponent of `testutils/repository_data/keystore/targets_key`. -/
def targetsSecret : Nat :=
  0x35869844b1d64b558c36ae9432606d2593d5943854e8cadb4aac19a235828e3eea4a1f19174a3c02688c743c53c00246675ecfca2418d5c413115be66aa5887c92af8a901c4ef9225c5ac0c5e21ffc760855f08ff5407c46a849b9fb1c5f30d0caf65398975ab477ca7b6255faae361abb0de1537ad7014479ddcdb85f0d1a31

/-- The signer that `signature.LoadSignerFromPEMFile` gives for a key of a role: RSA, PKCS #1 v1.5. -/
def signer (role : Str) (secret : Nat) : Res Signer := do
  let r ← root
  let key ← match r.signed.roles.get? role with
    | some (some x) => match r.signed.keys.get? (x.keyIDs.elems.headD []) with
      | some (some k) => k.toPublicKey env
      | _ => .panic
    | _ => .panic
  match key with
  | .rsa bs => match Real.rsaNumbers bs with
    | some (n, _) =>
      let k := (n.log2 + 8) / 8
      .ok { signMessage := fun data =>
              let t := Real.digestInfo ++ Real.sha256 data
              some (Real.toBytes k (Real.powMod n 4096 (Real.toNumber 0 ([0, 1] ++ List.replicate (k - 3 - t.length) 255 ++ [0] ++ t)) secret 1))
            publicKey := some key }
    | none => .panic
  | _ => .panic

/-- `modifyRootMetadata` and the three like it, `trustedmetadata_test.go:92-180`. -/
def modified {T : Type} [RoleType T] (m : Res (Metadata T)) (role : Str) (secret : Nat) (f : T → T) : Res Bytes := do
  let m ← m
  let (_, m) ← sign env { m with signed := f m.signed, signatures := some [] } (← signer role secret)
  Tuf.toBytes env m true
def modifyRoot (f : RootType → RootType) : Res Bytes := modified root ROOT rootSecret f
def modifyTimestamp (f : TimestampType → TimestampType) : Res Bytes := modified timestamp TIMESTAMP timestampSecret f
def modifySnapshot (f : SnapshotType → SnapshotType) : Res Bytes := modified snapshot SNAPSHOT snapshotSecret f
def modifyTargets (f : TargetsType → TargetsType) : Res Bytes := modified targets TARGETS targetsSecret f

/-- Metadata changed and not signed again. -/
def unsigned {T : Type} [RoleType T] (m : Res (Metadata T)) (f : Metadata T → Metadata T) : Res Bytes := do
  let m ← m
  Tuf.toBytes env (f m) true

/-- An entry of `Meta` changed. -/
def entry (name : Str) (f : MetaFiles → MetaFiles) (ms : GoMap (Option MetaFiles)) : GoMap (Option MetaFiles) :=
  ms.map (List.map (fun e => if e.1 = name then (e.1, e.2.map f) else e))

/-! ## The tests -/

inductive Kind where
  | fine | runtime | value | unsigned | badVersion | equalVersion | expired | mismatch | repository | other | crash
  deriving DecidableEq

def kind {α : Type} : Res α → Kind
  | .ok _ => .fine
  | .panic => .crash
  | .err (.runtime _) => .runtime
  | .err (.value _) => .value
  | .err (.unsignedMetadata _) => .unsigned
  | .err (.badVersionNumber _) => .badVersion
  | .err (.equalVersionNumber _) => .equalVersion
  | .err (.expiredMetadata _) => .expired
  | .err (.lengthOrHashMismatch _) => .mismatch
  | .err (.repository _) => .repository
  | .err _ => .other

inductive Op where
  | root (data : Bytes)
  | timestamp (data : Bytes)
  | snapshot (data : Bytes)
  | targets (data : Bytes)
  | delegated (data : Bytes) (role delegator : Str)

def apply (t : Trusted) : Op → Kind × Trusted
  | .root d => let r := t.updateRoot env d; (kind r.1, r.2)
  | .timestamp d => let r := t.updateTimestamp env d; (kind r.1, r.2)
  | .snapshot d => let r := t.updateSnapshot env d false; (kind r.1, r.2)
  | .targets d => let r := t.updateTargets env d; (kind r.1, r.2)
  | .delegated d role parent => let r := t.updateDelegatedTargets env d role parent; (kind r.1, r.2)

/-- Whether calls, one after the other, have the given outcomes. -/
def applyAll : Trusted → List (Op × Kind) → Bool
  | _, [] => true
  | t, (o, k) :: r => match apply t o with
    | (k', t') => if k = k' then applyAll t' r else false

def from' (rootBytes : Bytes) (steps : List (Op × Kind)) : Res (List Bool) := do
  let t ← Trusted.new env (timeOf ⟨2025, 1, 1, 0, 0, 0, 0, 0⟩) rootBytes
  .ok [applyAll t steps]

def past : Time := timeOf ⟨1970, 1, 1, 0, 0, 0, 0, 0⟩

/-- `TestUpdate`, lines 182-202. -/
def update : Bool := holds <| from' rootData
  [(.timestamp timestampData, .fine), (.snapshot snapshotData, .fine), (.targets targetsData, .fine), (.delegated role1Data b!"role1" TARGETS, .fine), (.delegated role2Data b!"role2" b!"role1", .fine)]

/-- `TestOutOfOrderOps`, lines 204-243. -/
def outOfOrder : Bool := holds <| from' rootData
  [(.snapshot snapshotData, .runtime), (.timestamp timestampData, .fine), (.root rootData, .runtime), (.targets targetsData, .runtime), (.snapshot snapshotData, .fine), (.timestamp timestampData, .runtime),
    (.delegated role1Data b!"role1" TARGETS, .runtime), (.targets targetsData, .fine), (.snapshot snapshotData, .runtime), (.delegated role1Data b!"role1" TARGETS, .fine)]

/-- `TestRootWithInvalidJson`, lines 245-267. -/
def invalidRoot : Bool := holds do
  let r ← unsigned root (fun m => { m with signed := { m.signed with version := m.signed.version + 1 } })
  from' rootData [(.root [], .other), (.root r, .unsigned), (.root snapshotData, .value)]

/-- `TestTopLevelMetadataWithInvalidJSON`, lines 269-334. -/
def invalidTopLevel : Bool := holds do
  let t ← unsigned timestamp (fun m => { m with signed := { m.signed with version := m.signed.version + 1 } })
  let s ← unsigned snapshot (fun m => { m with signed := { m.signed with version := m.signed.version + 1 } })
  let g ← unsigned targets (fun m => { m with signed := { m.signed with version := m.signed.version + 1 } })
  from' rootData [(.timestamp [], .other), (.timestamp t, .unsigned), (.timestamp rootData, .value), (.timestamp timestampData, .fine), (.snapshot [], .other), (.snapshot s, .unsigned), (.snapshot rootData, .value),
    (.snapshot snapshotData, .fine), (.targets [], .other), (.targets g, .unsigned), (.targets rootData, .value)]

/-- `TestUpdateRootNewRoot`, lines 336-349. -/
def newRootTest : Bool := holds do
  from' rootData [(.root (← modifyRoot (fun s => { s with version := s.version + 1 })), .fine)]

/-- `TestUpdateRootNewRootFailTreshholdVerification`, lines 351-364. -/
def newRootThreshold : Bool := holds do
  let r ← modifyRoot (fun s => { s with version := s.version + 1, roles := s.roles.map (List.map (fun e => if e.1 = ROOT then (e.1, e.2.map (fun x => { x with threshold := x.threshold + 1 })) else e)) })
  from' rootData [(.root r, .unsigned)]

/-- `TestUpdateRootNewRootVerSameAsTrustedRootVer`, lines 366-372. -/
def sameRoot : Bool := holds <| from' rootData [(.root rootData, .badVersion)]

/-- `TestRootExpiredFinalRoot`, lines 374-389. -/
def expiredRoot : Bool := holds do
  from' (← modifyRoot (fun s => { s with expires := past })) [(.timestamp timestampData, .expired)]

/-- `TestUpdateTimestampNewTimestampVerBelowTrustedVer`, lines 391-405. -/
def timestampBelow : Bool := holds do
  from' rootData [(.timestamp (← modifyTimestamp (fun s => { s with version := 3 })), .fine), (.timestamp timestampData, .badVersion)]

/-- `TestUpdateTimestampWithSameTimestamp`, lines 407-423. -/
def sameTimestamp : Bool := holds <| from' rootData [(.timestamp timestampData, .fine), (.timestamp timestampData, .equalVersion)]

/-- `TestUpdateTimestampSnapshotCerBellowCurrent`, lines 425-442. -/
def snapshotVersionBelow : Bool := holds do
  let t ← modifyTimestamp (fun s => { s with version := s.version + 1, metas := entry b!"snapshot.json" (fun f => { f with version := 2 }) s.metas })
  from' rootData [(.timestamp t, .fine), (.timestamp timestampData, .badVersion)]

/-- `TestUpdateTimestampExpired`, lines 444-458. -/
def timestampExpired : Bool := holds do
  from' rootData [(.timestamp (← modifyTimestamp (fun s => { s with expires := past })), .expired), (.snapshot snapshotData, .expired)]

/-- `TestUpdateSnapshotLengthOrHashMismatch`, lines 460-473. -/
def snapshotLength : Bool := holds do
  let t ← modifyTimestamp (fun s => { s with metas := entry b!"snapshot.json" (fun f => { f with length := 1 }) s.metas })
  from' rootData [(.timestamp t, .fine), (.snapshot snapshotData, .mismatch)]

/-- `TestUpdateSnapshotFailThreshholdVerification`, lines 475-488. -/
def snapshotUnsigned : Bool := holds do
  let s ← unsigned snapshot (fun m => { m with signatures := some [] })
  from' rootData [(.timestamp timestampData, .fine), (.snapshot s, .unsigned)]

/-- `TestUpdateSnapshotVersionDivergeTimestampSnapshotVersion`, lines 490-508. -/
def snapshotVersionDiverges : Bool := holds do
  let t ← modifyTimestamp (fun s => { s with metas := entry b!"snapshot.json" (fun f => { f with version := 2 }) s.metas })
  from' rootData [(.timestamp t, .fine), (.snapshot snapshotData, .badVersion), (.targets targetsData, .badVersion)]

/-- `TestUpdateSnapshotFileRemovedFromMeta`, lines 529-542. -/
def fileRemoved : Bool := holds do
  let s ← modifySnapshot (fun s => { s with metas := s.metas.map (List.filter (fun e => e.1 ≠ b!"targets.json")) })
  from' rootData [(.timestamp timestampData, .fine), (.snapshot snapshotData, .fine), (.snapshot s, .repository)]

/-- `TestUpdateSnapshotMetaVersionDecreases`, lines 544-560. -/
def metaVersionDecreases : Bool := holds do
  let s ← modifySnapshot (fun s => { s with metas := entry b!"targets.json" (fun f => { f with version := f.version + 1 }) s.metas })
  from' rootData [(.timestamp timestampData, .fine), (.snapshot s, .fine), (.snapshot snapshotData, .badVersion)]

/-- `TestUpdateSnapshotExpiredNewSnapshot`, lines 562-582. -/
def snapshotExpired : Bool := holds do
  from' rootData [(.timestamp timestampData, .fine), (.snapshot (← modifySnapshot (fun s => { s with expires := past })), .expired), (.targets targetsData, .expired)]

/-- `TestUpdateSnapshotSuccessfulRollbackChecks`, lines 584-617. -/
def rollbackChecks : Bool := holds do
  let t ← modifyTimestamp (fun s => { s with version := s.version + 1, metas := entry b!"snapshot.json" (fun f => { f with version := f.version + 1 }) s.metas })
  let s ← modifySnapshot (fun s => { s with version := s.version + 1 })
  from' rootData [(.timestamp timestampData, .fine), (.timestamp t, .fine), (.snapshot snapshotData, .badVersion), (.snapshot s, .fine), (.targets targetsData, .fine)]

/-- `TestUpdateTargetsMoMetaInSnapshot`, lines 619-635. -/
def noMeta : Bool := holds do
  from' rootData [(.timestamp timestampData, .fine), (.snapshot (← modifySnapshot (fun s => { s with metas := some [] })), .fine), (.targets targetsData, .repository)]

/-- `TestUpdateTargetsHashDiverfeFromSnapshotMetaHash`, lines 637-656. -/
def targetsLength : Bool := holds do
  let s ← modifySnapshot (fun s => { s with metas := s.metas.map (List.map (fun e => (e.1, some { version := 1, length := 1 }))) })
  from' rootData [(.timestamp timestampData, .fine), (.snapshot s, .fine), (.targets targetsData, .mismatch)]

/-- `TestUpdateTargetsVersionDivergeSnapshotMetaVersion`, lines 658-674. -/
def targetsVersion : Bool := holds do
  let s ← modifySnapshot (fun s => { s with metas := s.metas.map (List.map (fun e => (e.1, some { version := 2 }))) })
  from' rootData [(.timestamp timestampData, .fine), (.snapshot s, .fine), (.targets targetsData, .badVersion)]

/-- `TestUpdateTargetsExpiredMewTarget`, lines 676-692. -/
def targetsExpired : Bool := holds do
  from' rootData [(.timestamp timestampData, .fine), (.snapshot snapshotData, .fine), (.targets (← modifyTargets (fun s => { s with expires := past })), .expired)]

/-- A file signed again by the model is the file of the repository: keys, canonical JSON and signatures are those of the code. -/
def sameSignatures : Bool :=
  decide (modifyRoot id = .ok rootData) && decide (modifyTimestamp id = .ok timestampData) && decide (modifySnapshot id = .ok snapshotData) && decide (modifyTargets id = .ok targetsData)

end RepoData

open RepoData

#guard update
#guard outOfOrder
#guard invalidRoot
#guard invalidTopLevel
#guard newRootTest
#guard newRootThreshold
#guard sameRoot
#guard expiredRoot
#guard timestampBelow
#guard sameTimestamp
#guard snapshotVersionBelow
#guard timestampExpired
#guard snapshotLength
#guard snapshotUnsigned
#guard snapshotVersionDiverges
#guard fileRemoved
#guard metaVersionDecreases
#guard snapshotExpired
#guard rollbackChecks
#guard noMeta
#guard targetsLength
#guard targetsVersion
#guard targetsExpired
#guard sameSignatures

end Tuf
