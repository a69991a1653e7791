import Verif.Model.World
import Verif.Model.Std.Url

/-!
# testutils/simulator/repository_simulator.go

The repository that the tests of the updater run against: it keeps the four top-level documents, delegated roles and target files in memory, signs metadata when it is asked for, and is the
fetcher of the client. Its fields are exported, so a test may also change them directly. Documents and maps that a caller passes are taken not to be shared with it (a test that passes the same
map twice shares it). Logging is left out; `Write`, a dump for debugging, is in `Model/SimulatorDump.lean`; `log.Fatalf` ends the program and is a panic here.
-/

namespace Tuf

/-- What the simulator gets from its surroundings: the keys that `CreateKey` (`repository_simulator.go:208-219`) makes, one after the other, and the orders in which Go iterates over maps (number of
the iteration, length of the map). -/
structure SimEnv where
  env : Env
  fresh : Nat → Signer
  order : Nat → Nat → List Nat

/-- `RepositorySimulator`, `repository_simulator.go:92-109`, with the number of keys made and of maps iterated over. -/
structure Sim where
  delegates : Entries (Metadata TargetsType) := []
  signedRoots : List Bytes := []
  signers : Entries (Entries Signer) := []
  files : Entries (Bytes × TargetFiles) := []
  computeHashes : Bool := false
  prefixTargets : Bool := true
  fetchedMetadata : List (Str × Int) := []
  fetchedTargets : List (Str × Str) := []
  safeExpiry : Time
  targets : Metadata TargetsType
  snapshot : Metadata SnapshotType
  timestamp : Metadata TimestampType
  root : Metadata RootType
  localDir : Str := []
  created : Nat := 0
  iterations : Nat := 0

namespace Sim

/-- Reading a field, not code. -/
def get {α : Type} (f : Sim → α) : SM Sim α := fun s => (.ok (f s), s)

/-- Writing fields, not code. -/
def modify (f : Sim → Sim) : SM Sim Unit := fun s => (.ok (), f s)

/-- The entries of a Go map in the order of one iteration. -/
def iterate {α : Type} (q : SimEnv) (es : List α) : SM Sim (List α) := fun s =>
  let o := q.order s.iterations es.length
  let o := if o.isPerm (List.range es.length) then o else List.range es.length
  (.ok (o.filterMap (fun i => es[i]?)), { s with iterations := s.iterations + 1 })

/-- `CreateKey`, `repository_simulator.go:208-219`, and the conversion of the public key that follows every call. -/
def createKey (q : SimEnv) : SM Sim (Key × Signer) := fun s =>
  let signer := q.fresh s.created
  match signer.publicKey with
  | some pk => match keyFromPublicKey q.env pk with
    | .ok key => (.ok (key, signer), { s with created := s.created + 1 })
    | _ => (.panic, s)
  | none => (.panic, s)

/-- `AddSigner`, `repository_simulator.go:221-226`. -/
def addSigner (role keyID : Str) (signer : Signer) : SM Sim Unit := 
  modify (fun s => { s with signers := s.signers.set role (((s.signers.get? role).getD []).set keyID signer) })

/-- Make a key, add it to the role in the root, and add its signer, `repository_simulator.go:157-168, 236-245`. -/
def newKeyFor (q : SimEnv) (role : Str) : SM Sim Unit := do
  let k ← createKey q
  fun s =>
    match s.root.signed.addKey q.env k.1 role with
    | (.panic, r) => (.panic, { s with root := { s.root with signed := r } })
    | (_, r) => match k.1.ID q.env with
      | .ok id => addSigner role id.1 k.2 { s with root := { s.root with signed := r } }
      | _ => (.panic, { s with root := { s.root with signed := r } })

/-- The loops that sign, `repository_simulator.go:252-257, 408-415`: errors are only logged. -/
def signLoop {T : Type} [RoleType T] (env : Env) : List Signer → Metadata T → Res (Metadata T)
  | [], m => .ok m
  | s :: ss, m => match sign env m s with
    | .ok signed => signLoop env ss signed.2
    | .err _ => signLoop env ss m
    | .panic => .panic

/-- Clear the signatures, sign with the signers of the role, serialise, `repository_simulator.go:251-259, 407-418`. -/
def signFor {T : Type} [RoleType T] (q : SimEnv) (role : Str) (md : Metadata T) : SM Sim (Metadata T × Res Bytes) := do
  let signers ← iterate q (← get (fun s => (s.signers.get? role).getD []))
  let md ← SM.lift (signLoop q.env (signers.map Prod.snd) (clearSignatures md))
  pure (md, toBytes q.env md false)

/-- `PublishRoot`, `repository_simulator.go:250-265`: if serialising fails, nothing (nil) is appended. -/
def publishRoot (q : SimEnv) : SM Sim Unit := do
  let root ← get Sim.root
  let m ← signFor q ROOT root
  match m.2 with
  | .panic => SM.panic
  | .ok data => modify (fun s => { s with root := m.1, signedRoots := s.signedRoots ++ [data] })
  | .err _ => modify (fun s => { s with root := m.1, signedRoots := s.signedRoots ++ [[]] })

/-- A loop that makes a key for every role in the list. -/
def newKeys (q : SimEnv) : List Str → SM Sim Unit
  | [] => pure ()
  | role :: roles => do
    newKeyFor q role
    newKeys q roles

/-- `NewRepository` and `setupMinimalValidRepository`, `repository_simulator.go:112-172`; `expiry` is the current time without fractions of seconds plus 30 days. -/
def new (q : SimEnv) (expiry : Time) : Res Sim :=
  let s : Sim := { safeExpiry := expiry, targets := newTargets expiry, snapshot := newSnapshot expiry, timestamp := newTimestamp expiry, root := newRoot expiry }
  match (do newKeys q [ROOT, TIMESTAMP, SNAPSHOT, TARGETS]; publishRoot q : SM Sim Unit) s with
  | (.ok _, s) => .ok s
  | (.err e, _) => .err e
  | (.panic, _) => .panic

/-- `RotateKeys`, `repository_simulator.go:229-247`: the keys stay in the key map of the root. -/
def rotateKeys (q : SimEnv) (role : Str) : SM Sim Unit := fun s =>
  match s.root.signed.roles.get? role with
  | some (some r) =>
    newKeys q (List.replicate r.threshold.toNat role)
      { s with
        root := { s.root with signed := { s.root.signed with roles := s.root.signed.roles.map (fun es => es.set role (some { r with keyIDs := some [] })) } }
        signers := if (s.signers.get? role).isSome then s.signers.set role [] else s.signers }
  | _ => (.panic, s)

/-- `strings.SplitAfterN(s, sep, n)` for `n ≥ 0`, given the parts of `s`. -/
def splitAfterN (sep : UInt8) : Nat → List Str → List Str
  | 0, _ => []
  | 1, ps => [joinWith sep ps]
  | _ + 2, [] => []
  | _ + 2, [p] => [p]
  | n + 2, p :: q :: ps => (p ++ [sep]) :: splitAfterN sep (n + 1) (q :: ps)

/-- `lastIndex`, `repository_simulator.go:267-272`: with fewer than two separators the index is out of range. -/
def lastIndex (s : Str) (sep : UInt8) : Res (Str × Str) :=
  match splitAfterN sep ((splitOn sep s).length - 1) (splitOn sep s) with
  | a :: b :: _ => .ok (a, b)
  | _ => .panic

/-- `partition`, `repository_simulator.go:274-296`: version and role. -/
def partition (s : Str) (sep : UInt8) : Str × Str :=
  match splitOn sep s with
  | [a] => ([], a)
  | [a, b] => (a, b)
  | [a, b, c] => (a, if b = [] ∧ c = [] then b!"." else [])
  | [a, b, c, d] => (a, if b = [] ∧ c = [] ∧ d = [] then b!".." else [])
  | _ => ([], [])

/-- The value of a text of decimal digits. -/
def decimal : Nat → Str → Option Nat
  | acc, [] => some acc
  | acc, c :: r => if 48 ≤ c.toNat ∧ c.toNat ≤ 57 then decimal (acc * 10 + (c.toNat - 48)) r else none

/-- The result of `strconv.Atoi`, whose error the simulator only logs: 0 for a text that is not a number, the nearest int64 for a number that is too large. -/
def atoi (s : Str) : Int :=
  let body (neg : Bool) (r : Str) : Int :=
    if r = [] then 0
    else match decimal 0 r with
      | none => 0
      | some n => if neg then max (-(n : Int)) (-(2 ^ 63)) else min (n : Int) (2 ^ 63 - 1)
  match s with
  | 43 :: r => body false r
  | 45 :: r => body true r
  | r => body false r

/-- The error for unknown metadata, `repository_simulator.go:383, 400`. -/
def notFound : Err := .downloadHTTP 404 []

/-- `FetchMetadata` and `signMetadata`, `repository_simulator.go:375-423`. -/
def fetchMetadata (q : SimEnv) (role : Str) (version : Int) : SM Sim Bytes := do
  modify (fun s => { s with fetchedMetadata := s.fetchedMetadata ++ [(role, version)] })
  if role = ROOT then
    fun s =>
      if version > (s.signedRoots.length : Int) then (.err notFound, s)
      else if version ≤ 0 then (.panic, s)
      else match s.signedRoots[(version - 1).toNat]? with
        | some data => (.ok data, s)
        | none => (.panic, s)
  else if role = TIMESTAMP then do
    let m ← signFor q role (← get (fun s => s.timestamp))
    modify (fun s => { s with timestamp := m.1 })
    SM.lift m.2
  else if role = SNAPSHOT then do
    let m ← signFor q role (← get (fun s => s.snapshot))
    modify (fun s => { s with snapshot := m.1 })
    SM.lift m.2
  else if role = TARGETS then do
    let m ← signFor q role (← get (fun s => s.targets))
    modify (fun s => { s with targets := m.1 })
    SM.lift m.2
  else do
    match (← get (fun s => s.delegates.get? role)) with
    | none => SM.throw notFound
    | some md =>
      let m ← signFor q role md
      SM.lift m.2

/-- `FetchTarget` and `contains`, `repository_simulator.go:351-371`: the text of the hash in the URL is compared with the hashes themselves. -/
def fetchTarget (path hash : Str) : SM Sim Bytes := fun s =>
  let s := { s with fetchedTargets := s.fetchedTargets ++ [(path, hash)] }
  match s.files.get? path with
  | none => (.err (.other "no target"), s)
  | some (data, file) =>
    if hash ≠ [] && !(file.hashes.entries.any (fun e => e.2 == hash)) then (.err (.other "hash mismatch"), s)
    else (.ok data, s)

/-- `strings.TrimPrefix(s, p)`. -/
def trimPrefix (s p : Str) : Str := if hasPrefix s p then s.drop p.length else s

/-- `fetch`, `repository_simulator.go:311-347`; a URL that cannot be parsed is a nil dereference. -/
def fetch (q : SimEnv) (urlPath : Str) : SM Sim Bytes := fun s =>
  match Std.parseUrl urlPath with
  | none => (.panic, s)
  | some u =>
    let path := trimPrefix u.path s.localDir
    if hasPrefix path b!"/metadata/" && hasSuffix path b!".json" then
      let verAndName := (path.drop 10).take (path.length - 10 - 5)
      let p := partition verAndName 46
      if p.2 = ROOT ∨ (s.root.signed.consistentSnapshot = true ∧ verAndName ≠ TIMESTAMP) then fetchMetadata q p.2 (atoi p.1) s
      else fetchMetadata q verAndName (-1) s
    else if hasPrefix path b!"/targets/" then
      match lastIndex (path.drop 9) 47 with
      | .ok (dir, name) =>
        if s.root.signed.consistentSnapshot && s.prefixTargets then
          let p := partition name 46
          fetchTarget (dir ++ b!"/" ++ p.2) p.1 s
        else fetchTarget (dir ++ b!"/" ++ name) [] s
      | _ => (.panic, s)
    else (.ok [], s)

/-- `DownloadFile`, `repository_simulator.go:298-309`. -/
def downloadFile (q : SimEnv) (urlPath : Str) (maxLength : Int) : SM Sim Bytes := do
  let data ← fetch q urlPath
  if (data.length : Int) > maxLength then SM.throw (.downloadLengthMismatch "too long") else pure data

/-- `computeHashesAndLength`, `repository_simulator.go:425-434`: errors are only logged, the data is then empty. -/
def computeHashesAndLength (q : SimEnv) (role : Str) : SM Sim (Hashes × Int) := do
  let data := match (← SM.try' (fetchMetadata q role (-1))) with
    | .ok data => data
    | .error _ => []
  pure (some [(b!"sha256", q.env.sha256 data)], (data.length : Int))

/-- Hashes and length of an entry, `repository_simulator.go:439-443, 457-461`. -/
def entryFor (q : SimEnv) (role : Str) (version : Int) : SM Sim MetaFiles := do
  if (← get (fun s => s.computeHashes)) then
    let h ← computeHashesAndLength q role
    pure { length := h.2, hashes := h.1, version := version }
  else pure { length := 0, hashes := some [], version := version }

/-- `UpdateTimestamp`, `repository_simulator.go:438-451`. -/
def updateTimestamp (q : SimEnv) : SM Sim Unit := do
  let f ← entryFor q SNAPSHOT (← get (fun s => s.snapshot.signed.version))
  fun s => match s.timestamp.signed.metas.set b!"snapshot.json" (some f) with
    | .ok ms => (.ok (), { s with timestamp := { s.timestamp with signed := { s.timestamp.signed with metas := ms, version := wrap64 (s.timestamp.signed.version + 1) } } })
    | _ => (.panic, s)

/-- The loop of `UpdateSnapshot`, `repository_simulator.go:456-468`, over names and versions. -/
def listAll (q : SimEnv) : List (Str × Int) → SM Sim Unit
  | [] => pure ()
  | (role, version) :: rest => do
    let f ← entryFor q role version
    (fun s => match s.snapshot.signed.metas.set (role ++ b!".json") (some f) with
      | .ok ms => (.ok (), { s with snapshot := { s.snapshot with signed := { s.snapshot.signed with metas := ms } } })
      | _ => (.panic, s) : SM Sim Unit)
    listAll q rest

/-- `UpdateSnapshot` and `AllTargets`, `repository_simulator.go:191-206, 455-471`. -/
def updateSnapshot (q : SimEnv) : SM Sim Unit := do
  let roles ← iterate q (← get (fun s => s.delegates.map (fun e => (e.1, e.2.signed.version))))
  let top ← get (fun s => (s.targets.signed.type, s.targets.signed.version))
  listAll q (top :: roles)
  modify (fun s => { s with snapshot := { s.snapshot with signed := { s.snapshot.signed with version := wrap64 (s.snapshot.signed.version + 1) } } })
  updateTimestamp q

/-- `AddTarget`, `repository_simulator.go:483-494`. `getDelegator` (lines 474-480) copies a delegated role, but the copy shares its map of targets; without the role that map is nil. -/
def addTarget (q : SimEnv) (role : Str) (data : Bytes) (path : Str) : SM Sim Unit := fun s =>
  match targetFileFromBytes q.env path data [b!"sha256"] with
  | .ok f =>
    if role = TARGETS then
      match s.targets.signed.targets.set path (some f) with
      | .ok ts => (.ok (), { s with targets := { s.targets with signed := { s.targets.signed with targets := ts } }, files := s.files.set path (data, f) })
      | _ => (.panic, s)
    else match s.delegates.get? role with
      | none => (.panic, s)
      | some md => match md.signed.targets.set path (some f) with
        | .ok ts => (.ok (), { s with delegates := s.delegates.set role { md with signed := { md.signed with targets := ts } }, files := s.files.set path (data, f) })
        | _ => (.panic, s)
  | _ => (.panic, s)

/-- The delegations of a targets role, for reading. A delegated role that does not exist is an empty one, `repository_simulator.go:474-480`. -/
def delegator (s : Sim) (name : Str) : TargetsType :=
  if name = TARGETS then s.targets.signed
  else ((s.delegates.get? name).map (fun md => md.signed)).getD
    { type := [], specVersion := [], version := 0, expires := Time.zero }

/-- Storing what was changed behind the pointer of `getDelegator`: of a delegated role it is a copy, which only shares the delegations that the role had before. -/
def storeDelegations (s : Sim) (name : Str) (d : Option Delegations) : Sim :=
  if name = TARGETS then { s with targets := { s.targets with signed := { s.targets.signed with delegations := d } } }
  else match s.delegates.get? name with
    | some md => if md.signed.delegations.isSome then { s with delegates := s.delegates.set name { md with signed := { md.signed with delegations := d } } } else s
    | none => s

/-- `AddDelegation`, `repository_simulator.go:497-529`; the key cannot be added if it has no key ID or the key map is nil (a panic). -/
def addDelegation (q : SimEnv) (delegatorName : Str) (role : DelegatedRole) (targets : TargetsType) : SM Sim Unit := fun s =>
  let t := delegator s delegatorName
  if t.delegations.any (fun d => d.succinctRoles.isSome) then (.panic, s)
  else
    let d := t.delegations.getD { keys := some [], roles := some [] }
    let t := { t with delegations := some { d with roles := some (d.roles.elems ++ [role]) } }
    match createKey q s with
    | (.ok k, s) =>
      match t.addKey q.env k.1 role.name, k.1.ID q.env with
      | (.ok _, t), .ok id | (.err _, t), .ok id =>
        match addSigner role.name id.1 k.2 (storeDelegations s delegatorName t.delegations) with
        | (_, s) =>
          (.ok (), if (s.delegates.get? role.name).isSome then s else { s with delegates := s.delegates.set role.name { signed := targets } })
      | _, _ => (.panic, s)
    | (_, s) => (.panic, s)

/-- The bins of succinct delegations, `repository_simulator.go:553-560`. -/
def addBins (expiry : Time) (id : Str) (signer : Signer) : List Str → SM Sim Unit
  | [] => pure ()
  | name :: names => do
    modify (fun s => { s with delegates := s.delegates.set name { signed := { type := [], specVersion := [], version := 0, expires := expiry } } })
    addSigner name id signer
    addBins expiry id signer names

/-- The new delegations of `AddSuccinctRoles`: those of a delegated role only exist in the copy. -/
def replaceDelegations (s : Sim) (name : Str) (d : Option Delegations) : Sim :=
  if name = TARGETS then { s with targets := { s.targets with signed := { s.targets.signed with delegations := d } } } else s

/-- `AddSuccinctRoles`, `repository_simulator.go:535-565`: the new delegations have no key map. -/
def addSuccinctRoles (q : SimEnv) (delegatorName : Str) (bitLength : Int) (namePrefix : Str) : SM Sim Unit := fun s =>
  let t := delegator s delegatorName
  if t.delegations.any (fun d => d.roles.isSome) then (.panic, s)
  else match createKey q s with
    | (.ok k, s) =>
      let sr : SuccinctRoles := { keyIDs := some [], threshold := 1, bitLength := bitLength, namePrefix := namePrefix }
      let t := { t with delegations := some { keys := none, roles := none, succinctRoles := some sr } }
      match k.1.ID q.env with
      | .ok id => match addBins s.safeExpiry id.1 k.2 sr.getRoles (replaceDelegations s delegatorName t.delegations) with
        | (.ok _, s) => match t.addKey q.env k.1 TARGETS with
          | (.panic, t) => (.panic, replaceDelegations s delegatorName t.delegations)
          | (_, t) => (.ok (), replaceDelegations s delegatorName t.delegations)
        | (r, s) => (r, s)
      | _ => (.panic, s)
    | (_, s) => (.panic, s)

end Sim

end Tuf
