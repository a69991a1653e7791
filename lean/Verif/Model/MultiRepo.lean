import Verif.Model.Updater

/-! # metadata/multirepo/multirepo.go -/

namespace Tuf

/-- `Mapping`, `multirepo.go:27-32`. -/
structure Mapping where
  paths : Slice Str := none
  repositories : Slice Str := none
  threshold : Int := 0
  terminating : Bool := false

/-- `MultiRepoMapType`, `multirepo.go:34-37`. -/
structure RepoMap where
  repositories : GoMap (Slice Str) := none
  mapping : Slice (Option Mapping) := none

/-! The structs of the map file have no `UnmarshalJSON`; they are decoded as `encoding/json` does it by default. An array is decoded into the elements that the slice
already has (`array` of `encoding/json/decode.go`, Go 1.21.5): a member that occurs again meets what the earlier one left in the backing array. -/

/-- A slice in the making: its elements and what is left of the backing array behind them. -/
structure Buf (α : Type) where
  slice : Slice α := none
  rest : List α := []

/-- Decode the elements of an array over old ones. -/
def decOver {α : Type} (dec : Json → α → Res α) (zero : α) : List Json → List α → Res (List α)
  | [], _ => .ok []
  | j :: r, old => do
    let a ← dec j (old.headD zero)
    let b ← decOver dec zero r old.tail
    .ok (a :: b)

/-- Decode into a slice field: `null` makes it nil, an empty array gives a new slice. -/
def decBuf {α : Type} (dec : Json → α → Res α) (zero : α) (j : Json) (b : Buf α) : Res (Buf α) :=
  match j with
  | .null => .ok {}
  | .arr [] => .ok { slice := some [] }
  | .arr l => do
    let v ← decOver dec zero l (b.slice.elems ++ b.rest)
    .ok { slice := some v, rest := (b.slice.elems ++ b.rest).drop l.length }
  | _ => .err jsonErr

/-- A `Mapping` in the making. -/
structure MappingBuf where
  paths : Buf Str := {}
  repositories : Buf Str := {}
  threshold : Int := 0
  terminating : Bool := false

def MappingBuf.done (m : MappingBuf) : Mapping := { paths := m.paths.slice, repositories := m.repositories.slice, threshold := m.threshold, terminating := m.terminating }

/-- The JSON names, `multirepo.go:28-31`. -/
def Mapping.names : List Str := [b!"paths", b!"repositories", b!"threshold", b!"terminating"]
/-- Decode one member into a `Mapping`. -/
def Mapping.setField (f : Str) (j : Json) (a : MappingBuf) : Res MappingBuf :=
  if f = b!"paths" then do
    let v ← decBuf decStr [] j a.paths
    .ok { a with paths := v }
  else if f = b!"repositories" then do
    let v ← decBuf decStr [] j a.repositories
    .ok { a with repositories := v }
  else if f = b!"threshold" then do
    let v ← decInt j a.threshold
    .ok { a with threshold := v }
  else do
    let v ← decBool j a.terminating
    .ok { a with terminating := v }
/-- Default decoding into a `*Mapping`: `null` is nil, an object is decoded into what the pointer points to, or into a new struct. -/
def Mapping.decode (j : Json) (old : Option MappingBuf) : Res (Option MappingBuf) :=
  match j with
  | .null => .ok none
  | .obj m => (decFields Mapping.names Mapping.setField m (old.getD {})).map some
  | _ => .err jsonErr

/-- A `MultiRepoMapType` in the making. -/
structure RepoMapBuf where
  repositories : GoMap (Slice Str) := none
  mapping : Buf (Option MappingBuf) := {}

def RepoMapBuf.done (m : RepoMapBuf) : RepoMap := { repositories := m.repositories, mapping := m.mapping.slice.map (fun l => l.map (fun p => p.map MappingBuf.done)) }

/-- The JSON names, `multirepo.go:35-36`. -/
def RepoMap.names : List Str := [b!"repositories", b!"mapping"]
/-- Decode one member into a `MultiRepoMapType`; the values of a map are always new. -/
def RepoMap.setField (f : Str) (j : Json) (a : RepoMapBuf) : Res RepoMapBuf :=
  if f = b!"repositories" then do
    let v ← decMap (decSlice (fun j => decStr j [])) j a.repositories
    .ok { a with repositories := v }
  else do
    let v ← decBuf Mapping.decode none j a.mapping
    .ok { a with mapping := v }
/-- Default decoding of a `MultiRepoMapType` (not of `null`, see `newMultiConfig`). -/
def RepoMap.decode (j : Json) : Res RepoMap :=
  match j with
  | .obj m => (decFields RepoMap.names RepoMap.setField m {}).map RepoMapBuf.done
  | _ => .err jsonErr

/-- `MultiRepoConfig`, `multirepo.go:40-46`; `RepoMap` is not nil (`NewConfig` panics instead). -/
structure MultiCfg where
  repoMap : RepoMap := {}
  trustedRoots : Entries Bytes := []
  localMetadataDir : Str := []
  localTargetsDir : Str := []
  disableLocalCache : Bool := false

/-- `NewConfig`, `multirepo.go:60-85`; the map file `null` leaves a nil pointer, dereferenced at line 73. -/
def newMultiConfig (env : Env) (repoMap : Bytes) (roots : Entries Bytes) : Res MultiCfg :=
  if repoMap.length = 0 ∨ roots.length = 0 then .err (.other "no map file or roots")
  else do
    let j ← Res.ofOption jsonErr (env.parse repoMap)
    let p ← decPtr RepoMap.decode j
    let m ← Res.deref p
    if m.repositories.entries.keys.all (fun repo => (roots.get? repo).isSome) then
      .ok { repoMap := m, trustedRoots := roots }
    else .err (.other "no trusted root for repository")

/-- A single-repository client: its configuration and its trusted set. -/
structure Client where
  cfg : Cfg
  trusted : Trusted

/-- State of a `MultiRepoClient` (`multirepo.go:49-52`) and the world. -/
structure MSt where
  clients : Entries Client := []
  world : World

abbrev MM (α : Type) := SM MSt α

/-- Run world code. -/
def mWorld {α : Type} (m : W α) : MM α := fun s =>
  match m s.world with
  | (r, w) => (r, { s with world := w })

/-- `client.TUFClients[repoName].method(...)`: an unknown name gives a nil `*Updater`, on which every method panics. -/
def onClient {α : Type} (env : Env) (h : Host) (repoName : Str) (m : Ctx → M α) : MM α := fun s =>
  match s.clients.get? repoName with
  | none => (.panic, s)
  | some c =>
    match m ⟨env, h, c.cfg⟩ ⟨c.trusted, s.world⟩ with
    | (r, st) => (r, { clients := s.clients.set repoName { c with trusted := st.trusted }, world := st.world })

/-- `MultiRepoConfig.EnsurePathsExist`, `multirepo.go:333-344`. -/
def multiEnsurePaths (h : Host) (c : MultiCfg) : W Unit :=
  if c.disableLocalCache then pure ()
  else do
    mkdirAll h c.localMetadataDir
    mkdirAll h c.localTargetsDir

/-- The configuration of one client, `multirepo.go:113-142`. -/
def clientCfg (env : Env) (c : MultiCfg) (repoName : Str) (url : Str) (rootBytes : Bytes) : Res Cfg := do
  let metadataDir := joinPath c.localMetadataDir repoName
  let targetsDir := if c.localTargetsDir.length = 0 then joinPath metadataDir b!"targets" else c.localTargetsDir
  let cfg ← Cfg.new env url rootBytes
  .ok { cfg with localMetadataDir := metadataDir, localTargetsDir := targetsDir, disableLocalCache := c.disableLocalCache }

/-- The loop of `initTUFClients`, `multirepo.go:107-153`; `repoURL[0]` panics on an empty list. -/
def initClients (env : Env) (h : Host) (c : MultiCfg) : List (Str × Slice Str) → MM Unit
  | [] => pure ()
  | (repoName, repoURL) :: r =>
    match repoURL.elems with
    | [] => SM.panic
    | url :: _ =>
      match c.trustedRoots.get? repoName with
      | none => SM.throw (.other "no trusted root")
      | some rootBytes => do
        mWorld (multiEnsurePaths h c)
        let cfg ← SM.lift (clientCfg env c repoName url rootBytes)
        match ← SM.try' (mWorld (newUpdater ⟨env, h, cfg⟩)) with
        | .error _ => SM.throw (.other "failed to create Updater instance")
        | .ok t => do
          (fun s => (.ok (), { s with clients := s.clients.set repoName ⟨cfg, t⟩ }) : MM Unit)
          initClients env h c r

/-- `New`, `multirepo.go:88-155`; the state starts without clients. -/
def newMultiRepo (env : Env) (h : Host) (c : MultiCfg) : MM Unit := do
  let repos ← mWorld (iterateMap h c.repoMap.repositories.entries)
  initClients env h c repos

/-- The loop of `Refresh`, `multirepo.go:162-168`. -/
def refreshClients (env : Env) (h : Host) : List Str → MM Unit
  | [] => pure ()
  | name :: r => do
    onClient env h name (fun x => refresh x)
    refreshClients env h r

/-- `Refresh`, `multirepo.go:158-170`. -/
def multiRefresh (env : Env) (h : Host) : MM Unit := fun s =>
  (do
    let names ← mWorld (iterateMap h s.clients.keys)
    refreshClients env h names) s

/-- `targetMatch`, `multirepo.go:54-57`. -/
structure TargetMatch where
  targetInfo : TargetFiles
  repositories : List Str

/-- The loop `multirepo.go:237-251` over the groups found so far; the flag is `found`. -/
def addToGroups (info : TargetFiles) (repoName : Str) : List TargetMatch → List TargetMatch × Bool
  | [] => ([], false)
  | g :: gs =>
    let (gs', found) := addToGroups info repoName gs
    if g.targetInfo.equal info then
      ((if repoName ∈ g.repositories then g else { g with repositories := g.repositories ++ [repoName] }) :: gs', true)
    else (g :: gs', found)

/-- `multirepo.go:226-260`: ask every repository of the mapping. A nil target info (impossible for parsed metadata) would panic. -/
def collectGroups (env : Env) (h : Host) (targetPath : Str) : List Str → List TargetMatch → MM (List TargetMatch)
  | [], groups => pure groups
  | repoName :: r, groups => do
    match ← SM.try' (onClient env h repoName (fun x => getTargetInfo x targetPath)) with
    | .error _ => collectGroups env h targetPath r groups
    | .ok p => do
      let info ← SM.lift (Res.deref p)
      let (groups', found) := addToGroups info repoName groups
      collectGroups env h targetPath r (if found then groups' else groups' ++ [⟨info, [repoName]⟩])

/-- The loop `multirepo.go:263-278`. `result` is a pointer to the loop variable `target`, which with the language version of `go.mod:3` (go 1.21) is one
variable for all iterations: it is only tracked whether the pointer is set. -/
def scanGroups (threshold : Int) : List TargetMatch → Bool → Res Bool
  | [], set => .ok set
  | g :: gs, set =>
    if (g.repositories.length : Int) ≥ threshold then
      if set then .err (.other "more than one target info matching the threshold") else scanGroups threshold gs true
    else scanGroups threshold gs set

/-- `multirepo.go:263-282`: after the loop the pointer, if set, reads the last element. -/
def selectGroup (threshold : Int) (groups : List TargetMatch) : Res (Option TargetMatch) := do
  let set ← scanGroups threshold groups false
  if set then .ok groups.getLast? else .ok none

/-- The loop over the path patterns of one mapping, `multirepo.go:215-293`: a result, or whether a terminating mapping matched. -/
def tryPatterns (env : Env) (h : Host) (targetPath : Str) (m : Mapping) : List Str → MM (Option TargetMatch × Bool)
  | [] => pure (none, false)
  | pattern :: r =>
    match env.glob pattern targetPath with
    | none => SM.throw (.other "bad pattern")
    | some false => tryPatterns env h targetPath m r
    | some true => do
      let groups ← collectGroups env h targetPath m.repositories.elems []
      match ← SM.lift (selectGroup m.threshold groups) with
      | some g => pure (some g, false)
      | none => if m.terminating then pure (none, true) else tryPatterns env h targetPath m r

/-- The loop over the mappings, `multirepo.go:213-300`. -/
def tryMappings (env : Env) (h : Host) (targetPath : Str) : List (Option Mapping) → MM TargetMatch
  | [] => SM.throw (.other "target info not found")
  | none :: _ => SM.panic
  | some m :: r => do
    match ← tryPatterns env h targetPath m m.paths.elems with
    | (some g, _) => pure g
    | (none, true) => SM.throw (.other "target info not found")
    | (none, false) => tryMappings env h targetPath r

/-- `MultiRepoClient.GetTargetInfo`, `multirepo.go:210-301`. -/
def multiGetTargetInfo (env : Env) (h : Host) (c : MultiCfg) (targetPath : Str) : MM TargetMatch :=
  tryMappings env h targetPath c.repoMap.mapping.elems

/-- `MultiRepoClient.DownloadTarget`, `multirepo.go:304-331`. -/
def multiDownloadTarget (env : Env) (h : Host) (tf : TargetFiles) (filePath targetBaseURL : Str) :
    List Str → MM (Str × Bytes)
  | [] => SM.throw (.other "failed to download target file")
  | repoName :: r => do
    let (path, data) ← onClient env h repoName (fun x => findCachedTarget x tf filePath)
    if path.length ≠ 0 ∧ data.length ≠ 0 then pure (path, data)
    else do
      match ← SM.try' (onClient env h repoName (fun x => downloadTarget x tf filePath targetBaseURL)) with
      | .error _ => multiDownloadTarget env h tf filePath targetBaseURL r
      | .ok res => pure res

/-- The inner loop of `GetTopLevelTargets`, `multirepo.go:180-202`. -/
def topLevelLoop (env : Env) (h : Host) (c : MultiCfg) : List Str → Entries TargetFiles → MM (Entries TargetFiles)
  | [], result => pure result
  | name :: r, result => do
    let g ← multiGetTargetInfo env h c name
    match result.get? name with
    | some val =>
      if val.equal g.targetInfo then topLevelLoop env h c r result else SM.throw (.other "target name conflict")
    | none => topLevelLoop env h c r (result.set name g.targetInfo)

/-- The outer loop of `GetTopLevelTargets`, `multirepo.go:178-203`. -/
def topLevelClients (env : Env) (h : Host) (c : MultiCfg) : List Str → Entries TargetFiles → MM (Entries TargetFiles)
  | [], result => pure result
  | repo :: r, result => do
    let ts ← onClient env h repo (fun _ => (fun s => (getTopLevelTargets s.trusted, s)))
    let names ← mWorld (iterateMap h ts.entries.keys)
    let result ← topLevelLoop env h c names result
    topLevelClients env h c r result

/-- `MultiRepoClient.GetTopLevelTargets`, `multirepo.go:173-205`. -/
def multiGetTopLevelTargets (env : Env) (h : Host) (c : MultiCfg) : MM (Entries TargetFiles) := fun s =>
  (do
    let repos ← mWorld (iterateMap h s.clients.keys)
    topLevelClients env h c repos []) s

end Tuf
