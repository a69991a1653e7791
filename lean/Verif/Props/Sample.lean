import Verif.Model.Updater

/-!
# A small concrete environment

Used only in the examples beside the theorems, to show that their hypotheses can be met, and in the counterexamples. Signatures are the bytes of the
public key, documents are looked up in a table.
-/

namespace Tuf.Sample

/-- Key material. -/
def material : PublicKey → Bytes
  | .rsa m => m
  | .ecdsa m => m
  | .ed25519 m => m
  | .unknown m => m

/-- A toy digest: the length and the last bytes of the data, padded to 32 bytes. -/
def digest (b : Bytes) : Bytes := (UInt8.ofNat b.length :: b.reverse ++ List.replicate 32 0).take 32

/-- Environment in which the given byte strings parse to the given documents. -/
def envOf (docs : List (Bytes × Json)) : Env where
  parse b := (docs.find? (fun e => e.1 == b)).map Prod.snd
  print _ _ := []
  parseTime s := some { instant := s.length, text := s }
  anyNum j := some j
  sha256 := digest
  sha512 := digest
  pem s := some (.rsa s)
  toPem pk := some (material pk)
  pkix _ := true
  loadVerifier _ _ := true
  verifySig pk _ sig _ := if sig = material pk ∧ sig ≠ [] then .ok () else .err (.other "bad signature")
  urlJoin a b := some (a ++ b!"/" ++ b)
  glob p n := some (p == n || p == b!"*")

/-- No documents. -/
def env0 : Env := envOf []

/-- An Ed25519 key with the given hex. -/
def edKey (hex : Str) : Key := { type := b!"ed25519", scheme := b!"ed25519", value := { publicKey := hex } }

/-- A signature. -/
def sigOf (id : Str) (b : Bytes) : Signature := { keyID := id, sig := b }

/-- Times. -/
def at' (n : Int) : Time := { instant := n, text := b!"t" }

end Tuf.Sample

/-! ## A small repository

All roles are signed by key `a`. Bytes `[1, v]`, `[2, v]`, `[3, v]`, `[4, v]` are root, timestamp, snapshot and targets version `v`; `[5, v]` is the
delegated role `d` version `v`; the timestamp lists snapshot version `v`, the snapshot lists version `v` for all targets roles. Times are the length of their
text, see `envOf`. -/

namespace Tuf.Sample

def sigs : Json := .arr [.obj [(b!"keyid", .str b!"a"), (b!"sig", .str b!"aa")]]
def keysJ : Json := .obj [(b!"a", .obj [(b!"keytype", .str b!"ed25519"), (b!"scheme", .str b!"ed25519"),
  (b!"keyval", .obj [(b!"public", .str b!"aa")])])]
def roleJ : Json := .obj [(b!"keyids", .arr [.str b!"a"]), (b!"threshold", .num 1)]
def doc (type : Str) (v : Int) (expires : Str) (rest : List (Str × Json)) : Json :=
  .obj [(b!"signed", .obj ([(b!"_type", .str type), (b!"spec_version", .str b!"1.0.31"), (b!"version", .num v),
    (b!"expires", .str expires)] ++ rest)), (b!"signatures", sigs)]
def rootDoc (v : Int) (expires : Str := b!"2030") : Json :=
  doc ROOT v expires [(b!"consistent_snapshot", .bool true), (b!"keys", keysJ),
    (b!"roles", .obj [(ROOT, roleJ), (TIMESTAMP, roleJ), (SNAPSHOT, roleJ), (TARGETS, roleJ)])]
def metaJ (name : Str) (v : Int) : Str × Json := (name, .obj [(b!"version", .num v)])
def timestampDoc (v : Int) (expires : Str := b!"2030") : Json :=
  doc TIMESTAMP v expires [(b!"meta", .obj [metaJ b!"snapshot.json" v])]
def snapshotDoc (v : Int) (expires : Str := b!"2030") : Json :=
  doc SNAPSHOT v expires [(b!"meta", .obj [metaJ b!"targets.json" v, metaJ b!"d.json" v])]
def targetJ (n : Int) : Json := .obj [(b!"length", .num n), (b!"hashes", .obj [(b!"sha256", .str (hexEncode (digest [7, 7])))])]
def targetsDoc (v : Int) : Json :=
  doc TARGETS v b!"2030" [(b!"targets", .obj [(b!"f", targetJ 2)]),
    (b!"delegations", .obj [(b!"keys", keysJ), (b!"roles", .arr [.obj [(b!"name", .str b!"d"), (b!"keyids", .arr [.str b!"a"]),
      (b!"threshold", .num 1), (b!"terminating", .bool false), (b!"paths", .arr [.str b!"d/*"])]])])]
def delegatedDoc (v : Int) : Json := doc TARGETS v b!"2030" [(b!"targets", .obj [(b!"d/g", targetJ 2)])]

/-- Environment of the repository. -/
def repoEnv : Env :=
  { env0 with
    parse := fun b => match b with
      | [1, v] => some (rootDoc v.toNat)
      | [2, v] => some (timestampDoc v.toNat)
      | [3, v] => some (snapshotDoc v.toNat)
      | [4, v] => some (targetsDoc v.toNat)
      | [5, v] => some (delegatedDoc v.toNat)
      | [6, v] => some (timestampDoc v.toNat b!"x")
      | [7, v] => some (snapshotDoc v.toNat b!"x")
      | [8, 0] => some (rootDoc (2 ^ 63 - 1))
      | [8, 1] => some (rootDoc (-(2 ^ 63)))
      | _ => none }

/-- Reference time: between the expiry times `x` and `2030`. -/
def now : Time := at' 2

/-- A trusted set with only the given root. -/
def start (root : Bytes) : Res Trusted := Trusted.new repoEnv now root

end Tuf.Sample

/-! ## A small server and disk -/

namespace Tuf.Sample

/-- The server of the repository at base URL `u`: root 1 is the newest, everything else has version 4. -/
def server (url : Str) : Except Err Bytes :=
  if url = b!"u/timestamp.json" then .ok [2, 4]
  else if url = b!"u/4.snapshot.json" then .ok [3, 4]
  else if url = b!"u/4.targets.json" then .ok [4, 4]
  else if url = b!"u/4.d.json" then .ok [5, 4]
  else if url = b!"u/targets/f" then .ok [7, 7]
  else .error (.downloadHTTP 404 url)

/-- A host without IO failures in front of a server. -/
def hostOf (server : Str → Except Err Bytes) : Host where
  fetch _ url _ := server url
  readFails _ _ := false
  mkdirFails _ _ := false
  cwd _ := some b!"w"
  tempName tr := some tr.length
  openFails _ _ := false
  writeCount _ n := n
  removeFails _ _ := false
  renameFails _ _ _ := false
  order _ n := List.range n
  now _ := now

def host : Host := hostOf server

/-- Files from a table. -/
def disk (files : List (Str × Bytes)) : FS := fun p => (files.find? (fun e => e.1 == p)).map Prod.snd

def cfg : Cfg where
  localTrustedRoot := [1, 1]
  localMetadataDir := b!"m"
  localTargetsDir := b!"t"
  remoteMetadataURL := b!"u"
  remoteTargetsURL := b!"u/targets"
  prefixTargetsWithHash := false

def ctx : Ctx := ⟨repoEnv, host, cfg⟩

/-- A new updater on the given files. -/
def fresh (x : Ctx) (files : List (Str × Bytes)) : Res Unit × Option St :=
  match newUpdater x { fs := disk files } with
  | (.ok t, w) => (.ok (), some ⟨t, w⟩)
  | (.err e, _) => (.err e, none)
  | (.panic, _) => (.panic, none)

/-- Run code in a new updater. -/
def session {α : Type} (x : Ctx) (files : List (Str × Bytes)) (m : M α) : Res α × Option St :=
  match fresh x files with
  | (_, none) => (.err (.other "new failed"), none)
  | (_, some s) => ((m s).1, some (m s).2)

def isFetch : Event → Bool
  | .fetch .. => true
  | _ => false

/-- URLs fetched, in order. -/
def urls (s : Option St) : List Str :=
  match s with
  | none => []
  | some s => s.world.trace.filterMap (fun e => match e with
    | .fetch u _ _ => some u
    | _ => none)

/-- Content of a file at the end. -/
def fileAt (s : Option St) (p : Str) : Option Bytes := s.bind (fun s => s.world.fs p)

/-- A complete refresh and two lookups. -/
example : ((session ctx [] (refresh ctx)).1 = .ok ()) ∧
    urls (session ctx [] (refresh ctx)).2 = [b!"u/2.root.json", b!"u/timestamp.json", b!"u/4.snapshot.json", b!"u/4.targets.json"] ∧
    fileAt (session ctx [] (refresh ctx)).2 b!"m/timestamp.json" = some [2, 4] ∧
    ((session ctx [] (getTargetInfo ctx b!"d/g")).1.map (fun o => o.map (·.path))) = .ok (some b!"d/g") := by decide +kernel

end Tuf.Sample
