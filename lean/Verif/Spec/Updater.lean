import Verif.Model.Updater
import Verif.Spec.Trusted

/-!
# Specification vocabulary for the updater

Executions are sequences of events and of calls of the trusted set. `EventOk` says what each event must look like in the state in which
it happens.
-/

namespace Tuf.Spec
open Tuf

/-! ## API calls and sessions -/

/-- A call of a method of `Updater`. -/
inductive Api where
  | refresh
  | getTargetInfo (path : Str)
  | downloadTarget (tf : TargetFiles) (filePath targetBaseURL : Str)
  | findCachedTarget (tf : TargetFiles) (filePath : Str)

/-- Outcome without its value, and the state afterwards. -/
def Api.run (x : Ctx) (s : St) : Api → Res Unit × St
  | .refresh => (outcome (Tuf.refresh x s).1, (Tuf.refresh x s).2)
  | .getTargetInfo p => (outcome (Tuf.getTargetInfo x p s).1, (Tuf.getTargetInfo x p s).2)
  | .downloadTarget tf f u => (outcome (Tuf.downloadTarget x tf f u s).1, (Tuf.downloadTarget x tf f u s).2)
  | .findCachedTarget tf f => (outcome (Tuf.findCachedTarget x tf f s).1, (Tuf.findCachedTarget x tf f s).2)

/-- `Session x s s'`: some sequence of API calls, with any arguments and outcomes, leads from `s` to `s'`. -/
inductive Session (x : Ctx) (s : St) : St → Prop
  | refl : Session x s s
  | step {s' : St} (a : Api) : Session x s s' → Session x s (a.run x s').2

/-! ## Files and events -/

/-- The files after some events. -/
def replay (fs : FS) (evs : List Event) : FS := evs.foldl applyEvent fs

/-- Names of temporary files: `<dir>/tuf_tmp<number>`. -/
def TempName (p : Str) : Prop := ∃ dir n, p = dir ++ b!"/tuf_tmp" ++ formatNat 10 n

/-- The URL prefix for metadata ends in a slash, added if missing. -/
def SlashBase (base url : Str) : Prop := (url = base ∧ b!"/" <:+ base) ∨ (url = base ++ b!"/" ∧ ¬ b!"/" <:+ base)

/-- `<base>/<role>.json`. -/
def PlainURL (base role url : Str) : Prop := ∃ b, SlashBase base b ∧ url = b ++ queryEscape role ++ b!".json"

/-- `<base>/<version>.<role>.json`. -/
def VersionedURL (base role : Str) (version : Int) (url : Str) : Prop :=
  ∃ b, SlashBase base b ∧ url = b ++ formatInt 10 version ++ b!"." ++ queryEscape role ++ b!".json"

/-- Snapshot and targets are versioned exactly under consistent snapshots. -/
def RoleURL (x : Ctx) (t : Trusted) (role : Str) (version : Int) (url : Str) : Prop :=
  (t.root.signed.consistentSnapshot = true ∧ VersionedURL x.cfg.remoteMetadataURL role version url) ∨
  (t.root.signed.consistentSnapshot = false ∧ PlainURL x.cfg.remoteMetadataURL role url)

/-- The length listed in the parent metadata, or the configured maximum if that is zero. -/
def LengthLimit (listed max n : Int) : Prop := (listed ≠ 0 ∧ n = listed) ∨ (listed = 0 ∧ n = max)

/-- The metadata downloads that are allowed when the trusted set is `t`: URL and maximum length. -/
inductive MetadataRequest (x : Ctx) (t : Trusted) : Str → Int → Prop
  /-- The next root version. -/
  | root {url : Str} : VersionedURL x.cfg.remoteMetadataURL b!"root" (wrap64 (t.root.signed.version + 1)) url →
      MetadataRequest x t url x.cfg.rootMaxLength
  | timestamp {url : Str} : PlainURL x.cfg.remoteMetadataURL b!"timestamp" url →
      MetadataRequest x t url x.cfg.timestampMaxLength
  /-- The snapshot version that the trusted timestamp lists. -/
  | snapshot {url : Str} {n : Int} {ts : Metadata TimestampType} {f : MetaFiles} :
      t.timestamp = some ts → ts.signed.metas.get? b!"snapshot.json" = some (some f) →
      RoleURL x t b!"snapshot" f.version url → LengthLimit f.length x.cfg.snapshotMaxLength n → MetadataRequest x t url n
  /-- The version of a targets role that the trusted snapshot lists. -/
  | targets {url role : Str} {n : Int} {sn : Metadata SnapshotType} {f : MetaFiles} :
      t.snapshot = some sn → sn.signed.metas.get? (role ++ b!".json") = some (some f) →
      RoleURL x t role f.version url → LengthLimit f.length x.cfg.targetsMaxLength n → MetadataRequest x t url n

/-- The call offers these bytes for this role. -/
def Call.Offers (role : Str) (data : Bytes) : Call → Prop
  | .root d => role = b!"root" ∧ d = data
  | .timestamp d => role = b!"timestamp" ∧ d = data
  | .snapshot d b => role = b!"snapshot" ∧ d = data ∧ b = false
  | .targets d r _ => role = r ∧ d = data

/-- The calls of the updater in state `t`: a targets role only if it is not loaded, the top-level one under the root, others after it. -/
def UpdaterCall (t : Trusted) : Call → Prop
  | .targets _ role delegator => t.targets.get? role = none ∧
    ((role = b!"targets" ∧ delegator = b!"root") ∨ (t.targets.get? b!"targets").isSome)
  | _ => True

/-- The trusted set has just accepted these bytes for this role: a call that offers them, made in a state reachable from `T`, succeeded and led to `t`. -/
def JustAccepted (env : Env) (T t : Trusted) (role : Str) (data : Bytes) : Prop :=
  ∃ (c : Call) (before : Trusted), c.Offers role data ∧ ClientHistory env T before ∧ UpdaterCall before c ∧ c.run env before = (.ok (), t)

/-- What a call may do: whether it may download metadata, other downloads, and other files that it may write. -/
structure Extra where
  metadata : Prop
  fetch : Str → Int → Prop
  file : Str → Prop

/-- Metadata and nothing else. -/
def Extra.none : Extra := ⟨True, fun _ _ => False, fun _ => False⟩

/-- What an event must look like in state `s` of a call that began with trusted set `T`. `justified` tells which bytes may be moved into the cache. -/
def EventOk (x : Ctx) (extra : Extra) (justified : Trusted → Str → Bytes → Prop) (s : St) : Event → Prop
  | .fetch url n r => r = x.host.fetch s.world.trace url n ∧
      (extra.metadata ∧ (x.cfg.unsafeLocalMode = true → (s.trusted.targets.get? b!"targets").isSome) ∧ MetadataRequest x s.trusted url n ∨ extra.fetch url n)
  | .read p r => r = none ∨ r = s.world.fs p
  | .mkdir _ _ => x.cfg.disableLocalCache = false
  | .createTemp p => x.cfg.disableLocalCache = false ∧ TempName p ∧ s.world.fs p = none
  | .truncate p => x.cfg.disableLocalCache = false ∧ (TempName p ∨ extra.file p)
  | .write p _ => x.cfg.disableLocalCache = false ∧ (TempName p ∨ extra.file p)
  | .remove p => x.cfg.disableLocalCache = false ∧ TempName p
  | .rename src dst => x.cfg.disableLocalCache = false ∧ TempName src ∧
      ∃ role data, dst = joinPath x.cfg.localMetadataDir (queryEscape role ++ b!".json") ∧ s.world.fs src = some data ∧
        justified s.trusted role data
  | .failed _ => x.cfg.disableLocalCache = false
  | .iterate _ => True

/-- The file states in which a crash during the events `evs` can leave the disk: after some of them, or within a write. -/
def CrashState (fs : FS) (evs : List Event) (fs' : FS) : Prop :=
  ∃ before after, evs = before ++ after ∧
    (fs' = replay fs before ∨ ∃ p b k rest, after = .write p b :: rest ∧ fs' = replay fs (before ++ [.write p (b.take k)]))

/-! ## Refresh -/

/-- The downloads among some events: URL, maximum length and result. -/
def downloads (evs : List Event) : List (Str × Int × Except Err Bytes) :=
  evs.filterMap (fun e => match e with
    | .fetch url n r => some (url, n, r)
    | _ => none)

/-- `RootPhase x n t ds out`: with trusted set `t` and at most `n` requests, the downloads `ds` are those of a correct root update. Each asks for the version after
the trusted one; a root that is accepted becomes the trusted one before the next request; the update ends well (`out` is the trusted set) when the
limit is reached or the server has no newer root, and fails (`none`) otherwise. -/
inductive RootPhase (x : Ctx) : Nat → Trusted → List (Str × Int × Except Err Bytes) → Option Trusted → Prop
  | limit {t : Trusted} : RootPhase x 0 t [] (some t)
  | newest {n : Nat} {t : Trusted} {url u : Str} {status : Int} :
      VersionedURL x.cfg.remoteMetadataURL b!"root" (wrap64 (t.root.signed.version + 1)) url → status = 403 ∨ status = 404 →
      RootPhase x (n + 1) t [(url, x.cfg.rootMaxLength, .error (.downloadHTTP status u))] (some t)
  | failed {n : Nat} {t : Trusted} {url : Str} {e : Err} :
      VersionedURL x.cfg.remoteMetadataURL b!"root" (wrap64 (t.root.signed.version + 1)) url →
      (∀ status u, e = .downloadHTTP status u → status ≠ 403 ∧ status ≠ 404) →
      RootPhase x (n + 1) t [(url, x.cfg.rootMaxLength, .error e)] none
  | refused {n : Nat} {t : Trusted} {url : Str} {data : Bytes} :
      VersionedURL x.cfg.remoteMetadataURL b!"root" (wrap64 (t.root.signed.version + 1)) url →
      (¬ ∃ new, RootAccepted x.env t data new) → RootPhase x (n + 1) t [(url, x.cfg.rootMaxLength, .ok data)] none
  | notStored {n : Nat} {t : Trusted} {url : Str} {data : Bytes} {new : Metadata RootType} :
      VersionedURL x.cfg.remoteMetadataURL b!"root" (wrap64 (t.root.signed.version + 1)) url →
      RootAccepted x.env t data new → RootPhase x (n + 1) t [(url, x.cfg.rootMaxLength, .ok data)] none
  | rotated {n : Nat} {t : Trusted} {url : Str} {data : Bytes} {new : Metadata RootType} {ds : List (Str × Int × Except Err Bytes)} {out : Option Trusted} :
      VersionedURL x.cfg.remoteMetadataURL b!"root" (wrap64 (t.root.signed.version + 1)) url →
      RootAccepted x.env t data new → RootPhase x n { t with root := new } ds out →
      RootPhase x (n + 1) t ((url, x.cfg.rootMaxLength, .ok data) :: ds) out

/-- A complete and consistent trusted set: all four top-level roles, none expired, signed as the root demands, with the versions listed by their parents. -/
structure CompleteSet (env : Env) (t : Trusted) : Prop where
  rootFresh : ¬ Expired t.root.signed.expires t.refTime
  roles : ∃ ts sn tg, t.timestamp = some ts ∧ t.snapshot = some sn ∧ t.targets.get? b!"targets" = some tg ∧
    ¬ Expired ts.signed.expires t.refTime ∧ ¬ Expired sn.signed.expires t.refTime ∧ ¬ Expired tg.signed.expires t.refTime ∧
    Verifies env (.root t.root) b!"timestamp" (.timestamp ts) ∧ Verifies env (.root t.root) b!"snapshot" (.snapshot sn) ∧
    Verifies env (.root t.root) b!"targets" (.targets tg) ∧
    Lists ts.signed.metas b!"snapshot.json" sn.signed.version ∧ Lists sn.signed.metas b!"targets.json" tg.signed.version

/-! ## Progress -/

/-- The server's answers depend only on the request. -/
def Serves (h : Host) (srv : Str → Int → Except Err Bytes) : Prop := ∀ tr url n, h.fetch tr url n = srv url n

/-- No file operation fails. -/
structure GoodDisk (h : Host) : Prop where
  cwd : ∀ tr, (h.cwd tr).isSome
  temp : ∀ tr, (h.tempName tr).isSome
  open' : ∀ tr p, h.openFails tr p = false
  write : ∀ tr n, n ≤ h.writeCount tr n
  rename : ∀ tr a b, h.renameFails tr a b = false

/-- No temporary files lie around. -/
def NoTemps (fs : FS) : Prop := ∀ p, TempName p → fs p = none

/-- None of these files exists. -/
def Free (N : Str → Prop) (fs : FS) : Prop := ∀ p, N p → fs p = none

/-- `N` are some names of temporary files, among them all that the host may give out. -/
class TempNames (h : Host) (N : Str → Prop) : Prop where
  given : ∀ tr cwd n, h.cwd tr = some cwd → h.tempName tr = some n → N (cwd ++ b!"/tuf_tmp" ++ formatNat 10 n)
  only : ∀ p, N p → TempName p

instance (h : Host) : TempNames h TempName := ⟨fun _ cwd n _ _ => ⟨cwd, n, rfl⟩, fun _ h => h⟩

/-- The names that the host may give out for temporary files. -/
def GivenTemp (h : Host) (p : Str) : Prop := ∃ tr cwd n, h.cwd tr = some cwd ∧ h.tempName tr = some n ∧ p = cwd ++ b!"/tuf_tmp" ++ formatNat 10 n

instance (h : Host) : TempNames h (GivenTemp h) := ⟨fun tr cwd n h1 h2 => ⟨tr, cwd, n, h1, h2, rfl⟩, fun _ ⟨_, cwd, n, _, _, h⟩ => ⟨cwd, n, h⟩⟩

/-- The roots that the server has for a client with trusted set `t` and at most `n` requests lead to `t'`. -/
inductive RootsLeadTo (x : Ctx) (srv : Str → Int → Except Err Bytes) : Nat → Trusted → Trusted → Prop
  | limit {t : Trusted} : RootsLeadTo x srv 0 t t
  | newest {n : Nat} {t : Trusted} {url u : Str} {status : Int} :
      VersionedURL x.cfg.remoteMetadataURL b!"root" (wrap64 (t.root.signed.version + 1)) url →
      srv url x.cfg.rootMaxLength = .error (.downloadHTTP status u) → status = 403 ∨ status = 404 → RootsLeadTo x srv (n + 1) t t
  | rotated {n : Nat} {t t' : Trusted} {url : Str} {data : Bytes} {new : Metadata RootType} :
      VersionedURL x.cfg.remoteMetadataURL b!"root" (wrap64 (t.root.signed.version + 1)) url →
      srv url x.cfg.rootMaxLength = .ok data → RootAccepted x.env t data new → RootsLeadTo x srv n { t with root := new } t' →
      RootsLeadTo x srv (n + 1) t t'

/-- The server has a timestamp, a snapshot and top-level targets that belong together and are acceptable to a client with trusted set `t`. -/
structure ValidUpdate (x : Ctx) (srv : Str → Int → Except Err Bytes) (t : Trusted) (dts dsn dtg : Bytes) (ts : Metadata TimestampType)
    (sn : Metadata SnapshotType) (tg : Metadata TargetsType) (fsn ftg : MetaFiles) : Prop where
  timestamp : ∃ url, PlainURL x.cfg.remoteMetadataURL b!"timestamp" url ∧ srv url x.cfg.timestampMaxLength = .ok dts
  timestampOk : TimestampAccepted x.env t dts ts
  timestampFresh : ¬ Expired ts.signed.expires t.refTime
  snapshotListed : ts.signed.metas.get? b!"snapshot.json" = some (some fsn)
  snapshot : ∃ url n, RoleURL x t b!"snapshot" fsn.version url ∧ LengthLimit fsn.length x.cfg.snapshotMaxLength n ∧ srv url n = .ok dsn
  snapshotOk : SnapshotAccepted x.env { t with timestamp := some ts } dsn false sn
  snapshotFresh : ¬ Expired sn.signed.expires t.refTime
  snapshotVersion : sn.signed.version = fsn.version
  targetsListed : sn.signed.metas.get? b!"targets.json" = some (some ftg)
  targets : ∃ url n, RoleURL x t b!"targets" ftg.version url ∧ LengthLimit ftg.length x.cfg.targetsMaxLength n ∧ srv url n = .ok dtg
  targetsOk : TargetsAccepted x.env { t with timestamp := some ts, snapshot := some sn } dtg b!"targets" b!"root" tg

/-- Executions: sequences of admissible events and calls of the trusted set. -/
inductive Exec (x : Ctx) (P : St → Event → Prop) (s : St) : St → Prop
  | refl : Exec x P s s
  | event {s' : St} (e : Event) : Exec x P s s' → P s' e → Exec x P s { s' with world := s'.world.emit e }
  | call {s' : St} (c : Call) : Exec x P s s' → UpdaterCall s'.trusted c →
      Exec x P s { s' with trusted := (c.run x.env s'.trusted).2 }

end Tuf.Spec
