import Verif.Props.Fields
import Verif.Props.FollowCase
import Verif.Props.Cache

/-!
# Documents without usable versions
-/

namespace Tuf
open Spec Sample

namespace Sample

def negTargets : TargetsType := { type := TARGETS, specVersion := b!"99.0", version := -1, expires := pubTime, targets := some [(b!"f", some pubTarget)] }
def negMeta : MetaFiles := { version := -1, hashes := some [] }
def negSnapshot : SnapshotType :=
  { type := SNAPSHOT, specVersion := b!"what?", version := -1, expires := pubTime, metas := some [(b!"targets.json", some negMeta)] }
def negTimestamp : TimestampType :=
  { type := TIMESTAMP, specVersion := b!"", version := -7, expires := pubTime, metas := some [(b!"snapshot.json", some negMeta)] }

/-- Removes the named members of the signed part. -/
def without (names : List Str) (j : Json) : Json :=
  match j with
  | .obj m => .obj (m.map (fun e => match e.1 == b!"signed", e.2 with
      | true, .obj s => (e.1, .obj (s.filter (fun e => !names.contains e.1)))
      | _, v => (e.1, v)))
  | j => j

/-- Adds a member at the end of the signed part. -/
def withMember (key : Str) (v : Json) (j : Json) : Json :=
  match j with
  | .obj m => .obj (m.map (fun e => match e.1 == b!"signed", e.2 with
      | true, .obj s => (e.1, .obj (s ++ [(key, v)]))
      | _, v => (e.1, v)))
  | j => j

/-- `verſion`, with a long s. -/
def longVersion : Str := [118, 101, 114, 0xC5, 0xBF, 105, 111, 110]

/-- What `encoding/json` does on documents with versions below 1 and strange specification versions; `[2, 6]` has neither. -/
def oddEnv : Env :=
  { folEnv with
    parse := fun b => match b with
      | [1, 1] => some (folJson 1 (folRoot 1))
      | [2, 5] => some (folJson 1 negTimestamp)
      | [2, 6] => some (without [b!"version", b!"spec_version"] (folJson 1 { negTimestamp with version := 0 }))
      | [3, 5] => some (folJson 1 negSnapshot)
      | [4, 5] => some (folJson 1 negTargets)
      | [2, 8] => some (withMember longVersion (.num 9) (folJson 1 negTimestamp))
      | [2, 7] => some (without [b!"expires"] (folJson 1 negTimestamp))
      | _ => none }

def oddServer (ts : Bytes) (url : Str) : Except Err Bytes :=
  if url = b!"u/timestamp.json" then .ok ts else if url = b!"u/-1.snapshot.json" then .ok [3, 5] else if url = b!"u/-1.targets.json" then .ok [4, 5]
  else .error (.downloadHTTP 404 url)

end Sample

/-- The hypotheses of C114 are met. -/
example : (fromBytes oddEnv [2, 5] : Res (Metadata TimestampType)).map (fun m => (m.signed.version, m.signed.specVersion)) = .ok (-7, []) ∧
    (fromBytes oddEnv [3, 5] : Res (Metadata SnapshotType)).map (fun m => (m.signed.version, m.signed.specVersion)) = .ok (-1, b!"what?") ∧
    (fromBytes oddEnv [4, 5] : Res (Metadata TargetsType)).map (fun m => (m.signed.version, m.signed.specVersion)) = .ok (-1, b!"99.0") ∧
    (fromBytes oddEnv [1, 1] : Res (Metadata RootType)).map (fun m => (m.signed.version, m.signed.specVersion)) = .ok (1, []) ∧
    (fromBytes oddEnv [2, 6] : Res (Metadata TimestampType)).map (fun m => (m.signed.version, m.signed.specVersion)) = .ok (0, []) ∧
    (fromBytes oddEnv [2, 7] : Res (Metadata TimestampType)).map (fun m => m.signed.expires) = .ok Time.zero := by decide +kernel

/-- A later member in another spelling counts: the version is 9, though `"version": -7` is there too. -/
example : (fromBytes oddEnv [2, 8] : Res (Metadata TimestampType)).map (fun m => m.signed.version) = .ok 9 ∧ Spelled b!"version" longVersion :=
  ⟨by decide +kernel, .cons (l := [118]) .same (.cons (l := [101]) .same (.cons (l := [114]) .same (.cons (l := [0xC5, 0xBF]) .longS (Spelled.refl' _))))⟩

/-- C114 at the client: after a successful `Refresh` of a new session the cached files state the trusted versions, specification versions and expiry dates. -/
theorem C114_refresh_partial {x : Ctx} (hu : x.cfg.unsafeLocalMode = false) (hd : x.cfg.disableLocalCache = false) {s s' : St}
    (h0 : s.trusted.timestamp = none) (h : refresh x s = (.ok (), s')) :
    (∃ d ts, s'.world.fs (joinPath x.cfg.localMetadataDir b!"timestamp.json") = some d ∧ s'.trusted.timestamp = some ts ∧
      Stated x.env d ts.signed.version ts.signed.specVersion ts.signed.expires) ∧
    (∃ d sn, s'.world.fs (joinPath x.cfg.localMetadataDir b!"snapshot.json") = some d ∧ s'.trusted.snapshot = some sn ∧
      Stated x.env d sn.signed.version sn.signed.specVersion sn.signed.expires) ∧
    (∃ d tg, s'.world.fs (joinPath x.cfg.localMetadataDir b!"targets.json") = some d ∧ s'.trusted.targets.get? b!"targets" = some tg ∧
      Stated x.env d tg.signed.version tg.signed.specVersion tg.signed.expires) := by
  obtain ⟨⟨d1, m1, f1, g1, p1⟩, ⟨d2, m2, f2, g2, p2⟩, ⟨d3, m3, f3, g3, p3⟩, _⟩ := C79_cache_mirrors hu hd h0 h
  exact ⟨⟨d1, m1, f1, g1, C114_timestamp_partial p1⟩, ⟨d2, m2, f2, g2, C114_snapshot_partial p2⟩, ⟨d3, m3, f3, g3, C114_targets_partial p3⟩⟩

/-- C114 is false as far as TUF demands positive versions and a supported specification version (its major version is 1): a client accepts documents with negative versions, with
unsupported or senseless specification versions, and with neither. Without an expiry date, though, a document counts as expired. -/
theorem C114_false :
    (let x : Ctx := ⟨oddEnv, hostOf (oddServer [2, 5]), cfg⟩
     (session x [] (refresh x)).1 = .ok () ∧ (session x [] (refresh x)).2.map (fun s => versions s.trusted) = some (1, some (-7), some (-1), some (-1)) ∧
     (session x [] (refresh x)).2.map (fun s => (s.trusted.timestamp.map (·.signed.specVersion), s.trusted.snapshot.map (·.signed.specVersion),
       (s.trusted.targets.get? TARGETS).map (·.signed.specVersion))) = some (some b!"", some b!"what?", some b!"99.0")) ∧
    (let x : Ctx := ⟨oddEnv, hostOf (oddServer [2, 6]), cfg⟩
     (session x [] (refresh x)).1 = .ok () ∧ (session x [] (refresh x)).2.map (fun s => versions s.trusted) = some (1, some 0, some (-1), some (-1))) ∧
    (let x : Ctx := ⟨oddEnv, hostOf (oddServer [2, 7]), cfg⟩
     (session x [] (refresh x)).1.isOk = false) := by
  decide +kernel

end Tuf
