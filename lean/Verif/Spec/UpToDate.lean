import Verif.Spec.Search

/-! # Files of the cache that are still current (C149) -/

namespace Tuf.Spec

/-- What two cached files say is what the repository currently has, by root, timestamp and reference time of `t`: the first is a snapshot that the root's keys signed, unexpired, with the version
that the unexpired timestamp lists; the second is targets metadata that the root's keys signed, unexpired, with the version, length and hashes that the snapshot lists. -/
structure Current (env : Env) (t : Trusted) (dsn dtg : Bytes) (sn : Metadata SnapshotType) (tg : Metadata TargetsType) : Prop where
  timestamp : ∃ ts, t.timestamp = some ts ∧ ¬ Expired ts.signed.expires t.refTime ∧ Lists ts.signed.metas b!"snapshot.json" sn.signed.version
  snapshot : ParsesTo env dsn sn ∧ sn.signed.type = b!"snapshot" ∧ Verifies env (.root t.root) b!"snapshot" (.snapshot sn) ∧ ¬ Expired sn.signed.expires t.refTime
  targets : ParsesTo env dtg tg ∧ tg.signed.type = b!"targets" ∧ Verifies env (.root t.root) b!"targets" (.targets tg) ∧ ¬ Expired tg.signed.expires t.refTime
  listed : ∃ f, sn.signed.metas.get? b!"targets.json" = some (some f) ∧ MetaMatches env f dtg ∧ tg.signed.version = f.version

/-- What a refresh asks for that needs neither snapshot nor targets: roots, as far as there are any, and at most once the timestamp. -/
def OnlyTimestamp (x : Ctx) (t : Trusted) (ds : List (Str × Int × Except Err Bytes)) : Prop :=
  ∃ n out roots last, RootPhase x n t roots out ∧ ds = roots ++ last ∧ (last = [] ∨ ∃ url r, PlainURL x.cfg.remoteMetadataURL b!"timestamp" url ∧ last = [(url, x.cfg.timestampMaxLength, r)])

/-- What a visited role says is at hand: it is trusted, or the file of the cache that is named like it is accepted, by the state in which the visit begins. -/
def AtHand (x : Ctx) (v : Visit) : Prop :=
  (∃ m, v.before.trusted.targets.get? v.role = some m) ∨
  ∃ d m, v.before.world.fs (joinPath x.cfg.localMetadataDir v.role ++ b!".json") = some d ∧ TargetsAccepted x.env v.before.trusted d v.role v.parent m

/-- These downloads are one for each of these visits: for metadata of a role that are not at hand, in the version that the trusted snapshot lists. -/
inductive AskedFor (x : Ctx) : List Visit → List (Str × Int × Except Err Bytes) → Prop
  | nil : AskedFor x [] []
  | cons {v : Visit} {url : Str} {n : Int} {r : Except Err Bytes} {vs : List Visit} {ds : List (Str × Int × Except Err Bytes)} {sn : Metadata SnapshotType} {version : Int} :
      ¬ AtHand x v → v.before.trusted.snapshot = some sn → Lists sn.signed.metas (v.role ++ b!".json") version → RoleURL x v.before.trusted v.role version url →
      AskedFor x vs ds → AskedFor x (v :: vs) ((url, n, r) :: ds)

end Tuf.Spec
