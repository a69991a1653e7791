import Verif.Spec.Updater

/-! # The order of a refresh (C150) -/

namespace Tuf.Spec

/-- The bytes are the answer to the only one of these requests or, if there is none, the content of the file. -/
def ObtainedFrom (fs : FS) (p : Str) (ds : List (Str × Int × Except Err Bytes)) (data : Bytes) : Prop :=
  (ds = [] ∧ fs p = some data) ∨ ∃ url n, ds = [(url, n, .ok data)]

/-- `RefreshOrder x s s' o roots ts sn tg`: requests for roots, then for timestamp, snapshot and targets, of an online refresh from `s` to `s'` with result `o`. -/
structure RefreshOrder (x : Ctx) (s s' : St) (o : Res Unit) (roots ts sn tg : List (Str × Int × Except Err Bytes)) : Prop where
  roots : ∃ n out, RootPhase x n s.trusted roots out ∧ (out = none → ts = [] ∧ o ≠ .ok ())
  /-- At most one request for the timestamp; without it no further ones. -/
  timestamp : (ts = [] ∧ sn = [] ∧ tg = [] ∧ o ≠ .ok ()) ∨ ∃ url r, PlainURL x.cfg.remoteMetadataURL b!"timestamp" url ∧ ts = [(url, x.cfg.timestampMaxLength, r)]
  /-- At most one request for the snapshot, for the version that the trusted timestamp lists. -/
  snapshot : sn = [] ∨ ∃ m f url n r, s'.trusted.timestamp = some m ∧ m.signed.metas.get? b!"snapshot.json" = some (some f) ∧ RoleURL x s'.trusted b!"snapshot" f.version url ∧
    LengthLimit f.length x.cfg.snapshotMaxLength n ∧ sn = [(url, n, r)]
  /-- At most one request for top-level targets, for the version that the trusted snapshot lists. -/
  targets : tg = [] ∨ ∃ m f url n r, s'.trusted.snapshot = some m ∧ m.signed.metas.get? b!"targets.json" = some (some f) ∧ RoleURL x s'.trusted b!"targets" f.version url ∧
    LengthLimit f.length x.cfg.targetsMaxLength n ∧ tg = [(url, n, r)]
  /-- After a request that fails there is no other, and the refresh fails. -/
  failure : ∀ before d after e, ts ++ sn ++ tg = before ++ d :: after → d.2.2 = .error e → after = [] ∧ o ≠ .ok ()
  /-- What is trusted in the end is what was asked for, or was cached before and not asked for. The timestamp is one of the two, or was trusted before. -/
  success : o = .ok () →
    (∃ m, s'.trusted.timestamp = some m ∧ (s.trusted.timestamp = some m ∨ ∃ data, ParsesTo x.env data m ∧ (s.world.fs (joinPath x.cfg.localMetadataDir b!"timestamp.json") = some data ∨ ∃ url n, ts = [(url, n, .ok data)]))) ∧
    (∃ m data, s'.trusted.snapshot = some m ∧ ParsesTo x.env data m ∧ ObtainedFrom s.world.fs (joinPath x.cfg.localMetadataDir b!"snapshot.json") sn data) ∧
    (∃ m data, s'.trusted.targets.get? b!"targets" = some m ∧ ParsesTo x.env data m ∧ ObtainedFrom s.world.fs (joinPath x.cfg.localMetadataDir b!"targets.json") tg data)

end Tuf.Spec
