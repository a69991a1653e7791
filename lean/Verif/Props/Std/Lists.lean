import Verif.Props.Lists
import Verif.Props.Std.Text

/-! # C144: a list that is mentioned again -/

namespace Tuf
open Tuf.Spec Tuf.Std Tuf.Sample

/-- A root whose role `root` has its key IDs in three mentions. -/
def Sample.againRoot : Bytes := b!"{\"signed\":{\"_type\":\"root\",\"roles\":{\"root\":{\"keyids\":[\"k1\",\"k2\"],\"KeyIDs\":[\"k3\"],\"keyids\":[null,null,null],\"threshold\":1}}},\"signatures\":[]}"

/-- A targets document with a delegation whose paths are mentioned again. -/
def Sample.againTargets : Bytes := b!"{\"signed\":{\"_type\":\"targets\",\"delegations\":{\"roles\":[{\"name\":\"r\",\"paths\":[\"a/*\"],\"keyids\":[\"k\"],\"paths\":[null],\"threshold\":1}]}},\"signatures\":[]}"

/-- C144: key IDs of earlier mentions show up where the last mention has `null`: those of the mention before (`k3`) and of the one before that (`k2`). -/
theorem C144_stale : (fromBytes (T := RootType) (std env0) againRoot).map (fun m => (m.signed.roles.entries.get? b!"root").map (fun r => r.map (·.keyIDs))) = .ok (some (some (some [b!"k3", b!"k2", []]))) := by
  decide +kernel

/-- C144: the delegation has a path pattern that its last mention of `paths` does not state. -/
theorem C144_stale_paths : (fromBytes (T := TargetsType) (std env0) againTargets).map (fun m => m.signed.delegations.map (fun d => d.roles.elems.map (fun r => (r.name, r.paths)))) = .ok (some [(b!"r", some [b!"a/*"])]) := by
  decide +kernel

end Tuf
