import Verif.Spec.MultiRepo
import Verif.Proofs.Files

/-! # Specification of the folders of a multi-repository client -/

namespace Tuf.Spec
open Tuf

/-- The configuration with which the repository `repo` is used: its first URL and its root, a folder for metadata with the name of the repository in the folder for metadata, the folder
for targets that was configured or else `targets` in the repository's folder, the configured cache policy, and the documented limits. -/
structure OwnConfig (c : MultiCfg) (repo : Str) (cfg : Cfg) : Prop where
  url : ∃ urls, c.repoMap.repositories.get? repo = some (some (cfg.remoteMetadataURL :: urls))
  root : c.trustedRoots.get? repo = some cfg.localTrustedRoot
  metadata : cfg.localMetadataDir = joinPath c.localMetadataDir repo
  targets : c.localTargetsDir ≠ [] → cfg.localTargetsDir = c.localTargetsDir
  targetsUnset : c.localTargetsDir = [] → cfg.localTargetsDir = joinPath (joinPath c.localMetadataDir repo) b!"targets"
  cache : cfg.disableLocalCache = c.disableLocalCache
  limits : cfg.maxRootRotations = 32 ∧ cfg.maxDelegations = 32 ∧ cfg.rootMaxLength = 512000 ∧ cfg.timestampMaxLength = 16384 ∧ cfg.snapshotMaxLength = 2000000 ∧ cfg.targetsMaxLength = 5000000
  modes : cfg.prefixTargetsWithHash = true ∧ cfg.unsafeLocalMode = false

/-- The file for the metadata of a role of a repository whose name is one path component. -/
def MetadataFile (c : MultiCfg) (repo role file : Str) : Prop := file = joinPath c.localMetadataDir repo ++ b!"/" ++ queryEscape role ++ b!".json"

end Tuf.Spec
