import Verif.Model.Metadata
import Verif.Props.Sample

/-!
# New file descriptors (C127)
-/

namespace Tuf
open Sample

/-- C127: `TargetFile()` describes the empty file: it accepts exactly that, and asks for no hash. -/
theorem C127_target (env : Env) (data : Bytes) : newTargetFile.verifyLengthHashes env data = .ok () ↔ data = [] := by
  show (verifyLength data 0 = .ok ()) ↔ _
  unfold verifyLength
  cases data with
  | nil => simp
  | cons a r => simp; omega

/-- C127: what `TargetFile()` is written as. -/
theorem C127_target_written : newTargetFile.marshal = .obj [(b!"hashes", .obj []), (b!"length", .num 0)] := rfl

/-- C127: `MetaFile(v)` is of version `v`, or 1 if `v` is not positive, and accepts every file. -/
theorem C127_meta (env : Env) (v : Int) (data : Bytes) :
    (newMetaFile v).version = max 1 v ∧ (newMetaFile v).verifyLengthHashes env data = .ok () := by
  refine ⟨?_, rfl⟩
  show (if v < 1 then 1 else v) = _
  split <;> omega

/-- C127: what `MetaFile(v)` is written as: the version alone. -/
theorem C127_meta_written (v : Int) : (newMetaFile v).marshal = .obj [(b!"version", .num (max 1 v))] := by
  rw [← (C127_meta env0 v []).1]
  rfl

example : (newMetaFile 7).version = 7 ∧ (newMetaFile (-3)).version = 1 ∧ newTargetFile.verifyLengthHashes env0 [1] ≠ .ok () := by decide +kernel

end Tuf
