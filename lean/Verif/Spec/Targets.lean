import Verif.Spec.Updater
import Verif.Spec.Hashes

/-! # Specification of target downloads -/

namespace Tuf.Spec
open Tuf

/-- The file of a target: the one given by the caller, or else the escaped target path in the targets directory. -/
inductive TargetPath (x : Ctx) (tf : TargetFiles) (given : Str) : Str → Prop
  | given : given ≠ [] → TargetPath x tf given given
  | generated {p : Str} : given = [] → (x.cfg.localTargetsDir ≠ [] ∨ x.cfg.disableLocalCache = true) →
      x.env.urlJoin x.cfg.localTargetsDir (queryEscape tf.path) = some p → TargetPath x tf given p

/-- The base URL of a target download, the argument or else the configured one, with one slash at the end. -/
inductive TargetBase (x : Ctx) (given : Str) : Str → Prop
  | given {b : Str} : given ≠ [] → SlashBase given b → TargetBase x given b
  | configured {b : Str} : given = [] → x.cfg.remoteTargetsURL ≠ [] → SlashBase x.cfg.remoteTargetsURL b → TargetBase x given b

/-- TUF's hash-prefixed name: the hash and a dot before the last component of the path. -/
def PrefixedName (path hash out : Str) : Prop := ∃ dir name, path = dir ++ name ∧ (47 : UInt8) ∉ name ∧ (dir = [] ∨ b!"/" <:+ dir) ∧ out = dir ++ hash ++ b!"." ++ name

/-- A completed request for a target and what became of it: events after the request was prepared, outcome, files afterwards. -/
inductive TargetRun (x : Ctx) (tf : TargetFiles) (path url : Str) (fs : FS) : List Event → Res (Str × Bytes) → FS → Prop
  /-- The download failed. -/
  | notFetched {e : Err} : TargetRun x tf path url fs [.fetch url tf.length (.error e)] (.err e) fs
  /-- The bytes are not the target. -/
  | mismatch {data : Bytes} {msg : String} : ¬ TargetMatches x.env tf data →
      TargetRun x tf path url fs [.fetch url tf.length (.ok data)] (.err (.lengthOrHashMismatch msg)) fs
  /-- The bytes are the target; nothing is stored because caching is off. -/
  | uncached {data : Bytes} : TargetMatches x.env tf data → x.cfg.disableLocalCache = true →
      TargetRun x tf path url fs [.fetch url tf.length (.ok data)] (.ok (path, data)) fs
  /-- The file could not be opened. -/
  | notOpened {data : Bytes} {e : Err} {what : Str} : TargetMatches x.env tf data → x.cfg.disableLocalCache = false →
      TargetRun x tf path url fs [.fetch url tf.length (.ok data), .failed what] (.err e) fs
  /-- Only some bytes could be written. -/
  | notWritten {data : Bytes} {e : Err} {n : Nat} : TargetMatches x.env tf data → x.cfg.disableLocalCache = false → n < data.length →
      TargetRun x tf path url fs [.fetch url tf.length (.ok data), .truncate path, .write path (data.take n)] (.err e) (fs.put path (some (data.take n)))
  /-- The target is stored and returned. -/
  | stored {data : Bytes} : TargetMatches x.env tf data → x.cfg.disableLocalCache = false →
      TargetRun x tf path url fs [.fetch url tf.length (.ok data), .truncate path, .write path data] (.ok (path, data)) (fs.put path (some data))

end Tuf.Spec
