import Verif.Spec.Targets
import Verif.Spec.Publish
import Verif.Model.MultiRepo

/-! # Specification of downloads from several repositories -/

namespace Tuf.Spec
open Tuf

/-- The file of the target has the target, can be read and is not empty. -/
structure InFile (x : Ctx) (tf : TargetFiles) (given : Str) (w : World) (file : Str) (data : Bytes) : Prop where
  caching : x.cfg.disableLocalCache = false
  place : TargetPath x tf given file
  named : file ≠ []
  content : w.fs file = some data
  readable : x.host.readFails w.trace file = false
  matching : TargetMatches x.env tf data
  nonempty : data ≠ []

/-- After looking for the file: at most it was read. -/
def Looked (w w1 : World) : Prop := w1 = w ∨ ∃ file r, w1 = { w with trace := w.trace ++ [.read file r] }

/-- `MirrorRun env h clients tf given base repos w out w'`: the clients of the repositories are asked for the target one after the other, the world going from `w` to `w'`. -/
inductive MirrorRun (env : Env) (h : Host) (clients : Str → Option Client) (tf : TargetFiles) (given base : Str) : List Str → World → Res (Str × Bytes) → World → Prop
  /-- No repository is left. -/
  | exhausted {w : World} {e : Err} : MirrorRun env h clients tf given base [] w (.err e) w
  /-- There is no client for the repository. -/
  | unknown {repo : Str} {repos : List Str} {w : World} : clients repo = none → MirrorRun env h clients tf given base (repo :: repos) w .panic w
  /-- The client has no file for the target. -/
  | noFile {repo : Str} {repos : List Str} {w : World} {cl : Client} {e : Err} : clients repo = some cl → cl.cfg.disableLocalCache = false →
      (∀ p, ¬ TargetPath ⟨env, h, cl.cfg⟩ tf given p) → MirrorRun env h clients tf given base (repo :: repos) w (.err e) w
  /-- The target is in its file. -/
  | cached {repo : Str} {repos : List Str} {w w' : World} {cl : Client} {file : Str} {data : Bytes} : clients repo = some cl → InFile ⟨env, h, cl.cfg⟩ tf given w file data →
      Looked w w' → MirrorRun env h clients tf given base (repo :: repos) w (.ok (file, data)) w'
  /-- The repository delivers the target. -/
  | delivered {repo : Str} {repos : List Str} {w w1 : World} {cl : Client} {p : Str × Bytes} {st : St} : clients repo = some cl → (∀ file data, ¬ InFile ⟨env, h, cl.cfg⟩ tf given w file data) →
      Looked w w1 → downloadTarget ⟨env, h, cl.cfg⟩ tf given base ⟨cl.trusted, w1⟩ = (.ok p, st) → MirrorRun env h clients tf given base (repo :: repos) w (.ok p) st.world
  /-- It does not; the next one is asked. -/
  | failed {repo : Str} {repos : List Str} {w w1 w' : World} {cl : Client} {e : Err} {st : St} {out : Res (Str × Bytes)} : clients repo = some cl →
      (∀ file data, ¬ InFile ⟨env, h, cl.cfg⟩ tf given w file data) → Looked w w1 → downloadTarget ⟨env, h, cl.cfg⟩ tf given base ⟨cl.trusted, w1⟩ = (.err e, st) →
      MirrorRun env h clients tf given base repos st.world out w' → MirrorRun env h clients tf given base (repo :: repos) w out w'

/-- The client of the repository has a file for the target, or needs none. -/
def HasPlace (env : Env) (h : Host) (tf : TargetFiles) (given : Str) (s : MSt) (repo : Str) : Prop :=
  ∃ cl, s.clients.get? repo = some cl ∧ (cl.cfg.disableLocalCache = true ∨ ∃ p, TargetPath ⟨env, h, cl.cfg⟩ tf given p)

/-- The server has the target for the client `cl` under the names that TUF prescribes. Paths with more than one slash are left out for hash-prefixed names (C46). -/
structure Delivers (env : Env) (h : Host) (srv : Str → Int → Except Err Bytes) (tf : TargetFiles) (given base : Str) (cl : Client) (file : Str) (data : Bytes) : Prop where
  disk : cl.cfg.disableLocalCache = true ∨ GoodDisk h
  place : TargetPath ⟨env, h, cl.cfg⟩ tf given file
  served : ∃ b, TargetBase ⟨env, h, cl.cfg⟩ base b ∧ ServingTarget ⟨env, h, cl.cfg⟩ srv cl.trusted.root.signed.consistentSnapshot b tf data
  shallow : cl.cfg.prefixTargetsWithHash = true → cl.trusted.root.signed.consistentSnapshot = true → tf.path.count 47 ≤ 1
  matching : TargetMatches env tf data

end Tuf.Spec
