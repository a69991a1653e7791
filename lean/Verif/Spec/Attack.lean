import Verif.Spec.Follow
import Verif.Spec.Forgery
import Verif.Spec.Updater

/-!
# Specification of clients under attack
-/

namespace Tuf.Spec
open Tuf

/-- An honest holder of a key that a root in the line of the first one assigns to the role signed the document. -/
def SignedFor (env : Env) (H : Holders) (first : Metadata RootType) (role : Str) (d : AnyMeta) : Prop :=
  ∃ D keys ids t id key pk h, Endorsed env H first b!"root" (.root D) ∧ Delegates (.root D) role keys ids t ∧ id ∈ ids ∧ keys.get? id = some (some key) ∧
    VerifierOf env key pk h ∧ H.honest pk ∧ H.signs pk d

/-- The honest holders of the keys of the top-level roles sign for these roles only what is released, and `new` may be released after all of it. Snapshots do not list
the other top-level roles. -/
structure OnlyReleases (env : Env) (H : Holders) (first : Metadata RootType) (new : Files) : Prop where
  timestamp : ∀ d, SignedFor env H first b!"timestamp" (.timestamp d) → ∃ R, WasReleased env R ∧ MayFollow R new ∧ payload d.signed = payload R.ts
  snapshot : ∀ d, SignedFor env H first b!"snapshot" (.snapshot d) → ∃ R, WasReleased env R ∧ MayFollow R new ∧ payload d.signed = payload R.sn
  targets : ∀ d, SignedFor env H first b!"targets" (.targets d) → ∃ R, WasReleased env R ∧ MayFollow R new ∧ payload d.signed = payload R.tg
  names : ∀ d, SignedFor env H first b!"snapshot" (.snapshot d) → ∀ name ∈ [b!"timestamp.json", b!"snapshot.json"], ∀ f, d.signed.metas.get? name ≠ some (some f)

/-- The clients: programs whose first root has fewer compromised keys than the thresholds. -/
structure Careful (env : Env) (H : Holders) (dir : Str) (new : Files) (x : Ctx) (t0 : Trusted) : Prop where
  sameEnv : x.env = env
  sameDir : x.cfg.localMetadataDir = dir
  first : ∃ now, Tuf.Trusted.new env now x.cfg.localTrustedRoot = .ok t0
  guarded : WellGuarded env H (.root t0.root)
  releases : OnlyReleases env H t0.root new

/-- What may happen to the files while such clients run, each on any network, disk and clock: calls of `New`, and calls of sessions, each of which may be interrupted at any
moment. Downloads are not stored in place of cached metadata. -/
inductive Attacked (Client : Ctx → Trusted → Prop) (dir : Str) (fs : FS) : FS → Prop
  | start : Attacked Client dir fs fs
  | new {x : Ctx} {w : World} {evs : List Event} {fs' : FS} : Attacked Client dir fs w.fs → x.cfg.localMetadataDir = dir →
      (Tuf.newUpdater x w).2.trace = w.trace ++ evs → CrashState w.fs evs fs' → Attacked Client dir fs fs'
  | call {x : Ctx} {t0 : Trusted} {w : World} {s : St} {a : Api} {evs : List Event} {fs' : FS} : Attacked Client dir fs s.world.fs → Client x t0 →
      Session x ⟨t0, w⟩ s → (a.run x s).2.world.trace = s.world.trace ++ evs → CrashState s.world.fs evs fs' →
      (∀ tf f u role, a = .downloadTarget tf f u → targetFilePath x tf f ≠ .ok (joinPath dir (role ++ b!".json"))) → Attacked Client dir fs fs'

/-- Every cached top-level document, where there is one, says what a document of an earlier release says: it has the same canonical JSON, whatever signatures. -/
structure CacheSays (env : Env) (dir : Str) (fs : FS) (new : Files) : Prop where
  timestamp : ∀ d, fs (joinPath dir b!"timestamp.json") = some d → ∃ R, WasReleased env R ∧ MayFollow R new ∧ ∃ m : Metadata TimestampType, ParsesTo env d m ∧ payload m.signed = payload R.ts
  snapshot : ∀ d, fs (joinPath dir b!"snapshot.json") = some d → ∃ R, WasReleased env R ∧ MayFollow R new ∧ ∃ m : Metadata SnapshotType, ParsesTo env d m ∧ payload m.signed = payload R.sn
  targets : ∀ d, fs (joinPath dir b!"targets.json") = some d → ∃ R, WasReleased env R ∧ MayFollow R new ∧ ∃ m : Metadata TargetsType, ParsesTo env d m ∧ payload m.signed = payload R.tg

end Tuf.Spec
