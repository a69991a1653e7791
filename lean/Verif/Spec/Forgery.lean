import Verif.Spec.RoundTrip
import Verif.Spec.Trusted

/-!
# Key holders and attackers

Signatures are ideal: a signature that an honest key verifies was made by its holder for these bytes. Everything else (servers, caches, the other keys) is the
attacker's.
-/

namespace Tuf.Spec
open Tuf

/-- Who is honest, and which documents the holder of a key signed. -/
structure Holders where
  honest : PublicKey → Prop
  signs : PublicKey → AnyMeta → Prop

/-- The key ID stands for a key whose holder is not honest. -/
def Compromised (env : Env) (H : Holders) (keys : GoMap (Option Key)) (id : Str) : Prop :=
  ∃ key pk h, keys.get? id = some (some key) ∧ VerifierOf env key pk h ∧ ¬ H.honest pk

/-- Fewer compromised keys than the threshold, for each role that the document delegates to. -/
def WellGuarded (env : Env) (H : Holders) (d : AnyMeta) : Prop :=
  ∀ role keys ids t, Delegates d role keys ids t → ∀ S : List Str, S.Nodup → (∀ id ∈ S, id ∈ ids ∧ Compromised env H keys id) → (S.length : Int) < t

/-- Honest holders sign documents that can be read, that have the type that they say they have, and that delegate with few compromised keys only. Their signatures cannot
be forged. -/
structure Diligent (env : Env) (H : Holders) : Prop where
  unforgeable : ∀ pk h sig p, H.honest pk → env.verifySig pk h sig p = .ok () → ∃ d, H.signs pk d ∧ payloadOf d = .ok p
  readable : ∀ pk d, H.honest pk → H.signs pk d → ReadFrom env d ∧ typeField d = kind d
  guarded : ∀ pk d, H.honest pk → H.signs pk d → WellGuarded env H d

/-- The documents that follow from the first root: an honest holder of a key signed the document that such a document assigns to its role. -/
inductive Endorsed (env : Env) (H : Holders) (first : Metadata RootType) : Str → AnyMeta → Prop
  | first : Endorsed env H first b!"root" (.root first)
  | signed {parent role id : Str} {D d : AnyMeta} {keys : GoMap (Option Key)} {ids : List Str} {t : Int} {key : Key} {pk : PublicKey} {h : HashFn} :
      Endorsed env H first parent D → Delegates D role keys ids t → id ∈ ids → keys.get? id = some (some key) → VerifierOf env key pk h →
      H.honest pk → H.signs pk d → Endorsed env H first role d

/-- Both documents say the same, whatever signatures they carry. -/
inductive SaysSame : AnyMeta → AnyMeta → Prop
  | root {a b : Metadata RootType} : a.signed = b.signed → SaysSame (.root a) (.root b)
  | timestamp {a b : Metadata TimestampType} : viewTimestamp a.signed = viewTimestamp b.signed → SaysSame (.timestamp a) (.timestamp b)
  | snapshot {a b : Metadata SnapshotType} : viewSnapshot a.signed = viewSnapshot b.signed → SaysSame (.snapshot a) (.snapshot b)
  | targets {a b : Metadata TargetsType} : viewTargets a.signed = viewTargets b.signed → SaysSame (.targets a) (.targets b)

/-- The document says what an endorsed document says. -/
def Genuine (env : Env) (H : Holders) (first : Metadata RootType) (role : Str) (d : AnyMeta) : Prop := ∃ d', Endorsed env H first role d' ∧ SaysSame d' d

/-- Everything in the trusted set is genuine. -/
structure AllGenuine (env : Env) (H : Holders) (first : Metadata RootType) (t : Trusted) : Prop where
  root : Genuine env H first b!"root" (.root t.root)
  timestamp : ∀ m, t.timestamp = some m → Genuine env H first b!"timestamp" (.timestamp m)
  snapshot : ∀ m, t.snapshot = some m → Genuine env H first b!"snapshot" (.snapshot m)
  targets : ∀ role m, t.targets.get? role = some m → Genuine env H first role (.targets m)

end Tuf.Spec
