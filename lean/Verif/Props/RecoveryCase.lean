import Verif.Props.Recovery
import Verif.Props.FollowCase

/-!
# A client whose cache has the metadata of a thief

Hypotheses of C113 are met: the thief of signer 1's key made a client cache version 9 of all roles; then the repository exchanges the keys and publishes its second release.
-/

namespace Tuf
open Spec Sample

namespace Sample

def thiefServer (url : Str) : Except Err Bytes :=
  if url = b!"u/timestamp.json" then .ok [2, 9] else if url = b!"u/9.snapshot.json" then .ok [3, 9] else if url = b!"u/9.targets.json" then .ok [4, 9]
  else .error (.downloadHTTP 404 url)
def thiefCtx : Ctx := ⟨folEnv, hostOf thiefServer, cfg⟩
def thiefFiles : List (Str × Bytes) := [(b!"m/timestamp.json", [2, 9]), (b!"m/snapshot.json", [3, 9]), (b!"m/targets.json", [4, 9])]

/-- The second root if only the key of the timestamp role is exchanged. -/
def recRoot : RootType :=
  { folRoot 2 with roles := some [(ROOT, some (folRole 1)), (SNAPSHOT, some (folRole 1)), (TARGETS, some (folRole 1)), (TIMESTAMP, some (folRole 2))] }

def recEnv : Env :=
  { folEnv with
    parse := fun b => match b with
      | [1, 2] => some (folJson 1 recRoot)
      | [3, 2] => some (folJson 1 (folSnapshot 2))
      | [4, 2] => some (folJson 1 (folTargets 2))
      | b => folEnv.parse b }

/-- The thief's server without targets metadata: the thief does not have that key. -/
def recThief (url : Str) : Except Err Bytes := if url = b!"u/9.targets.json" then .error (.downloadHTTP 404 url) else thiefServer url

end Sample

/-- The attack succeeds, its metadata are in the cache, and after the exchange of keys the client refreshes to version 2. -/
example : (session thiefCtx [] (refresh thiefCtx)).1 = .ok () ∧ (∀ p ∈ thiefFiles, fileAt (session thiefCtx [] (refresh thiefCtx)).2 p.1 = some p.2) ∧
    (session folRun2.x thiefFiles (refresh folRun2.x)).1 = .ok () ∧
    (session folRun2.x thiefFiles (refresh folRun2.x)).2.map (fun s => versions s.trusted) = some (2, some 2, some 2, some 2) := by
  decide +kernel

theorem disowned_case {T : Type} [RoleType T] {root : Metadata RootType} (hroot : root.signed = readRoot (folRoot 2)) {role : Str} {m : Metadata T} {type : Str} {d : Bytes}
    (h1 : fromBytes folEnv d = .ok m) (h2 : type = role) (h3 : verifyDelegate folEnv (.root { signed := folRoot 1 }) role (RoleType.any m) = .ok ())
    (h4 : verifyDelegate folEnv (.root { signed := readRoot (folRoot 2) }) role (RoleType.any m) ≠ .ok ()) : Disowned folEnv root role m type d where
  parsed := h1
  typed := h2
  once := ⟨_, C02_exact_rule.1 h3⟩
  notNow := by
    intro hc
    have := C02_exact_rule.2 hc
    apply h4
    rw [← hroot]
    exact this

def Sample.get! {T : Type} [RoleType T] (d : Bytes) : Metadata T :=
  match fromBytes folEnv d with
  | .ok m => m
  | _ => { signed := RoleType.zero, signatures := none }

/-- A case of `C113_recovers_partial`: every hypothesis about the cache is met by the thief's files. -/
example {root : Metadata RootType} (hroot : root.signed = readRoot (folRoot 2)) : CacheRecoverable folEnv b!"m" (disk thiefFiles) root (folFiles 2) where
  timestamp := fun d hd => .inr ⟨get! [2, 9], by
    have : d = [2, 9] := by have h : some ([2, 9] : Bytes) = some d := hd; exact (Option.some.inj h).symm
    subst this
    exact disowned_case hroot (by rfl) (by rfl) (by decide +kernel) (by decide +kernel)⟩
  snapshot := fun d hd => .inr ⟨get! [3, 9], by
    have : d = [3, 9] := by have h : some ([3, 9] : Bytes) = some d := hd; exact (Option.some.inj h).symm
    subst this
    exact disowned_case hroot (by rfl) (by rfl) (by decide +kernel) (by decide +kernel)⟩
  targets := fun d hd => .inr ⟨get! [4, 9], by
    have : d = [4, 9] := by have h : some ([4, 9] : Bytes) = some d := hd; exact (Option.some.inj h).symm
    subst this
    exact disowned_case hroot (by rfl) (by rfl) (by decide +kernel) (by decide +kernel)⟩

/-- C113 is false as TUF has it (the cached timestamp and snapshot are dropped when the keys of one of the two roles were exchanged): the thief of the keys of timestamp and
snapshot brings both into the cache; when only the timestamp key is exchanged, the cached snapshot stays and every later refresh fails; without that file it succeeds. -/
theorem C113_false :
    (let x : Ctx := ⟨recEnv, hostOf recThief, cfg⟩
     fileAt (session x [] (refresh x)).2 b!"m/timestamp.json" = some [2, 9] ∧ fileAt (session x [] (refresh x)).2 b!"m/snapshot.json" = some [3, 9]) ∧
    (let x : Ctx := ⟨recEnv, hostOf folServer2, cfg⟩
     (session x [(b!"m/timestamp.json", [2, 9]), (b!"m/snapshot.json", [3, 9])] (refresh x)).1.isOk = false ∧
     (session x [(b!"m/timestamp.json", [2, 9])] (refresh x)).1 = .ok () ∧
     (session x [(b!"m/timestamp.json", [2, 9])] (refresh x)).2.map (fun s => versions s.trusted) = some (2, some 2, some 2, some 2)) := by
  decide +kernel

end Tuf
