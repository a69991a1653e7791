import Verif.Props.Forgery
import Verif.Props.PublishCase

/-!
# A repository with a compromised key

Hypotheses of C91 are met: each role needs the keys `a` and `b`; the attacker has `b`, with which anything can be signed.
-/

namespace Tuf
open Spec Sample

namespace Sample

def twoKeys : GoMap (Option Key) := some [(b!"a", some (edKey b!"01")), (b!"b", some (edKey b!"02"))]
def twoRole : Role := { keyIDs := some [b!"a", b!"b"], threshold := 2 }
def guardRoot : RootType :=
  { type := ROOT, version := 1, expires := pubTime, consistentSnapshot := true, keys := twoKeys,
    roles := some [(ROOT, some twoRole), (SNAPSHOT, some twoRole), (TARGETS, some twoRole), (TIMESTAMP, some twoRole)] }

/-- The document, with signatures under both key IDs. -/
def bothSigned {T : Type} (a : T) : Metadata T := { signed := a, signatures := some [sigOf b!"a" [1], sigOf b!"b" [2]] }

def jsonOf {T : Type} [RoleType T] (a : T) : Json :=
  match (bothSigned a).marshal with
  | .ok j => j
  | _ => .null

/-- The attacker's documents. -/
def evilRoot : RootType := { guardRoot with version := 2, roles := some [] }
def evilTimestamp : TimestampType := { pubTimestamp with version := 9 }

/-- What the holder of key `a` signed. -/
def goodPayloads : List (Res Bytes) := [payload guardRoot, payload pubTimestamp, payload pubSnapshot, payload pubTargets]

def guardEnv : Env :=
  { pubEnv with
    parse := fun b => match b with
      | [1] => some (jsonOf guardRoot)
      | [2] => some (jsonOf pubTimestamp)
      | [3] => some (jsonOf pubSnapshot)
      | [4] => some (jsonOf pubTargets)
      | [8] => some (jsonOf evilRoot)
      | [9] => some (jsonOf evilTimestamp)
      | _ => none
    verifySig := fun pk _ _ p => if pk = .ed25519 [1] then (if .ok p ∈ goodPayloads then .ok () else .err (.other "bad signature")) else .ok () }

def guardCtx : Ctx := ⟨guardEnv, hostOf pubServer, { cfg with localTrustedRoot := [1] }⟩

/-- The attacker also controls the server. -/
def evilServer (url : Str) : Except Err Bytes :=
  if url = b!"u/timestamp.json" then .ok [9] else pubServer url

/-- The documents of the holder of key `a`, as others read them. -/
inductive GuardDoc : AnyMeta → Prop
  | root {m} : fromBytes (T := RootType) guardEnv [1] = .ok m → GuardDoc (.root m)
  | timestamp {m} : fromBytes (T := TimestampType) guardEnv [2] = .ok m → GuardDoc (.timestamp m)
  | snapshot {m} : fromBytes (T := SnapshotType) guardEnv [3] = .ok m → GuardDoc (.snapshot m)
  | targets {m} : fromBytes (T := TargetsType) guardEnv [4] = .ok m → GuardDoc (.targets m)

def guardHolders : Holders := ⟨fun pk => pk = .ed25519 [1], fun pk d => pk = .ed25519 [1] ∧ GuardDoc d⟩

end Sample

theorem guardEnv_laws : EnvLaws guardEnv where
  anyIdem := fun _ _ _ => rfl
  anyInt := fun _ _ => rfl
  time := (rtEnv_laws .null .null).time
  zeroTime := rfl

theorem guard_parsed : ((fromBytes (T := RootType) guardEnv [1]).map (fun m => (payload m.signed, m.signed.type))) = .ok (payload guardRoot, ROOT) ∧
    ((fromBytes (T := TimestampType) guardEnv [2]).map (fun m => (payload m.signed, m.signed.type))) = .ok (payload pubTimestamp, TIMESTAMP) ∧
    ((fromBytes (T := SnapshotType) guardEnv [3]).map (fun m => (payload m.signed, m.signed.type))) = .ok (payload pubSnapshot, SNAPSHOT) ∧
    ((fromBytes (T := TargetsType) guardEnv [4]).map (fun m => (payload m.signed, m.signed.type))) = .ok (payload pubTargets, TARGETS) := by decide +kernel

theorem guard_root_parsed : fromBytes (T := RootType) guardEnv [1] = .ok (bothSigned guardRoot) := by rfl

theorem guard_targets_parsed : (fromBytes (T := TargetsType) guardEnv [4]).map (fun m => m.signed.delegations.isNone) = .ok true := by decide +kernel

theorem guard_wellGuarded : WellGuarded guardEnv guardHolders (.root (bothSigned guardRoot)) := by
  intro role keys ids t hd S hn hS
  have hfew : ∀ id ∈ S, id = b!"b" ∧ keys = twoKeys ∧ t = 2 := by
    intro id hid
    obtain ⟨h1, key, pk, h, h2, h3, h4⟩ := hS id hid
    cases hd with
    | @root _ _ r hr =>
      have hmem : (role, some r) ∈ (guardRoot.roles).entries := Entries.mem_of_get? hr
      have hr' : r = twoRole := by
        simp only [guardRoot, GoMap.entries, Option.getD_some, List.mem_cons, List.not_mem_nil, or_false, Prod.mk.injEq] at hmem
        rcases hmem with ⟨_, h⟩ | ⟨_, h⟩ | ⟨_, h⟩ | ⟨_, h⟩ <;> exact Option.some.inj h
      subst hr'
      refine ⟨?_, rfl, rfl⟩
      have h1 : id ∈ [b!"a", b!"b"] := h1
      simp only [List.mem_cons, List.not_mem_nil, or_false] at h1
      rcases h1 with rfl | rfl
      · have h2' : some (some (edKey b!"01")) = some (some key) := h2
        cases h2'
        cases h3 with
        | rsa h _ => cases h
        | ecdsa h _ => rcases h with h | h <;> cases h
        | ed25519 _ h5 _ _ =>
          cases h5
          exact absurd rfl h4
      · rfl
  cases S with
  | nil =>
    cases hd with
    | @root _ _ r hr =>
      have hmem : (role, some r) ∈ (guardRoot.roles).entries := Entries.mem_of_get? hr
      have hr' : r = twoRole := by
        simp only [guardRoot, GoMap.entries, Option.getD_some, List.mem_cons, List.not_mem_nil, or_false, Prod.mk.injEq] at hmem
        rcases hmem with ⟨_, h⟩ | ⟨_, h⟩ | ⟨_, h⟩ | ⟨_, h⟩ <;> exact Option.some.inj h
      subst hr'
      decide
  | cons a S =>
    have ht := (hfew a (.head _)).2.2
    subst ht
    have hlen := hn.length_le_of_subset (l₂ := [b!"b"]) (fun i hi => by rw [(hfew i hi).1]; simp)
    simp only [List.length_cons, List.length_nil] at hlen ⊢
    omega

theorem guard_diligent : Diligent guardEnv guardHolders where
  unforgeable := by
    intro pk h sig p hh hv
    cases hh
    have hmem : .ok p ∈ goodPayloads := by
      have hv' : (if Res.ok p ∈ goodPayloads then Res.ok () else .err (.other "bad signature")) = .ok () := hv
      split at hv'
      · assumption
      · cases hv'
    obtain ⟨g1, g2, g3, g4⟩ := guard_parsed
    simp only [goodPayloads, List.mem_cons, List.not_mem_nil, or_false] at hmem
    rcases hmem with e | e | e | e
    · obtain ⟨m, h1, h2⟩ := Res.map_eq_ok.1 g1
      exact ⟨_, ⟨rfl, .root h1⟩, by rw [e]; exact congrArg Prod.fst h2⟩
    · obtain ⟨m, h1, h2⟩ := Res.map_eq_ok.1 g2
      exact ⟨_, ⟨rfl, .timestamp h1⟩, by rw [e]; exact congrArg Prod.fst h2⟩
    · obtain ⟨m, h1, h2⟩ := Res.map_eq_ok.1 g3
      exact ⟨_, ⟨rfl, .snapshot h1⟩, by rw [e]; exact congrArg Prod.fst h2⟩
    · obtain ⟨m, h1, h2⟩ := Res.map_eq_ok.1 g4
      exact ⟨_, ⟨rfl, .targets h1⟩, by rw [e]; exact congrArg Prod.fst h2⟩
  readable := by
    rintro pk d _ ⟨_, hd⟩
    obtain ⟨g1, g2, g3, g4⟩ := guard_parsed
    cases hd with
    | root h => rw [h] at g1; exact ⟨.root h, congrArg Prod.snd (Res.ok.inj g1)⟩
    | timestamp h => rw [h] at g2; exact ⟨.timestamp h, congrArg Prod.snd (Res.ok.inj g2)⟩
    | snapshot h => rw [h] at g3; exact ⟨.snapshot h, congrArg Prod.snd (Res.ok.inj g3)⟩
    | targets h => rw [h] at g4; exact ⟨.targets h, congrArg Prod.snd (Res.ok.inj g4)⟩
  guarded := by
    rintro pk d _ ⟨_, hd⟩
    cases hd with
    | root h => rw [guard_root_parsed] at h; cases h; exact guard_wellGuarded
    | timestamp h => intro _ _ _ _ h; cases h
    | snapshot h => intro _ _ _ _ h; cases h
    | targets h =>
      have hn := guard_targets_parsed
      rw [h] at hn
      have hn : _ = true := Res.ok.inj hn
      rw [Option.isNone_iff_eq_none] at hn
      intro _ _ _ _ hd
      cases hd with
      | targets h1 => rw [hn] at h1; cases h1
      | succinct h1 => rw [hn] at h1; cases h1

/-- A case of C91: the first root is guarded, and with the publisher's server the client finds and downloads a target; with the attacker's server the refresh fails, and
neither the attacker's root nor the attacker's timestamp is accepted. -/
example : (∃ t0, Trusted.new guardEnv now guardCtx.cfg.localTrustedRoot = .ok t0 ∧ WellGuarded guardEnv guardHolders (.root t0.root)) ∧
    infoOf (session guardCtx [] (getTargetInfo guardCtx b!"f")).1 = .ok (some (b!"f", 2)) ∧
    (session guardCtx [] (lookup guardCtx b!"f")).1 = .ok (b!"t/f", [7, 7]) ∧
    (session { guardCtx with host := hostOf evilServer } [] (refresh { guardCtx with host := hostOf evilServer })).1.isOk = false ∧
    (match Trusted.new guardEnv now [1] with
      | .ok t => (t.updateRoot guardEnv [8]).1.isOk || (t.updateTimestamp guardEnv [9]).1.isOk || !(t.updateTimestamp guardEnv [2]).1.isOk
      | _ => true) = false := by
  refine ⟨?_, by decide +kernel⟩
  have hok : (Trusted.new guardEnv now guardCtx.cfg.localTrustedRoot).isOk = true := by decide +kernel
  cases h : Trusted.new guardEnv now guardCtx.cfg.localTrustedRoot with
  | ok t0 =>
    have hp : fromBytes guardEnv [1] = .ok t0.root := (new_root h).1
    rw [guard_root_parsed] at hp
    exact ⟨t0, rfl, by rw [← Res.ok.inj hp]; exact guard_wellGuarded⟩
  | err e => rw [h] at hok; cases hok
  | panic => rw [h] at hok; cases hok

end Tuf
