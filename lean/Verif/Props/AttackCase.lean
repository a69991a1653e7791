import Verif.Props.Attack
import Verif.Props.FollowCase
import Verif.Props.ForgeryCase

/-!
# A client that is attacked

Hypotheses of C134 are met: each role needs the keys of the signers 1 and 2; the attacker has that of signer 2 and the network. The client is given the timestamp of the
first release, with one more signature, and its snapshot; it is interrupted while it stores that. Then it reaches the repository, which has the second release.
-/

namespace Tuf
open Spec Sample

namespace Sample

def attRole : Role := { keyIDs := some [idOf 1, idOf 2], threshold := 2 }
def attRoot : RootType :=
  { type := ROOT, version := 1, expires := pubTime, consistentSnapshot := true, keys := some [(idOf 1, some (folKey 1)), (idOf 2, some (folKey 2))],
    roles := some [(ROOT, some attRole), (SNAPSHOT, some attRole), (TARGETS, some attRole), (TIMESTAMP, some attRole)] }

/-- What the holder of key 1 signs. -/
def attPayloads : List (Res Bytes) :=
  [payload attRoot, payload (folTimestamp 1), payload (folTimestamp 2), payload (folSnapshot 1), payload (folSnapshot 2), payload (folTargets 1), payload (folTargets 2)]

def attSigner : Signer := { signMessage := fun p => if Res.ok p ∈ attPayloads then some [1] else none, publicKey := some (.ed25519 [1]) }

def attSigned {T : Type} (a : T) : Metadata T := { signed := a, signatures := some [sigOf (idOf 1) [1], sigOf (idOf 2) [2]] }

def attJson {T : Type} [RoleType T] (m : Metadata T) : Json :=
  match m.marshal with
  | .ok j => j
  | _ => .null

/-- The attacker adds a signature to the timestamp of the first release. -/
def attOther : Metadata TimestampType := { signed := folTimestamp 1, signatures := some [sigOf b!"x" [3], sigOf (idOf 1) [1], sigOf (idOf 2) [2]] }

def attEnv : Env :=
  { folEnv with
    parse := fun b => match b with
      | [1, 1] => some (attJson (attSigned attRoot))
      | [2, 1] => some (attJson (attSigned (folTimestamp 1)))
      | [2, 2] => some (attJson (attSigned (folTimestamp 2)))
      | [3, 1] => some (attJson (attSigned (folSnapshot 1)))
      | [3, 2] => some (attJson (attSigned (folSnapshot 2)))
      | [4, 1] => some (attJson (attSigned (folTargets 1)))
      | [4, 2] => some (attJson (attSigned (folTargets 2)))
      | [2, 5] => some (attJson attOther)
      | [2, 9] => some (attJson (attSigned (folTimestamp 9)))
      | _ => none
    verifySig := fun pk _ sig p => if pk = .ed25519 [1] then (if sig = [1] ∧ .ok p ∈ attPayloads then .ok () else .err (.other "bad signature"))
      else if sig = [2] then .ok () else .err (.other "bad signature") }

/-- The documents of the holder of key 1, as others read them. -/
inductive AttDoc : AnyMeta → Prop
  | root {m} : fromBytes (T := RootType) attEnv [1, 1] = .ok m → AttDoc (.root m)
  | timestamp {m} {v : UInt8} : v = 1 ∨ v = 2 → fromBytes (T := TimestampType) attEnv [2, v] = .ok m → AttDoc (.timestamp m)
  | snapshot {m} {v : UInt8} : v = 1 ∨ v = 2 → fromBytes (T := SnapshotType) attEnv [3, v] = .ok m → AttDoc (.snapshot m)
  | targets {m} {v : UInt8} : v = 1 ∨ v = 2 → fromBytes (T := TargetsType) attEnv [4, v] = .ok m → AttDoc (.targets m)

def attHolders : Holders := ⟨fun pk => pk = .ed25519 [1], fun pk d => pk = .ed25519 [1] ∧ AttDoc d⟩

/-- The attacker's server. -/
def attServer (url : Str) : Except Err Bytes :=
  if url = b!"u/timestamp.json" then .ok [2, 5] else if url = b!"u/1.snapshot.json" then .ok [3, 1] else .error (.downloadHTTP 404 url)

/-- The repository's server, at the time of the second release. -/
def attServer2 (url : Str) : Except Err Bytes :=
  if url = b!"u/timestamp.json" then .ok [2, 2] else if url = b!"u/2.snapshot.json" then .ok [3, 2]
  else if url = b!"u/2.targets.json" then .ok [4, 2] else .error (.downloadHTTP 404 url)

def attCfg : Cfg := { cfg with localTrustedRoot := [1, 1] }
def attCtx : Ctx := ⟨attEnv, hostOf attServer, attCfg⟩
def attRun : ClientRun := ⟨⟨attEnv, { hostOf attServer2 with tempName := fun _ => some 77 }, attCfg⟩, fun u _ => attServer2 u, now, attRoot, folFiles 2⟩

end Sample

theorem attEnv_laws : EnvLaws attEnv where
  anyIdem := fun _ _ _ => rfl
  anyInt := fun _ _ => rfl
  time := (rtEnv_laws .null .null).time
  zeroTime := rfl

theorem att_parsed : ((fromBytes (T := RootType) attEnv [1, 1]).map (fun m => (payload m.signed, m.signed.type))) = .ok (payload attRoot, ROOT) ∧
    (∀ v : UInt8, v = 1 ∨ v = 2 → ((fromBytes (T := TimestampType) attEnv [2, v]).map (fun m => (payload m.signed, m.signed.type))) = .ok (payload (folTimestamp v), TIMESTAMP)) ∧
    (∀ v : UInt8, v = 1 ∨ v = 2 → ((fromBytes (T := SnapshotType) attEnv [3, v]).map (fun m => (payload m.signed, m.signed.type))) = .ok (payload (folSnapshot v), SNAPSHOT)) ∧
    (∀ v : UInt8, v = 1 ∨ v = 2 → ((fromBytes (T := TargetsType) attEnv [4, v]).map (fun m => (payload m.signed, m.signed.type))) = .ok (payload (folTargets v), TARGETS)) := by
  refine ⟨by decide +kernel, ?_, ?_, ?_⟩ <;> rintro v (rfl | rfl) <;> decide +kernel

theorem att_root_parsed : fromBytes (T := RootType) attEnv [1, 1] = .ok (attSigned attRoot) := by rfl

theorem att_targets_parsed {v : UInt8} (hv : v = 1 ∨ v = 2) : (fromBytes (T := TargetsType) attEnv [4, v]).map (fun m => m.signed.delegations.isNone) = .ok true := by
  rcases hv with rfl | rfl <;> decide +kernel

theorem att_names {v : UInt8} (hv : v = 1 ∨ v = 2) :
    (fromBytes (T := SnapshotType) attEnv [3, v]).map (fun m => (m.signed.metas.get? b!"timestamp.json").isNone && (m.signed.metas.get? b!"snapshot.json").isNone) = .ok true := by
  rcases hv with rfl | rfl <;> decide +kernel

theorem att_role {role : Str} {r : Role} (hr : attRoot.roles.get? role = some (some r)) : r = attRole := by
  have hmem : (role, some r) ∈ (attRoot.roles).entries := Entries.mem_of_get? hr
  simp only [attRoot, GoMap.entries, Option.getD_some, List.mem_cons, List.not_mem_nil, or_false, Prod.mk.injEq] at hmem
  rcases hmem with ⟨_, h⟩ | ⟨_, h⟩ | ⟨_, h⟩ | ⟨_, h⟩ <;> exact Option.some.inj h

theorem att_wellGuarded : WellGuarded attEnv attHolders (.root (attSigned attRoot)) := by
  intro role keys ids t hd S hn hS
  cases hd with
  | @root _ _ r hr =>
    cases att_role hr
    have hfew : ∀ id ∈ S, id = idOf 2 := by
      intro id hid
      obtain ⟨h1, key, pk, h, h2, h3, h4⟩ := hS id hid
      have h1 : id ∈ [idOf 1, idOf 2] := h1
      simp only [List.mem_cons, List.not_mem_nil, or_false] at h1
      rcases h1 with rfl | rfl
      · have h2' : some (some (folKey 1)) = some (some key) := h2
        cases h2'
        cases h3 with
        | rsa h _ => cases h
        | ecdsa h _ => rcases h with h | h <;> cases h
        | ed25519 _ h5 _ _ =>
          cases h5
          exact absurd rfl h4
      · rfl
    have hlen := hn.length_le_of_subset (l₂ := [idOf 2]) (fun i hi => by rw [hfew i hi]; simp)
    simp only [List.length_cons, List.length_nil] at hlen
    have : attRole.threshold = 2 := rfl
    omega

theorem att_diligent : Diligent attEnv attHolders where
  unforgeable := by
    intro pk h sig p hh hv
    cases hh
    have hmem : .ok p ∈ attPayloads := by
      have hv' : (if sig = [1] ∧ Res.ok p ∈ attPayloads then Res.ok () else .err (.other "bad signature")) = .ok () := hv
      split at hv'
      · rename_i h; exact h.2
      · cases hv'
    obtain ⟨g1, g2, g3, g4⟩ := att_parsed
    simp only [attPayloads, List.mem_cons, List.not_mem_nil, or_false] at hmem
    rcases hmem with e | e | e | e | e | e | e
    · obtain ⟨m, h1, h2⟩ := Res.map_eq_ok.1 g1
      exact ⟨_, ⟨rfl, .root h1⟩, by rw [e]; exact congrArg Prod.fst h2⟩
    · obtain ⟨m, h1, h2⟩ := Res.map_eq_ok.1 (g2 1 (.inl rfl))
      exact ⟨_, ⟨rfl, .timestamp (.inl rfl) h1⟩, by rw [e]; exact congrArg Prod.fst h2⟩
    · obtain ⟨m, h1, h2⟩ := Res.map_eq_ok.1 (g2 2 (.inr rfl))
      exact ⟨_, ⟨rfl, .timestamp (.inr rfl) h1⟩, by rw [e]; exact congrArg Prod.fst h2⟩
    · obtain ⟨m, h1, h2⟩ := Res.map_eq_ok.1 (g3 1 (.inl rfl))
      exact ⟨_, ⟨rfl, .snapshot (.inl rfl) h1⟩, by rw [e]; exact congrArg Prod.fst h2⟩
    · obtain ⟨m, h1, h2⟩ := Res.map_eq_ok.1 (g3 2 (.inr rfl))
      exact ⟨_, ⟨rfl, .snapshot (.inr rfl) h1⟩, by rw [e]; exact congrArg Prod.fst h2⟩
    · obtain ⟨m, h1, h2⟩ := Res.map_eq_ok.1 (g4 1 (.inl rfl))
      exact ⟨_, ⟨rfl, .targets (.inl rfl) h1⟩, by rw [e]; exact congrArg Prod.fst h2⟩
    · obtain ⟨m, h1, h2⟩ := Res.map_eq_ok.1 (g4 2 (.inr rfl))
      exact ⟨_, ⟨rfl, .targets (.inr rfl) h1⟩, by rw [e]; exact congrArg Prod.fst h2⟩
  readable := by
    rintro pk d _ ⟨_, hd⟩
    obtain ⟨g1, g2, g3, g4⟩ := att_parsed
    cases hd with
    | root h => rw [h] at g1; exact ⟨.root h, congrArg Prod.snd (Res.ok.inj g1)⟩
    | timestamp hv h => have g2 := g2 _ hv; rw [h] at g2; exact ⟨.timestamp h, congrArg Prod.snd (Res.ok.inj g2)⟩
    | snapshot hv h => have g3 := g3 _ hv; rw [h] at g3; exact ⟨.snapshot h, congrArg Prod.snd (Res.ok.inj g3)⟩
    | targets hv h => have g4 := g4 _ hv; rw [h] at g4; exact ⟨.targets h, congrArg Prod.snd (Res.ok.inj g4)⟩
  guarded := by
    rintro pk d _ ⟨_, hd⟩
    cases hd with
    | root h => rw [att_root_parsed] at h; cases h; exact att_wellGuarded
    | timestamp _ h => intro _ _ _ _ h; cases h
    | snapshot _ h => intro _ _ _ _ h; cases h
    | targets hv h =>
      have hn := att_targets_parsed hv
      rw [h] at hn
      have hn : _ = true := Res.ok.inj hn
      rw [Option.isNone_iff_eq_none] at hn
      intro _ _ _ _ hd
      cases hd with
      | targets h1 => rw [hn] at h1; cases h1
      | succinct h1 => rw [hn] at h1; cases h1

theorem goodAttRoot : GoodRoot attEnv attRoot where
  fields := goodFields_nil _
  type := rfl
  version := rfl
  expires := rfl
  keys := ⟨(goodFolRoot 1).keys.1, by
    have hk : ∀ k, GoodKey attEnv (folKey k) := fun k => ⟨goodFields_nil _, goodFields_nil _⟩
    simp [attRoot, GoMap.entries, hk]⟩
  roles := ⟨by simp only [attRoot, Entries.Sorted, GoMap.entries, StrLt]; decide, by
    simp only [attRoot, GoMap.entries, Option.getD_some, List.mem_cons, List.not_mem_nil, or_false]
    have : GoodRole attEnv attRole := ⟨goodFields_nil _, rfl⟩
    rintro x (rfl | rfl | rfl | rfl) <;> exact ⟨_, rfl, this⟩⟩

theorem goodAttMeta (v : UInt8) (name : Str) : GoodMap (GoodMeta attEnv) (some [(name, some (folMeta v))]) :=
  ⟨by simp [Entries.Sorted, GoMap.entries], by
    simp only [GoMap.entries, Option.getD_some, List.mem_singleton, forall_eq]
    exact ⟨_, rfl, goodFields_nil _, rfl, folInt v, List.Pairwise.nil⟩⟩

theorem goodAttTimestamp (v : UInt8) : GoodTimestamp attEnv (folTimestamp v) := ⟨goodFields_nil _, rfl, folInt v, rfl, goodAttMeta v _⟩
theorem goodAttSnapshot (v : UInt8) : GoodSnapshot attEnv (folSnapshot v) := ⟨goodFields_nil _, rfl, folInt v, rfl, goodAttMeta v _⟩
theorem goodAttTargets (v : UInt8) : GoodTargets attEnv (folTargets v) :=
  ⟨goodFields_nil _, rfl, folInt v, rfl, ⟨by simp [folTargets, Entries.Sorted, GoMap.entries], by
    simp only [folTargets, GoMap.entries, Option.getD_some, List.mem_singleton, forall_eq]
    exact ⟨_, rfl, goodFields_nil _, rfl, by simp [pubTarget, Entries.Sorted, GoMap.entries], by intro c hc; cases hc⟩⟩, fun _ h => nomatch h⟩

theorem att_ids : (∀ id, SignerID attEnv attSigner id ↔ id = idOf 1) ∧ (∀ id, SignerID attEnv (signer 2) id ↔ id = idOf 2) := by
  refine ⟨fun id => ⟨?_, ?_⟩, fun id => ⟨?_, ?_⟩⟩
  · rintro ⟨pk, key, key', h1, h2, h3⟩
    cases h1
    cases h2
    cases h3
    rfl
  · rintro rfl
    exact ⟨_, folKey 1, _, rfl, rfl, rfl⟩
  · rintro ⟨pk, key, key', h1, h2, h3⟩
    cases h1
    cases h2
    cases h3
    rfl
  · rintro rfl
    exact ⟨_, folKey 2, _, rfl, rfl, rfl⟩

theorem att_distinct : idOf 1 ≠ idOf 2 := by decide +kernel

theorem att_written {T : Type} [RoleType T] {a : T} {p data : Bytes} (hp : payload a = .ok p) (hm : payload a ∈ attPayloads)
    (hb : toBytes attEnv (attSigned a) false = .ok data) (hj : ∀ j, (attSigned a).marshal = .ok j → attEnv.parse (attEnv.print false j) = some j) :
    Publishes attEnv a [attSigner, signer 2] data := by
  refine ⟨?_, { signed := a, signatures := some [] }, attSigned a, false, rfl, rfl, goodFields_nil _, ?_, hb, hj⟩
  · simp only [List.pairwise_cons, List.mem_singleton, forall_eq, List.not_mem_nil, false_implies, implies_true, List.Pairwise.nil, and_true]
    intro id h1 h2
    rw [att_ids.1] at h1
    rw [att_ids.2] at h2
    exact att_distinct (h1.symm.trans h2)
  · rw [hp] at hm
    refine .snoc (ss := [attSigner]) (sig := sigOf (idOf 2) [2]) (.snoc (ss := []) (sig := sigOf (idOf 1) [1]) (m1 := { signed := a, signatures := some [] }) (m2 := { signed := a, signatures := some [sigOf (idOf 1) [1]] }) .nil ?_) ?_
    · have hs : attSigner.signMessage p = some [1] := if_pos hm
      unfold sign
      dsimp only
      rw [hp, Res.bind_ok, hs]
      rfl
    · unfold sign
      dsimp only
      rw [hp]
      rfl

theorem att_published {v : UInt8} (hv : v = 1 ∨ v = 2) : Publishes attEnv (folTimestamp v) [attSigner, signer 2] [2, v] ∧
    Publishes attEnv (folSnapshot v) [attSigner, signer 2] [3, v] ∧ Publishes attEnv (folTargets v) [attSigner, signer 2] [4, v] := by
  rcases hv with rfl | rfl
  · exact ⟨att_written rfl (by simp [attPayloads]) rfl (by intro j hj; cases hj; rfl), att_written rfl (by simp [attPayloads]) rfl (by intro j hj; cases hj; rfl),
      att_written rfl (by simp [attPayloads]) rfl (by intro j hj; cases hj; rfl)⟩
  · exact ⟨att_written rfl (by simp [attPayloads]) rfl (by intro j hj; cases hj; rfl), att_written rfl (by simp [attPayloads]) rfl (by intro j hj; cases hj; rfl),
      att_written rfl (by simp [attPayloads]) rfl (by intro j hj; cases hj; rfl)⟩

theorem attPublishesRoot : Publishes attEnv attRoot [attSigner, signer 2] [1, 1] := att_written rfl (by simp [attPayloads]) rfl (by intro j hj; cases hj; rfl)

theorem attSuffice {role : Str} (h : attRoot.roles.get? role = some (some attRole)) : Suffice attEnv (.root { signed := attRoot }) role [attSigner, signer 2] := by
  refine ⟨_, _, _, Delegates.root (m := { signed := attRoot }) h, by decide, ⟨[idOf 1, idOf 2], by simp [att_distinct], by decide, ?_⟩, ?_⟩
  · intro id hid
    refine ⟨hid, ?_⟩
    simp only [List.mem_cons, List.not_mem_nil, or_false] at hid
    rcases hid with rfl | rfl
    · exact ⟨attSigner, by simp, att_ids.1 _ |>.2 rfl⟩
    · exact ⟨signer 2, by simp, att_ids.2 _ |>.2 rfl⟩
  · intro id hid
    have hid : id ∈ [idOf 1, idOf 2] := hid
    simp only [List.mem_cons, List.not_mem_nil, or_false] at hid
    rcases hid with rfl | rfl
    · refine ⟨folKey 1, .ed25519 [1], .none, rfl, .ed25519 rfl rfl rfl rfl, ?_, ?_⟩
      · intro sig p hp
        have : (if sig = [1] ∧ Res.ok p ∈ attPayloads then Res.ok () else .err (.other "bad signature")) = (.panic : Res Unit) := hp
        split at this <;> cases this
      · intro s hs hid p sig hsig
        simp only [List.mem_cons, List.not_mem_nil, or_false] at hs
        rcases hs with rfl | rfl
        · have hsig : (if Res.ok p ∈ attPayloads then some [1] else none) = some sig := hsig
          split at hsig
          · rename_i hm
            cases hsig
            show (if [1] = [1] ∧ Res.ok p ∈ attPayloads then Res.ok () else .err (.other "bad signature")) = (.ok () : Res Unit)
            rw [if_pos ⟨rfl, hm⟩]
          · cases hsig
        · exact absurd ((att_ids.2 _).1 hid) att_distinct
    · refine ⟨folKey 2, .ed25519 [2], .none, rfl, .ed25519 rfl rfl rfl rfl, ?_, ?_⟩
      · intro sig p hp
        have : (if sig = [2] then Res.ok () else .err (.other "bad signature")) = (.panic : Res Unit) := hp
        split at this <;> cases this
      · intro s hs hid p sig hsig
        simp only [List.mem_cons, List.not_mem_nil, or_false] at hs
        rcases hs with rfl | rfl
        · exact absurd ((att_ids.1 _).1 hid).symm att_distinct
        · cases hsig
          rfl

theorem attReleased {v : UInt8} (hv : v = 1 ∨ v = 2) : Released attEnv now attRoot (folFiles v) where
  goodTimestamp := goodAttTimestamp v
  goodSnapshot := goodAttSnapshot v
  goodTargets := goodAttTargets v
  timestamp := ⟨_, (att_published hv).1, attSuffice rfl⟩
  snapshot := ⟨_, (att_published hv).2.1, attSuffice rfl⟩
  targets := ⟨_, (att_published hv).2.2, attSuffice rfl⟩
  rootFresh := by simp [Expired, attRoot, pubTime, now, at']
  timestampFresh := by simp [Expired, folFiles, folTimestamp, pubTime, now, at']
  snapshotFresh := by simp [Expired, folFiles, folSnapshot, pubTime, now, at']
  targetsFresh := by simp [Expired, folFiles, folTargets, pubTime, now, at']
  snapshotListed := ⟨rfl, rfl, fun h => absurd rfl h, by intro e h he; cases he⟩
  targetsListed := ⟨rfl, rfl, fun h => absurd rfl h, by intro e h he; cases he⟩

theorem attServing : ServingFiles attRun.x attRun.srv attRoot (folFiles 2) where
  timestamp := ⟨b!"u/timestamp.json", ⟨_, pubBase, by decide +kernel⟩, rfl⟩
  snapshot := ⟨b!"u/2.snapshot.json", _, .inl ⟨rfl, _, pubBase, by decide +kernel⟩, .inr ⟨rfl, rfl⟩, rfl⟩
  targets := ⟨b!"u/2.targets.json", _, .inl ⟨rfl, _, pubBase, by decide +kernel⟩, .inr ⟨rfl, rfl⟩, rfl⟩

theorem attGood : attRun.Good attEnv b!"m" where
  sameEnv := rfl
  sameDir := rfl
  online := rfl
  caching := rfl
  url := by decide
  dirs := by decide
  disk := ⟨fun _ => rfl, fun _ => rfl, fun _ _ => rfl, fun _ _ => Nat.le_refl _, fun _ _ _ => rfl⟩
  mkdir := fun _ _ => rfl
  network := fun _ _ _ => rfl
  clock := fun _ => rfl
  released := attReleased (.inr rfl)
  served := attServing
  roots := by
    obtain ⟨t, h1, h2, _⟩ := C86_root attEnv_laws goodAttRoot attPublishesRoot (attSuffice rfl) now
    refine ⟨t, t, by decide, h1, by decide, by rw [h2]; decide, .newest (n := 31) (url := b!"u/2.root.json") (status := 404) ⟨_, pubBase, by rw [h2]; decide +kernel⟩ rfl (.inr rfl), h2⟩

theorem attMayFollow {v : UInt8} (hv : v = 1 ∨ v = 2) : MayFollow (folFiles v) (folFiles 2) := by
  rcases hv with rfl | rfl
  · exact folMayFollow
  · exact ⟨.inr rfl, by decide, .inr rfl, fun name f h => ⟨f, h, by omega⟩, .inr rfl⟩

theorem attReleases (first : Metadata RootType) : OnlyReleases attEnv attHolders first (folFiles 2) where
  timestamp := by
    rintro d ⟨_, _, _, _, _, _, _, _, _, _, _, _, _, _, _, hd⟩
    cases hd with
    | @timestamp _ v hv h =>
      have g := att_parsed.2.1 _ hv
      rw [h] at g
      exact ⟨_, wasReleased_of (attReleased hv), attMayFollow hv, congrArg Prod.fst (Res.ok.inj g)⟩
  snapshot := by
    rintro d ⟨_, _, _, _, _, _, _, _, _, _, _, _, _, _, _, hd⟩
    cases hd with
    | @snapshot _ v hv h =>
      have g := att_parsed.2.2.1 _ hv
      rw [h] at g
      exact ⟨_, wasReleased_of (attReleased hv), attMayFollow hv, congrArg Prod.fst (Res.ok.inj g)⟩
  targets := by
    rintro d ⟨_, _, _, _, _, _, _, _, _, _, _, _, _, _, _, hd⟩
    cases hd with
    | @targets _ v hv h =>
      have g := att_parsed.2.2.2 _ hv
      rw [h] at g
      exact ⟨_, wasReleased_of (attReleased hv), attMayFollow hv, congrArg Prod.fst (Res.ok.inj g)⟩
  names := by
    rintro d ⟨_, _, _, _, _, _, _, _, _, _, _, _, _, _, _, hd⟩
    cases hd with
    | @snapshot _ v hv h =>
      have g := att_names hv
      rw [h] at g
      have g := Res.ok.inj g
      rw [Bool.and_eq_true, Option.isNone_iff_eq_none, Option.isNone_iff_eq_none] at g
      intro name hn f hf
      simp only [List.mem_cons, List.not_mem_nil, or_false] at hn
      rcases hn with rfl | rfl
      · rw [g.1] at hf; cases hf
      · rw [g.2] at hf; cases hf

namespace Sample
/-- The attacked client, just started. -/
def attStart : St := ⟨{ root := attSigned attRoot, refTime := now }, { fs := fun _ => none }⟩
/-- The files when the attacked client is interrupted. -/
def attFiles : FS := replay (fun _ => none) ((refresh attCtx attStart).2.world.trace.take 12)
end Sample

theorem attStart_new : Trusted.new attEnv now [1, 1] = .ok attStart.trusted := by
  have hok : (Trusted.new attEnv now [1, 1]).isOk = true := by decide +kernel
  cases h : Trusted.new attEnv now [1, 1] with
  | ok t0 =>
    obtain ⟨m, h1, _, _, rfl⟩ := C78_new.1 h
    have h1 : fromBytes attEnv [1, 1] = .ok m := h1
    rw [att_root_parsed] at h1
    cases h1
    rfl
  | err e => rw [h] at hok; cases hok
  | panic => rw [h] at hok; cases hok

theorem attAttacked : Attacked (Careful attEnv attHolders b!"m" (folFiles 2)) b!"m" (fun _ => none) attFiles :=
  .call (x := attCtx) (w := attStart.world) (s := attStart) (a := .refresh) (evs := (refresh attCtx attStart).2.world.trace) .start
    ⟨rfl, rfl, ⟨now, attStart_new⟩, att_wellGuarded, attReleases _⟩ .refl rfl ⟨_, _, (List.take_append_drop 12 _).symm, .inl rfl⟩ (by intro _ _ _ _ h; cases h)

/-- A case of `C134_recovers`: the attacked client stored the attacker's timestamp, and was interrupted before the snapshot was in place, so that a temporary file remains.
The next client is up to date all the same. -/
example : attFiles b!"m/timestamp.json" = some [2, 5] ∧ attFiles b!"m/snapshot.json" = none ∧ attFiles b!"w/tuf_tmp9" = some [3, 1] ∧
    ∃ t0 w1 s' ts sn tg, newUpdater attRun.x { fs := attFiles } = (.ok t0, w1) ∧ refresh attRun.x ⟨t0, w1⟩ = (.ok (), s') ∧ s'.trusted.root.signed = readRoot attRoot ∧
      s'.trusted.timestamp = some ts ∧ viewTimestamp ts.signed = viewTimestamp (folTimestamp 2) ∧ s'.trusted.snapshot = some sn ∧ viewSnapshot sn.signed = viewSnapshot (folSnapshot 2) ∧
      s'.trusted.targets = [(b!"targets", tg)] ∧ viewTargets tg.signed = viewTargets (readTargets (folTargets 2)) := by
  refine ⟨by decide +kernel, by decide +kernel, by decide +kernel, ?_⟩
  refine C134_recovers attEnv_laws att_diligent attGood (fs := fun _ => none) (w := { fs := attFiles }) attAttacked ⟨by simp, by simp, by simp⟩ ?_
  rintro p ⟨tr, cwd, n, h1, h2, rfl⟩
  cases h1
  cases h2
  decide +kernel

/-- A forged timestamp is refused by the same client. -/
example : (attStart.trusted.updateTimestamp attEnv [2, 9]).1.isOk = false ∧ (attStart.trusted.updateTimestamp attEnv [2, 5]).1.isOk = true := by decide +kernel

end Tuf
