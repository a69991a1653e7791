import Verif.Props.Follow
import Verif.Props.PublishCase

/-!
# A client that visits a repository twice

Hypotheses of C93 are met: between the visits the repository replaces all keys but that of the root, and publishes a new release.
-/

namespace Tuf
open Spec Sample

namespace Sample

def folRole (k : UInt8) : Role := { keyIDs := some [idOf k], threshold := 1 }
def folKey (k : UInt8) : Key := edKey (hexEncode [k])

/-- Version `v` of the root: signed by signer 1, the other roles are signed by signer `v`. -/
def folRoot (v : UInt8) : RootType :=
  { type := ROOT, version := v.toNat, expires := pubTime, consistentSnapshot := true, keys := some [(idOf 1, some (folKey 1)), (idOf 2, some (folKey 2))],
    roles := some [(ROOT, some (folRole 1)), (SNAPSHOT, some (folRole v)), (TARGETS, some (folRole v)), (TIMESTAMP, some (folRole v))] }

def folTargets (v : UInt8) : TargetsType := { type := TARGETS, version := v.toNat, expires := pubTime, targets := some [(b!"f", some pubTarget)] }
def folMeta (v : UInt8) : MetaFiles := { version := v.toNat, hashes := some [] }
def folSnapshot (v : UInt8) : SnapshotType := { type := SNAPSHOT, version := v.toNat, expires := pubTime, metas := some [(b!"targets.json", some (folMeta v))] }
def folTimestamp (v : UInt8) : TimestampType := { type := TIMESTAMP, version := v.toNat, expires := pubTime, metas := some [(b!"snapshot.json", some (folMeta v))] }

def folSigned {T : Type} [RoleType T] (k : UInt8) (a : T) : Metadata T :=
  match sign env0 { signed := a, signatures := some [] } (signer k) with
  | .ok (_, m) => m
  | _ => { signed := a, signatures := some [] }

def folJson {T : Type} [RoleType T] (k : UInt8) (a : T) : Json :=
  match (folSigned k a).marshal with
  | .ok j => j
  | _ => .null

def folDocVersion (j : Json) : UInt8 :=
  match j with
  | .obj m => match Entries.get? m b!"signed" with
    | some (.obj s) => match Entries.get? s b!"version" with
      | some (.num n) => UInt8.ofNat n.toNat
      | _ => 0
    | _ => 0
  | _ => 0

/-- What `encoding/json` does on the documents of two releases and of a thief of key 1. -/
def folEnv : Env :=
  { env0 with
    parseTime := parseTime'
    print := fun _ j => [if docType j = some ROOT then 1 else if docType j = some TIMESTAMP then 2 else if docType j = some SNAPSHOT then 3
      else if docType j = some TARGETS then 4 else 0, folDocVersion j]
    parse := fun b => match b with
      | [1, 1] => some (folJson 1 (folRoot 1))
      | [1, 2] => some (folJson 1 (folRoot 2))
      | [2, 1] => some (folJson 1 (folTimestamp 1))
      | [2, 2] => some (folJson 2 (folTimestamp 2))
      | [3, 1] => some (folJson 1 (folSnapshot 1))
      | [3, 2] => some (folJson 2 (folSnapshot 2))
      | [4, 1] => some (folJson 1 (folTargets 1))
      | [4, 2] => some (folJson 2 (folTargets 2))
      | [2, 9] => some (folJson 1 (folTimestamp 9))
      | [3, 9] => some (folJson 1 (folSnapshot 9))
      | [4, 9] => some (folJson 1 (folTargets 9))
      | _ => none }

def folFiles (v : UInt8) : Files :=
  { ts := folTimestamp v, sn := folSnapshot v, tg := folTargets v, dts := [2, v], dsn := [3, v], dtg := [4, v], fsn := folMeta v, ftg := folMeta v }

/-- The servers at the times of the two visits. -/
def folServer1 (url : Str) : Except Err Bytes :=
  if url = b!"u/timestamp.json" then .ok [2, 1] else if url = b!"u/1.snapshot.json" then .ok [3, 1] else if url = b!"u/1.targets.json" then .ok [4, 1]
  else .error (.downloadHTTP 404 url)
def folServer2 (url : Str) : Except Err Bytes :=
  if url = b!"u/2.root.json" then .ok [1, 2] else if url = b!"u/timestamp.json" then .ok [2, 2] else if url = b!"u/2.snapshot.json" then .ok [3, 2]
  else if url = b!"u/2.targets.json" then .ok [4, 2] else .error (.downloadHTTP 404 url)

def folRun1 : ClientRun := ⟨⟨folEnv, hostOf folServer1, cfg⟩, fun u _ => folServer1 u, now, folRoot 1, folFiles 1⟩
def folRun2 : ClientRun := ⟨⟨folEnv, hostOf folServer2, cfg⟩, fun u _ => folServer2 u, now, folRoot 2, folFiles 2⟩

end Sample

theorem folEnv_laws : EnvLaws folEnv where
  anyIdem := fun _ _ _ => rfl
  anyInt := fun _ _ => rfl
  time := (rtEnv_laws .null .null).time
  zeroTime := rfl

theorem goodFolKey (k : UInt8) : GoodKey folEnv (folKey k) := ⟨goodFields_nil _, goodFields_nil _⟩
theorem goodFolRole (k : UInt8) : GoodRole folEnv (folRole k) := ⟨goodFields_nil _, rfl⟩

theorem folInt (v : UInt8) : inInt64 (v.toNat : Int) = true := by
  have := v.toNat_lt
  unfold inInt64
  simp only [Bool.and_eq_true, decide_eq_true_eq]
  omega

theorem goodFolRoot (v : UInt8) : GoodRoot folEnv (folRoot v) where
  fields := goodFields_nil _
  type := rfl
  version := folInt v
  expires := rfl
  keys := ⟨by simp only [folRoot, Entries.Sorted, GoMap.entries, StrLt]; decide +kernel, by simp [folRoot, GoMap.entries, goodFolKey]⟩
  roles := ⟨by simp only [folRoot, Entries.Sorted, GoMap.entries, StrLt, Option.getD_some, List.pairwise_cons]; simp; decide, by simp [folRoot, GoMap.entries, goodFolRole]⟩

theorem goodFolTimestamp (v : UInt8) : GoodTimestamp folEnv (folTimestamp v) where
  fields := goodFields_nil _
  type := rfl
  version := folInt v
  expires := rfl
  metas := ⟨by simp [folTimestamp, Entries.Sorted, GoMap.entries], by
    simp only [folTimestamp, GoMap.entries, Option.getD_some, List.mem_singleton, forall_eq]
    exact ⟨_, rfl, goodFields_nil _, rfl, folInt v, List.Pairwise.nil⟩⟩

theorem goodFolSnapshot (v : UInt8) : GoodSnapshot folEnv (folSnapshot v) where
  fields := goodFields_nil _
  type := rfl
  version := folInt v
  expires := rfl
  metas := ⟨by simp [folSnapshot, Entries.Sorted, GoMap.entries], by
    simp only [folSnapshot, GoMap.entries, Option.getD_some, List.mem_singleton, forall_eq]
    exact ⟨_, rfl, goodFields_nil _, rfl, folInt v, List.Pairwise.nil⟩⟩

theorem goodFolTargets (v : UInt8) : GoodTargets folEnv (folTargets v) where
  fields := goodFields_nil _
  type := rfl
  version := folInt v
  expires := rfl
  targets := ⟨by simp [folTargets, Entries.Sorted, GoMap.entries], by
    simp only [folTargets, GoMap.entries, Option.getD_some, List.mem_singleton, forall_eq]
    exact ⟨_, rfl, goodFields_nil _, rfl, by simp [pubTarget, Entries.Sorted, GoMap.entries], by intro c hc; cases hc⟩⟩
  delegations := by intro d hd; cases hd

theorem fol_written {T : Type} [RoleType T] {k : UInt8} {a : T} {sig : Signature} {data : Bytes} (h : sign folEnv { signed := a, signatures := some [] } (signer k) = .ok (sig, folSigned k a))
    (hb : toBytes folEnv (folSigned k a) false = .ok data) (hp : ∀ j, (folSigned k a).marshal = .ok j → folEnv.parse (folEnv.print false j) = some j) :
    Publishes folEnv a [signer k] data :=
  ⟨by simp, _, _, false, rfl, rfl, goodFields_nil _, .snoc (ss := []) .nil h, hb, hp⟩

theorem folPublishes1 : Publishes folEnv (folTimestamp 1) [signer 1] [2, 1] ∧ Publishes folEnv (folSnapshot 1) [signer 1] [3, 1] ∧ Publishes folEnv (folTargets 1) [signer 1] [4, 1] :=
  ⟨fol_written (sig := { keyID := idOf 1, sig := [1] }) rfl rfl (by intro j hj; cases hj; rfl), fol_written (sig := { keyID := idOf 1, sig := [1] }) rfl rfl (by intro j hj; cases hj; rfl),
   fol_written (sig := { keyID := idOf 1, sig := [1] }) rfl rfl (by intro j hj; cases hj; rfl)⟩
theorem folPublishes2 : Publishes folEnv (folTimestamp 2) [signer 2] [2, 2] ∧ Publishes folEnv (folSnapshot 2) [signer 2] [3, 2] ∧ Publishes folEnv (folTargets 2) [signer 2] [4, 2] :=
  ⟨fol_written (sig := { keyID := idOf 2, sig := [2] }) rfl rfl (by intro j hj; cases hj; rfl), fol_written (sig := { keyID := idOf 2, sig := [2] }) rfl rfl (by intro j hj; cases hj; rfl),
   fol_written (sig := { keyID := idOf 2, sig := [2] }) rfl rfl (by intro j hj; cases hj; rfl)⟩
theorem folPublishesRoot : Publishes folEnv (folRoot 1) [signer 1] [1, 1] ∧ Publishes folEnv (folRoot 2) [signer 1] [1, 2] :=
  ⟨fol_written (sig := { keyID := idOf 1, sig := [1] }) rfl rfl (by intro j hj; cases hj; rfl), fol_written (sig := { keyID := idOf 1, sig := [1] }) rfl rfl (by intro j hj; cases hj; rfl)⟩

theorem folSuffice {role : Str} {v k : UInt8} (hk : k = 1 ∨ k = 2) (h : (folRoot v).roles.get? role = some (some (folRole k))) :
    Suffice folEnv (.root { signed := folRoot v }) role [signer k] := by
  refine ⟨_, _, _, Delegates.root (m := { signed := folRoot v }) h, by simp [folRole], ⟨[idOf k], by simp, by simp [folRole], ?_⟩, ?_⟩
  · intro id hid
    rw [List.mem_singleton] at hid
    subst hid
    refine ⟨List.mem_singleton.2 rfl, signer k, List.mem_singleton.2 rfl, ?_⟩
    rcases hk with rfl | rfl
    · exact ⟨_, folKey 1, _, rfl, rfl, rfl⟩
    · exact ⟨_, folKey 2, _, rfl, rfl, rfl⟩
  · intro id hid
    have hid' : id = idOf k := List.mem_singleton.1 hid
    subst hid'
    refine ⟨folKey k, .ed25519 [k], .none, ?_, ?_, ?_, ?_⟩
    · rcases hk with rfl | rfl
      · rfl
      · rfl
    · rcases hk with rfl | rfl
      · exact .ed25519 rfl rfl rfl rfl
      · exact .ed25519 rfl rfl rfl rfl
    · intro sig p hp
      have : (if sig = material (.ed25519 [k]) ∧ sig ≠ [] then Res.ok () else .err (.other "bad signature")) = (.panic : Res Unit) := hp
      split at this <;> cases this
    · intro s hs _ p sig hsig
      rw [List.mem_singleton] at hs
      subst hs
      cases hsig
      rcases hk with rfl | rfl
      · rfl
      · rfl

theorem folReleased1 : Released folEnv now (folRoot 1) (folFiles 1) where
  goodTimestamp := goodFolTimestamp 1
  goodSnapshot := goodFolSnapshot 1
  goodTargets := goodFolTargets 1
  timestamp := ⟨_, folPublishes1.1, folSuffice (.inl rfl) rfl⟩
  snapshot := ⟨_, folPublishes1.2.1, folSuffice (.inl rfl) rfl⟩
  targets := ⟨_, folPublishes1.2.2, folSuffice (.inl rfl) rfl⟩
  rootFresh := by simp [Expired, folRoot, pubTime, now, at']
  timestampFresh := by simp [Expired, folFiles, folTimestamp, pubTime, now, at']
  snapshotFresh := by simp [Expired, folFiles, folSnapshot, pubTime, now, at']
  targetsFresh := by simp [Expired, folFiles, folTargets, pubTime, now, at']
  snapshotListed := ⟨rfl, rfl, fun h => absurd rfl h, by intro e h he; cases he⟩
  targetsListed := ⟨rfl, rfl, fun h => absurd rfl h, by intro e h he; cases he⟩

theorem folReleased2 : Released folEnv now (folRoot 2) (folFiles 2) where
  goodTimestamp := goodFolTimestamp 2
  goodSnapshot := goodFolSnapshot 2
  goodTargets := goodFolTargets 2
  timestamp := ⟨_, folPublishes2.1, folSuffice (.inr rfl) rfl⟩
  snapshot := ⟨_, folPublishes2.2.1, folSuffice (.inr rfl) rfl⟩
  targets := ⟨_, folPublishes2.2.2, folSuffice (.inr rfl) rfl⟩
  rootFresh := by simp [Expired, folRoot, pubTime, now, at']
  timestampFresh := by simp [Expired, folFiles, folTimestamp, pubTime, now, at']
  snapshotFresh := by simp [Expired, folFiles, folSnapshot, pubTime, now, at']
  targetsFresh := by simp [Expired, folFiles, folTargets, pubTime, now, at']
  snapshotListed := ⟨rfl, rfl, fun h => absurd rfl h, by intro e h he; cases he⟩
  targetsListed := ⟨rfl, rfl, fun h => absurd rfl h, by intro e h he; cases he⟩

theorem folServing1 : ServingFiles folRun1.x folRun1.srv (folRoot 1) (folFiles 1) where
  timestamp := ⟨b!"u/timestamp.json", ⟨_, pubBase, by decide +kernel⟩, rfl⟩
  snapshot := ⟨b!"u/1.snapshot.json", _, .inl ⟨rfl, _, pubBase, by decide +kernel⟩, .inr ⟨rfl, rfl⟩, rfl⟩
  targets := ⟨b!"u/1.targets.json", _, .inl ⟨rfl, _, pubBase, by decide +kernel⟩, .inr ⟨rfl, rfl⟩, rfl⟩

theorem folServing2 : ServingFiles folRun2.x folRun2.srv (folRoot 2) (folFiles 2) where
  timestamp := ⟨b!"u/timestamp.json", ⟨_, pubBase, by decide +kernel⟩, rfl⟩
  snapshot := ⟨b!"u/2.snapshot.json", _, .inl ⟨rfl, _, pubBase, by decide +kernel⟩, .inr ⟨rfl, rfl⟩, rfl⟩
  targets := ⟨b!"u/2.targets.json", _, .inl ⟨rfl, _, pubBase, by decide +kernel⟩, .inr ⟨rfl, rfl⟩, rfl⟩

theorem folDisk (srv : Str → Except Err Bytes) : GoodDisk (hostOf srv) := ⟨fun _ => rfl, fun _ => rfl, fun _ _ => rfl, fun _ _ => Nat.le_refl _, fun _ _ _ => rfl⟩

theorem folGood1 : folRun1.Good folEnv b!"m" where
  sameEnv := rfl
  sameDir := rfl
  online := rfl
  caching := rfl
  url := by decide
  dirs := by decide
  disk := folDisk _
  mkdir := fun _ _ => rfl
  network := fun _ _ _ => rfl
  clock := fun _ => rfl
  released := folReleased1
  served := folServing1
  roots := by
    obtain ⟨t, h1, h2, _⟩ := C86_root folEnv_laws (goodFolRoot 1) folPublishesRoot.1 (folSuffice (.inl rfl) rfl) now
    refine ⟨t, t, by decide, h1, by decide, by rw [h2]; decide, .newest (n := 31) (url := b!"u/2.root.json") (status := 404) ⟨_, pubBase, by rw [h2]; decide +kernel⟩ rfl (.inr rfl), h2⟩

theorem folGood2 : folRun2.Good folEnv b!"m" where
  sameEnv := rfl
  sameDir := rfl
  online := rfl
  caching := rfl
  url := by decide
  dirs := by decide
  disk := folDisk _
  mkdir := fun _ _ => rfl
  network := fun _ _ _ => rfl
  clock := fun _ => rfl
  released := folReleased2
  served := folServing2
  roots := by
    obtain ⟨t, h1, h2, h3, _⟩ := C86_root folEnv_laws (goodFolRoot 1) folPublishesRoot.1 (folSuffice (.inl rfl) rfl) now
    obtain ⟨m, h4, h5⟩ := C86_next_root folEnv_laws h3 (goodFolRoot 2) folPublishesRoot.2 (suffice_root (m := { signed := folRoot 1 }) h2 (folSuffice (.inl rfl) rfl))
      (folSuffice (.inl rfl) rfl) (by rw [h2]; rfl)
    refine ⟨t, { t with root := m }, by decide, h1, by decide, by rw [h2]; decide, ?_, h5⟩
    exact .rotated (n := 31) (url := b!"u/2.root.json") (data := [1, 2]) (new := m) ⟨_, pubBase, by rw [h2]; decide +kernel⟩ rfl (C78_root.1 (congrArg Prod.fst h4))
      (.newest (n := 30) (url := b!"u/3.root.json") (status := 404) ⟨_, pubBase, by dsimp only; rw [h5]; decide +kernel⟩ rfl (.inr rfl))

theorem folMayFollow : MayFollow (folFiles 1) (folFiles 2) where
  timestamp := .inl (by decide)
  snapshotEntry := by decide
  snapshot := .inl (by decide)
  listed := by
    intro name f h
    by_cases hn : name = b!"targets.json"
    · subst hn
      have : f = folMeta 1 := by
        have h' : some (some (folMeta 1)) = some (some f) := h
        injection h' with h'
        injection h' with h'
        exact h'.symm
      subst this
      exact ⟨folMeta 2, rfl, by decide⟩
    · exfalso
      have h' : (if name = b!"targets.json" then some (some (folMeta 1)) else none) = some (some f) := by
        rw [← h]
        simp [folFiles, folSnapshot, GoMap.get?, GoMap.entries, Entries.get?, eq_comm]
      rw [if_neg hn] at h'
      cases h'
  targets := .inl (by decide)

/-- A case of `C93_keeps_up`: two visits, starting without files. -/
example : AllSucceed { fs := fun _ => none } [folRun1, folRun2] :=
  C93_keeps_up folEnv_laws (dir := b!"m") (by simp [folGood1, folGood2]) (by simp; exact folMayFollow) (fun _ _ => rfl)
    (fun _ _ => ⟨by simp, by simp, by simp⟩)

/-- The timestamp of the first release is not acceptable to a client with the second root. -/
example : (((Trusted.new folEnv now [1, 2]).bind (fun t => (t.updateTimestamp folEnv [2, 1]).1.map (fun _ => ()))) : Res Unit) = .err (.unsignedMetadata "not enough signatures") := by
  decide +kernel

end Tuf
