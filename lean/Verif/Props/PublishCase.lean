import Verif.Props.Honest

/-!
# A published repository

Hypotheses of C85 to C88 are met: a root, a timestamp, a snapshot and targets are built, signed with `Sign`, written with `ToBytes`, served, and refreshed from.
-/

namespace Tuf
open Spec Sample

namespace Sample

def pubTime : Time := { instant := 4, text := b!"2030" }
def pubRole : Role := { keyIDs := some [idOf 1], threshold := 1 }

/-- A root whose roles all have the key of signer 1; the cached key ID is part of the value. -/
def pubRoot : RootType :=
  { type := ROOT, version := 1, expires := pubTime, consistentSnapshot := true, keys := some [(idOf 1, some { edKey b!"01" with id := idOf 1 })],
    roles := some [(ROOT, some pubRole), (SNAPSHOT, some pubRole), (TARGETS, some pubRole), (TIMESTAMP, some pubRole)] }

def pubTarget : TargetFiles := { length := 2, hashes := some [(b!"sha256", digest [7, 7])] }

def pubTargets : TargetsType :=
  { type := TARGETS, version := 4, expires := pubTime, targets := some [(b!"f", some pubTarget)], unrec := [(b!"x-extra", .num 1)] }

def pubSnapshotMeta : MetaFiles := { version := 4, hashes := some [] }
def pubTargetsMeta : MetaFiles := { version := 4 }
def pubSnapshot : SnapshotType := { type := SNAPSHOT, version := 4, expires := pubTime, metas := some [(b!"targets.json", some pubTargetsMeta)] }
def pubTimestamp : TimestampType := { type := TIMESTAMP, version := 4, expires := pubTime, metas := some [(b!"snapshot.json", some pubSnapshotMeta)] }

/-- The document, signed by signer 1. -/
def pubSigned {T : Type} [RoleType T] (a : T) : Metadata T :=
  match sign env0 { signed := a, signatures := some [] } (signer 1) with
  | .ok (_, m) => m
  | _ => { signed := a, signatures := some [] }

def pubJson {T : Type} [RoleType T] (a : T) : Json :=
  match (pubSigned a).marshal with
  | .ok j => j
  | _ => .null

def docType (j : Json) : Option Str :=
  match j with
  | .obj m => match Entries.get? m b!"signed" with
    | some (.obj s) => match Entries.get? s b!"_type" with
      | some (.str t) => some t
      | _ => none
    | _ => none
  | _ => none

/-- What `encoding/json` does on the four documents. -/
def pubEnv : Env :=
  { env0 with
    parseTime := parseTime'
    print := fun _ j => if docType j = some ROOT then [1] else if docType j = some TIMESTAMP then [2] else if docType j = some SNAPSHOT then [3]
      else if docType j = some TARGETS then [4] else []
    parse := fun b => match b with
      | [1] => some (pubJson pubRoot)
      | [2] => some (pubJson pubTimestamp)
      | [3] => some (pubJson pubSnapshot)
      | [4] => some (pubJson pubTargets)
      | _ => none }

def pubServer (url : Str) : Except Err Bytes :=
  if url = b!"u/timestamp.json" then .ok [2]
  else if url = b!"u/4.snapshot.json" then .ok [3]
  else if url = b!"u/4.targets.json" then .ok [4]
  else if url = b!"u/targets/f" then .ok [7, 7]
  else .error (.downloadHTTP 404 url)

def pubCtx : Ctx := ⟨pubEnv, hostOf pubServer, cfg⟩

end Sample

theorem pubEnv_laws : EnvLaws pubEnv where
  anyIdem := fun _ _ _ => rfl
  anyInt := fun _ _ => rfl
  time := (rtEnv_laws .null .null).time
  zeroTime := rfl

theorem goodKey1 : GoodKey pubEnv { edKey b!"01" with id := idOf 1 } := ⟨(goodFields_nil _), (goodFields_nil _)⟩
theorem goodRole1 : GoodRole pubEnv pubRole := ⟨(goodFields_nil _), rfl⟩

theorem goodPubRoot : GoodRoot pubEnv pubRoot where
  fields := (goodFields_nil _)
  type := rfl
  version := rfl
  expires := rfl
  keys := ⟨by simp [pubRoot, Entries.Sorted, GoMap.entries], by simp [pubRoot, GoMap.entries, goodKey1]⟩
  roles := ⟨by simp only [pubRoot, Entries.Sorted, GoMap.entries, StrLt]; decide, by simp [pubRoot, GoMap.entries, goodRole1]⟩

theorem goodPubTimestamp : GoodTimestamp pubEnv pubTimestamp where
  fields := (goodFields_nil _)
  type := rfl
  version := rfl
  expires := rfl
  metas := ⟨by simp [pubTimestamp, Entries.Sorted, GoMap.entries], by
    simp only [pubTimestamp, GoMap.entries, Option.getD_some, List.mem_singleton, forall_eq]
    exact ⟨_, rfl, (goodFields_nil _), rfl, rfl, List.Pairwise.nil⟩⟩

theorem goodPubSnapshot : GoodSnapshot pubEnv pubSnapshot where
  fields := (goodFields_nil _)
  type := rfl
  version := rfl
  expires := rfl
  metas := ⟨by simp [pubSnapshot, Entries.Sorted, GoMap.entries], by
    simp only [pubSnapshot, GoMap.entries, Option.getD_some, List.mem_singleton, forall_eq]
    exact ⟨_, rfl, (goodFields_nil _), rfl, rfl, List.Pairwise.nil⟩⟩

theorem goodPubTargets : GoodTargets pubEnv pubTargets where
  fields := ⟨by simp [pubTargets, Entries.Sorted], noVariants_one (by decide), by simp only [pubTargets, List.mem_singleton, forall_eq]; rfl⟩
  type := rfl
  version := rfl
  expires := rfl
  targets := ⟨by simp [pubTargets, Entries.Sorted, GoMap.entries], by
    simp only [pubTargets, GoMap.entries, Option.getD_some, List.mem_singleton, forall_eq]
    exact ⟨_, rfl, (goodFields_nil _), rfl, by simp [pubTarget, Entries.Sorted, GoMap.entries], by intro c hc; cases hc⟩⟩
  delegations := by intro d hd; cases hd

theorem pub_written {T : Type} [RoleType T] {a : T} {sig : Signature} {data : Bytes} (h : sign pubEnv { signed := a, signatures := some [] } (signer 1) = .ok (sig, pubSigned a))
    (hb : toBytes pubEnv (pubSigned a) false = .ok data) (hp : ∀ j, (pubSigned a).marshal = .ok j → pubEnv.parse (pubEnv.print false j) = some j) :
    Publishes pubEnv a [signer 1] data :=
  ⟨by simp, _, _, false, rfl, rfl, (goodFields_nil _), .snoc (ss := []) .nil h, hb, hp⟩

theorem pubPublishesRoot : Publishes pubEnv pubRoot [signer 1] [1] := pub_written (a := pubRoot) (sig := { keyID := idOf 1, sig := [1] }) rfl rfl (by intro j hj; cases hj; rfl)
theorem pubPublishesTimestamp : Publishes pubEnv pubTimestamp [signer 1] [2] :=
  pub_written (a := pubTimestamp) (sig := { keyID := idOf 1, sig := [1] }) rfl rfl (by intro j hj; cases hj; rfl)
theorem pubPublishesSnapshot : Publishes pubEnv pubSnapshot [signer 1] [3] :=
  pub_written (a := pubSnapshot) (sig := { keyID := idOf 1, sig := [1] }) rfl rfl (by intro j hj; cases hj; rfl)
theorem pubPublishesTargets : Publishes pubEnv pubTargets [signer 1] [4] :=
  pub_written (a := pubTargets) (sig := { keyID := idOf 1, sig := [1] }) rfl rfl (by intro j hj; cases hj; rfl)

theorem pubSuffice {role : Str} {v : Int} (h : pubRoot.roles.get? role = some (some pubRole)) :
    Suffice pubEnv (.root { signed := { pubRoot with version := v } }) role [signer 1] := by
  refine ⟨_, _, _, Delegates.root (m := { signed := { pubRoot with version := v } }) h, by decide, ⟨[idOf 1], by simp, by decide, ?_⟩, ?_⟩
  · intro id hid
    rw [List.mem_singleton] at hid
    subst hid
    exact ⟨List.mem_singleton.2 rfl, signer 1, List.mem_singleton.2 rfl, _, edKey b!"01", _, rfl, rfl, rfl⟩
  · intro id hid
    have hid' : id = idOf 1 := List.mem_singleton.1 hid
    subst hid'
    refine ⟨{ edKey b!"01" with id := idOf 1 }, .ed25519 [1], .none, rfl, .ed25519 rfl rfl rfl rfl, ?_, ?_⟩
    · intro sig p hp
      have : (if sig = material (.ed25519 [1]) ∧ sig ≠ [] then Res.ok () else .err (.other "bad signature")) = (.panic : Res Unit) := hp
      split at this <;> cases this
    · intro s hs _ p sig hsig
      rw [List.mem_singleton] at hs
      subst hs
      cases hsig
      rfl

/-- The release of the sample. -/
theorem pubRelease : Release pubEnv now pubRoot pubTimestamp pubSnapshot pubTargets [2] [3] [4] pubSnapshotMeta pubTargetsMeta where
  goodTimestamp := goodPubTimestamp
  goodSnapshot := goodPubSnapshot
  goodTargets := goodPubTargets
  timestamp := ⟨_, pubPublishesTimestamp, pubSuffice rfl⟩
  snapshot := ⟨_, pubPublishesSnapshot, pubSuffice rfl⟩
  targets := ⟨_, pubPublishesTargets, pubSuffice rfl⟩
  rootFresh := by simp [Expired, pubRoot, pubTime, now, at']
  timestampFresh := by simp [Expired, pubTimestamp, pubTime, now, at']
  snapshotFresh := by simp [Expired, pubSnapshot, pubTime, now, at']
  targetsFresh := by simp [Expired, pubTargets, pubTime, now, at']
  snapshotListed := ⟨rfl, rfl, fun h => absurd rfl h, by intro e h he; cases he⟩
  targetsListed := ⟨rfl, rfl, fun h => absurd rfl h, by intro e h he; cases he⟩

namespace Sample
/-- A client that trusts the published root, without any files. -/
def pubClient : St := ⟨{ root := { signed := readRoot pubRoot }, refTime := now }, { fs := fun _ => none }⟩
end Sample

theorem pubBase : SlashBase pubCtx.cfg.remoteMetadataURL b!"u/" := .inr ⟨by decide +kernel, by decide +kernel⟩

theorem pubServing : Serving pubCtx (fun u _ => pubServer u) pubRoot [2] [3] [4] pubSnapshotMeta pubTargetsMeta where
  timestamp := ⟨b!"u/timestamp.json", ⟨_, pubBase, by decide +kernel⟩, rfl⟩
  snapshot := ⟨b!"u/4.snapshot.json", _, .inl ⟨rfl, _, pubBase, by decide +kernel⟩, .inr ⟨rfl, rfl⟩, rfl⟩
  targets := ⟨b!"u/4.targets.json", _, .inl ⟨rfl, _, pubBase, by decide +kernel⟩, .inr ⟨rfl, rfl⟩, rfl⟩

theorem pubDisk : GoodDisk pubCtx.host := ⟨fun _ => rfl, fun _ => rfl, fun _ _ => rfl, fun _ _ => Nat.le_refl _, fun _ _ _ => rfl⟩

/-- A case of `C85_targets`: the value, signed, written and read; the target now knows its path. -/
example : ∃ data, toBytes pubEnv (pubSigned pubTargets) false = .ok data ∧ fromBytes pubEnv data = .ok { pubSigned pubTargets with signed := readTargets pubTargets } :=
  C85_targets pubEnv_laws (m := pubSigned pubTargets) (pretty := false)
    ⟨goodPubTargets, by simp only [pubSigned]; intro s hs; have : s = { keyID := idOf 1, sig := [1] } := List.mem_singleton.1 hs
                        subst this; exact goodFields_nil _, List.pairwise_singleton _ _, goodFields_nil _⟩
    (by intro j hj; cases hj; rfl)

/-- A case of `C86_root`. -/
example : ∃ t, Trusted.new pubEnv now [1] = .ok t ∧ t.root.signed = readRoot pubRoot ∧ t.timestamp = none ∧ t.snapshot = none ∧ t.targets = [] ∧ t.refTime = now :=
  C86_root pubEnv_laws goodPubRoot pubPublishesRoot (pubSuffice rfl) now

/-- A case of `C86_next_root`: the same root again, for a client whose root has version 0. -/
example : ∃ m, ({ root := { signed := { readRoot pubRoot with version := 0 } }, refTime := now } : Trusted).updateRoot pubEnv [1] =
    (.ok m, { root := m, refTime := now }) ∧ m.signed = readRoot pubRoot := by
  refine C86_next_root pubEnv_laws (t := { root := { signed := { readRoot pubRoot with version := 0 } }, refTime := now }) rfl goodPubRoot pubPublishesRoot ?_ (pubSuffice rfl) rfl
  exact suffice_root (m := { signed := { pubRoot with version := 0 } }) (m' := { signed := readRoot { pubRoot with version := 0 } }) rfl (pubSuffice (role := b!"root") rfl)

/-- A case of `C86_release`. -/
example : ∃ mts msn mtg, (pubClient.trusted.updateTimestamp pubEnv [2]) = (.ok mts, { pubClient.trusted with timestamp := some mts }) ∧
    ({ pubClient.trusted with timestamp := some mts } : Trusted).updateSnapshot pubEnv [3] false = (.ok msn, { pubClient.trusted with timestamp := some mts, snapshot := some msn }) ∧
    (({ pubClient.trusted with timestamp := some mts, snapshot := some msn } : Trusted).updateDelegatedTargets pubEnv [4] b!"targets" b!"root").1 = .ok mtg ∧
    mts.signed = viewTimestamp pubTimestamp ∧ msn.signed = viewSnapshot pubSnapshot ∧ mtg.signed = readTargets pubTargets :=
  C86_release pubEnv_laws pubRelease rfl rfl rfl rfl rfl

/-- A case of `C87_refresh` and `C88_target_partial`: the client refreshes, finds the target `f` and downloads it. -/
example : ∃ s' s'', refresh pubCtx pubClient = (.ok (), s') ∧ getTargetInfo pubCtx b!"f" s' = (.ok (some { pubTarget with path := b!"f" }), s') ∧
    downloadTarget pubCtx { pubTarget with path := b!"f" } b!"out" [] s' = (.ok (b!"out", [7, 7]), s'') ∧ s''.world.fs b!"out" = some [7, 7] := by
  obtain ⟨mts, msn, mtg, s', h1, h2, h3, h4, h5⟩ := C87_refresh (x := pubCtx) (srv := fun u _ => pubServer u) (s := pubClient) (t := pubClient.trusted) pubEnv_laws pubRelease pubServing rfl
    (fun _ _ _ => rfl) (.inr pubDisk) (fun _ _ => rfl) (by decide) (.newest (n := 31) (url := b!"u/2.root.json") (status := 404) ⟨_, pubBase, by decide +kernel⟩ rfl (.inr rfl))
    rfl rfl rfl rfl rfl (fun _ _ => rfl)
  obtain ⟨h6, h7⟩ := C88_target_partial (x := pubCtx) (srv := fun u _ => pubServer u) (s := s') (mtg := mtg) (tg := pubTargets) (path := b!"f") (f := pubTarget)
    (fun _ _ _ => rfl) (.inr pubDisk) (by rw [h2]; rfl) h5 (by decide) rfl
  obtain ⟨s'', h8, h9⟩ := h7 b!"out" [] b!"out" b!"u/targets/" [7, 7] (.given (by simp)) (.configured rfl (by decide) (.inr ⟨by decide +kernel, by decide +kernel⟩))
    (.inl ⟨.inr rfl, rfl⟩) (by intro h; cases h) ⟨rfl, by
      intro alg v hv
      have : (alg, v) = (b!"sha256", digest [7, 7]) := List.mem_singleton.1 hv
      cases this
      exact .sha256⟩
  exact ⟨s', s'', h1, h6, h8, h9 rfl⟩

end Tuf
