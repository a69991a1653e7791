import Verif.Props.AttackSearch
import Verif.Props.AttackCase
import Verif.Props.SearchFollow

/-!
# A client that is attacked while it searches

Hypotheses of C135 are met: each role needs the keys of the signers 1 and 2; the attacker has that of signer 2 and the network. Top-level targets delegate the path `g` to
the role `a`. The client is given the first release, with one more signature on the document of `a`. Then it reaches the repository, which has the second release.
-/

namespace Tuf
open Spec Sample

namespace Sample

def atsDelegated : DelegatedRole := { name := b!"a", keyIDs := some [idOf 1, idOf 2], threshold := 2, terminating := false, paths := some [b!"g"] }
def atsKeys : GoMap (Option Key) := some [(idOf 1, some (folKey 1)), (idOf 2, some (folKey 2))]

/-- Version `v` of the top-level targets, and, for versions 11 and 12, of the role `a`. -/
def atsTargets (v : UInt8) : TargetsType :=
  if v < 10 then { type := TARGETS, version := v.toNat, expires := pubTime, targets := some [(b!"f", some pubTarget)], delegations := some { keys := atsKeys, roles := some [atsDelegated] } }
  else { type := TARGETS, version := v.toNat, expires := pubTime, targets := some [(b!"g", some pubTarget)] }
def atsSnapshot (v : UInt8) : SnapshotType :=
  { type := SNAPSHOT, version := v.toNat, expires := pubTime, metas := some [(b!"a.json", some (folMeta (v + 10))), (b!"targets.json", some (folMeta v))] }
def atsFiles (v : UInt8) : Files :=
  { ts := folTimestamp v, sn := atsSnapshot v, tg := atsTargets v, dts := [2, v], dsn := [3, v], dtg := [4, v], fsn := folMeta v, ftg := folMeta v }

/-- What the holder of key 1 signs. -/
def atsPayloads : List (Res Bytes) :=
  [payload attRoot, payload (folTimestamp 1), payload (folTimestamp 2), payload (atsSnapshot 1), payload (atsSnapshot 2), payload (atsTargets 1), payload (atsTargets 2), payload (atsTargets 11),
    payload (atsTargets 12)]

def atsSigner : Signer := { signMessage := fun p => if Res.ok p ∈ atsPayloads then some [1] else none, publicKey := some (.ed25519 [1]) }

/-- The attacker adds a signature to the document of `a` of the first release. -/
def atsOther : Metadata TargetsType := { signed := atsTargets 11, signatures := some [sigOf b!"x" [3], sigOf (idOf 1) [1], sigOf (idOf 2) [2]] }

def atsEnv : Env :=
  { folEnv with
    parse := fun b => match b with
      | [1, 1] => some (attJson (attSigned attRoot))
      | [2, 1] => some (attJson (attSigned (folTimestamp 1)))
      | [2, 2] => some (attJson (attSigned (folTimestamp 2)))
      | [3, 1] => some (attJson (attSigned (atsSnapshot 1)))
      | [3, 2] => some (attJson (attSigned (atsSnapshot 2)))
      | [4, 1] => some (attJson (attSigned (atsTargets 1)))
      | [4, 2] => some (attJson (attSigned (atsTargets 2)))
      | [4, 11] => some (attJson (attSigned (atsTargets 11)))
      | [4, 12] => some (attJson (attSigned (atsTargets 12)))
      | [4, 15] => some (attJson atsOther)
      | [4, 19] => some (attJson (attSigned (atsTargets 19)))
      | _ => none
    verifySig := fun pk _ sig p => if pk = .ed25519 [1] then (if sig = [1] ∧ .ok p ∈ atsPayloads then .ok () else .err (.other "bad signature"))
      else if sig = [2] then .ok () else .err (.other "bad signature") }

/-- The documents of the holder of key 1, as others read them. -/
inductive AtsDoc : AnyMeta → Prop
  | root {m} : fromBytes (T := RootType) atsEnv [1, 1] = .ok m → AtsDoc (.root m)
  | timestamp {m} {v : UInt8} : v = 1 ∨ v = 2 → fromBytes (T := TimestampType) atsEnv [2, v] = .ok m → AtsDoc (.timestamp m)
  | snapshot {m} {v : UInt8} : v = 1 ∨ v = 2 → fromBytes (T := SnapshotType) atsEnv [3, v] = .ok m → AtsDoc (.snapshot m)
  | targets {m} {v : UInt8} : v ∈ [1, 2, 11, 12] → fromBytes (T := TargetsType) atsEnv [4, v] = .ok m → AtsDoc (.targets m)

def atsHolders : Holders := ⟨fun pk => pk = .ed25519 [1], fun pk d => pk = .ed25519 [1] ∧ AtsDoc d⟩

/-- The servers: the attacker's, and the repository's at the time of the second release. -/
def atsServer (url : Str) : Except Err Bytes :=
  if url = b!"u/timestamp.json" then .ok [2, 1] else if url = b!"u/1.snapshot.json" then .ok [3, 1] else if url = b!"u/1.targets.json" then .ok [4, 1]
  else if url = b!"u/11.a.json" then .ok [4, 15] else .error (.downloadHTTP 404 url)
def atsServer2 (url : Str) : Except Err Bytes :=
  if url = b!"u/timestamp.json" then .ok [2, 2] else if url = b!"u/2.snapshot.json" then .ok [3, 2]
  else if url = b!"u/2.targets.json" then .ok [4, 2] else if url = b!"u/12.a.json" then .ok [4, 12] else .error (.downloadHTTP 404 url)

def atsCtx : Ctx := ⟨atsEnv, hostOf atsServer, attCfg⟩
def atsRun : ClientRun := ⟨⟨atsEnv, { hostOf atsServer2 with tempName := fun _ => some 77 }, attCfg⟩, fun u _ => atsServer2 u, now, attRoot, atsFiles 2⟩

/-- The roles for the path `g`, at the time of the second release. -/
def atsDocs (role : Str) : Option PubRole :=
  if role = b!"targets" then some ⟨atsTargets 2, folMeta 2, [4, 2]⟩
  else if role = b!"a" then some ⟨atsTargets 12, folMeta 12, [4, 12]⟩
  else none

def atsSession : ClientSession := ⟨atsRun, atsDocs, [b!"g"]⟩

end Sample

theorem atsEnv_laws : EnvLaws atsEnv where
  anyIdem := fun _ _ _ => rfl
  anyInt := fun _ _ => rfl
  time := (rtEnv_laws .null .null).time
  zeroTime := rfl

theorem ats_parsed : ((fromBytes (T := RootType) atsEnv [1, 1]).map (fun m => (payload m.signed, m.signed.type))) = .ok (payload attRoot, ROOT) ∧
    (∀ v : UInt8, v = 1 ∨ v = 2 → ((fromBytes (T := TimestampType) atsEnv [2, v]).map (fun m => (payload m.signed, m.signed.type))) = .ok (payload (folTimestamp v), TIMESTAMP)) ∧
    (∀ v : UInt8, v = 1 ∨ v = 2 → ((fromBytes (T := SnapshotType) atsEnv [3, v]).map (fun m => (payload m.signed, m.signed.type))) = .ok (payload (atsSnapshot v), SNAPSHOT)) ∧
    (∀ v : UInt8, v ∈ ([1, 2, 11, 12] : List UInt8) → ((fromBytes (T := TargetsType) atsEnv [4, v]).map (fun m => (payload m.signed, m.signed.type))) = .ok (payload (atsTargets v), TARGETS)) := by
  refine ⟨by decide +kernel, ?_, ?_, ?_⟩
  · rintro v (rfl | rfl) <;> decide +kernel
  · rintro v (rfl | rfl) <;> decide +kernel
  · intro v hv
    simp only [List.mem_cons, List.not_mem_nil, or_false] at hv
    rcases hv with rfl | rfl | rfl | rfl <;> decide +kernel

theorem ats_root_parsed : fromBytes (T := RootType) atsEnv [1, 1] = .ok (attSigned attRoot) := by rfl

theorem ats_targets_parsed {v : UInt8} (hv : v ∈ ([1, 2, 11, 12] : List UInt8)) :
    (fromBytes (T := TargetsType) atsEnv [4, v]).map (fun m => m.signed.delegations) = .ok (if v < 10 then some { keys := atsKeys, roles := some [atsDelegated] } else none) := by
  simp only [List.mem_cons, List.not_mem_nil, or_false] at hv
  rcases hv with rfl | rfl | rfl | rfl <;> rfl

theorem ats_names {v : UInt8} (hv : v = 1 ∨ v = 2) :
    (fromBytes (T := SnapshotType) atsEnv [3, v]).map (fun m => (m.signed.metas.get? b!"timestamp.json").isNone && (m.signed.metas.get? b!"snapshot.json").isNone) = .ok true := by
  rcases hv with rfl | rfl <;> decide +kernel

theorem ats_few {keys : GoMap (Option Key)} {key1 : Key} (hk : keys.get? (idOf 1) = some (some key1)) (ht : key1.type = KeyTypeEd25519) (hp : key1.value.publicKey = b!"01") {S : List Str}
    (hn : S.Nodup) (hS : ∀ id ∈ S, id ∈ [idOf 1, idOf 2] ∧ Compromised atsEnv atsHolders keys id) : (S.length : Int) < 2 := by
  have hfew : ∀ id ∈ S, id = idOf 2 := by
    intro id hid
    obtain ⟨h1, key, pk, h, h2, h3, h4⟩ := hS id hid
    simp only [List.mem_cons, List.not_mem_nil, or_false] at h1
    rcases h1 with rfl | rfl
    · rw [hk] at h2
      cases h2
      cases h3 with
      | rsa h _ => rw [ht] at h; cases h
      | ecdsa h _ => rw [ht] at h; rcases h with h | h <;> cases h
      | ed25519 _ h5 _ _ =>
        rw [hp] at h5
        cases h5
        exact absurd rfl h4
    · rfl
  have hlen := hn.length_le_of_subset (l₂ := [idOf 2]) (fun i hi => by rw [hfew i hi]; simp)
  simp only [List.length_cons, List.length_nil] at hlen
  omega

theorem ats_wellGuarded : WellGuarded atsEnv atsHolders (.root (attSigned attRoot)) := by
  intro role keys ids t hd S hn hS
  cases hd with
  | @root _ _ r hr =>
    cases att_role hr
    exact ats_few (key1 := folKey 1) rfl rfl rfl hn hS

theorem ats_guarded {m : Metadata TargetsType} (h : m.signed.delegations = some { keys := atsKeys, roles := some [atsDelegated] } ∨ m.signed.delegations = none) :
    WellGuarded atsEnv atsHolders (.targets m) := by
  intro role keys ids t hd S hn hS
  rcases h with h | h
  · cases hd with
    | @targets _ _ d before after r h1 h2 h3 h4 =>
      rw [h] at h1
      cases h1
      have h2 : [atsDelegated] = before ++ r :: after := Option.some.inj h2
      have hm : r ∈ [atsDelegated] := by rw [h2]; exact List.mem_append_right _ (.head _)
      rw [List.mem_singleton] at hm
      subst hm
      exact ats_few (key1 := folKey 1) rfl rfl rfl hn hS
    | succinct h1 h2 => rw [h] at h1; cases h1; cases h2
  · cases hd with
    | targets h1 => rw [h] at h1; cases h1
    | succinct h1 => rw [h] at h1; cases h1

theorem ats_diligent : Diligent atsEnv atsHolders where
  unforgeable := by
    intro pk h sig p hh hv
    cases hh
    have hmem : .ok p ∈ atsPayloads := by
      have hv' : (if sig = [1] ∧ Res.ok p ∈ atsPayloads then Res.ok () else .err (.other "bad signature")) = .ok () := hv
      split at hv'
      · rename_i h; exact h.2
      · cases hv'
    obtain ⟨g1, g2, g3, g4⟩ := ats_parsed
    simp only [atsPayloads, List.mem_cons, List.not_mem_nil, or_false] at hmem
    rcases hmem with e | e | e | e | e | e | e | e | e
    · obtain ⟨m, h1, h2⟩ := Res.map_eq_ok.1 g1
      exact ⟨_, ⟨rfl, .root h1⟩, by rw [e]; exact congrArg Prod.fst h2⟩
    · obtain ⟨m, h1, h2⟩ := Res.map_eq_ok.1 (g2 1 (.inl rfl))
      exact ⟨_, ⟨rfl, .timestamp (.inl rfl) h1⟩, by rw [e]; exact congrArg Prod.fst h2⟩
    · obtain ⟨m, h1, h2⟩ := Res.map_eq_ok.1 (g2 2 (.inr rfl))
      exact ⟨_, ⟨rfl, .timestamp (.inr rfl) h1⟩, by rw [e]; exact congrArg Prod.fst h2⟩
    · obtain ⟨m, h1, h2⟩ := Res.map_eq_ok.1 (g3 1 (.inl rfl))
      exact ⟨_, ⟨rfl, .snapshot (.inl rfl) h1⟩, by rw [e]; exact congrArg Prod.fst h2⟩
    · obtain ⟨m, h1, h2⟩ := Res.map_eq_ok.1 (g3 2 (.inr rfl))
      exact ⟨_, ⟨rfl, .snapshot (.inr rfl) h1⟩, by rw [e]; exact congrArg Prod.fst h2⟩
    · obtain ⟨m, h1, h2⟩ := Res.map_eq_ok.1 (g4 1 (by decide))
      exact ⟨_, ⟨rfl, .targets (by decide) h1⟩, by rw [e]; exact congrArg Prod.fst h2⟩
    · obtain ⟨m, h1, h2⟩ := Res.map_eq_ok.1 (g4 2 (by decide))
      exact ⟨_, ⟨rfl, .targets (by decide) h1⟩, by rw [e]; exact congrArg Prod.fst h2⟩
    · obtain ⟨m, h1, h2⟩ := Res.map_eq_ok.1 (g4 11 (by decide))
      exact ⟨_, ⟨rfl, .targets (by decide) h1⟩, by rw [e]; exact congrArg Prod.fst h2⟩
    · obtain ⟨m, h1, h2⟩ := Res.map_eq_ok.1 (g4 12 (by decide))
      exact ⟨_, ⟨rfl, .targets (by decide) h1⟩, by rw [e]; exact congrArg Prod.fst h2⟩
  readable := by
    rintro pk d _ ⟨_, hd⟩
    obtain ⟨g1, g2, g3, g4⟩ := ats_parsed
    cases hd with
    | root h => rw [h] at g1; exact ⟨.root h, congrArg Prod.snd (Res.ok.inj g1)⟩
    | timestamp hv h => have g2 := g2 _ hv; rw [h] at g2; exact ⟨.timestamp h, congrArg Prod.snd (Res.ok.inj g2)⟩
    | snapshot hv h => have g3 := g3 _ hv; rw [h] at g3; exact ⟨.snapshot h, congrArg Prod.snd (Res.ok.inj g3)⟩
    | targets hv h => have g4 := g4 _ hv; rw [h] at g4; exact ⟨.targets h, congrArg Prod.snd (Res.ok.inj g4)⟩
  guarded := by
    rintro pk d _ ⟨_, hd⟩
    cases hd with
    | root h => rw [ats_root_parsed] at h; cases h; exact ats_wellGuarded
    | timestamp _ h => intro _ _ _ _ h; cases h
    | snapshot _ h => intro _ _ _ _ h; cases h
    | @targets m v hv h =>
      have hn := ats_targets_parsed hv
      rw [h] at hn
      have hn : m.signed.delegations = _ := Res.ok.inj hn
      refine ats_guarded ?_
      by_cases hlt : v < 10
      · rw [if_pos hlt] at hn; exact .inl hn
      · rw [if_neg hlt] at hn; exact .inr hn

theorem goodAtsRoot : GoodRoot atsEnv attRoot where
  fields := goodFields_nil _
  type := rfl
  version := rfl
  expires := rfl
  keys := ⟨(goodFolRoot 1).keys.1, by
    have hk : ∀ k, GoodKey atsEnv (folKey k) := fun k => ⟨goodFields_nil _, goodFields_nil _⟩
    simp [attRoot, GoMap.entries, hk]⟩
  roles := ⟨by simp only [attRoot, Entries.Sorted, GoMap.entries, StrLt]; decide, by
    simp only [attRoot, GoMap.entries, Option.getD_some, List.mem_cons, List.not_mem_nil, or_false]
    have : GoodRole atsEnv attRole := ⟨goodFields_nil _, rfl⟩
    rintro x (rfl | rfl | rfl | rfl) <;> exact ⟨_, rfl, this⟩⟩

theorem goodAtsMeta (v : UInt8) (name : Str) : GoodMap (GoodMeta atsEnv) (some [(name, some (folMeta v))]) :=
  ⟨by simp [Entries.Sorted, GoMap.entries], by
    simp only [GoMap.entries, Option.getD_some, List.mem_singleton, forall_eq]
    exact ⟨_, rfl, goodFields_nil _, rfl, folInt v, List.Pairwise.nil⟩⟩

theorem goodAtsTimestamp (v : UInt8) : GoodTimestamp atsEnv (folTimestamp v) := ⟨goodFields_nil _, rfl, folInt v, rfl, goodAtsMeta v _⟩
theorem goodAtsSnapshot (v : UInt8) : GoodSnapshot atsEnv (atsSnapshot v) := ⟨goodFields_nil _, rfl, folInt v, rfl, by
  simp only [atsSnapshot, Entries.Sorted, GoMap.entries, StrLt, Option.getD_some, List.pairwise_cons]; simp; decide, by
    simp only [atsSnapshot, GoMap.entries, Option.getD_some, List.mem_cons, List.not_mem_nil, or_false]
    rintro e (rfl | rfl)
    · exact ⟨_, rfl, goodFields_nil _, rfl, folInt (v + 10), List.Pairwise.nil⟩
    · exact ⟨_, rfl, goodFields_nil _, rfl, folInt v, List.Pairwise.nil⟩⟩
theorem goodAtsTarget (name : Str) : GoodMap (GoodTarget atsEnv) (some [(name, some pubTarget)]) :=
  ⟨by simp [Entries.Sorted, GoMap.entries], by
    simp only [GoMap.entries, Option.getD_some, List.mem_singleton, forall_eq]
    exact ⟨_, rfl, goodFields_nil _, rfl, by simp [pubTarget, Entries.Sorted, GoMap.entries], by intro c hc; cases hc⟩⟩
theorem goodAtsTargets (v : UInt8) : GoodTargets atsEnv (atsTargets v) := by
  unfold atsTargets
  split
  · refine ⟨goodFields_nil _, rfl, folInt v, rfl, goodAtsTarget _, ?_⟩
    intro d hd
    cases hd
    refine ⟨goodFields_nil _, ⟨by simp only [atsKeys, Entries.Sorted, GoMap.entries, StrLt]; decide +kernel, by simp only [atsKeys, GoMap.entries, Option.getD_some, List.mem_cons, List.not_mem_nil, or_false]; rintro e (rfl | rfl) <;> exact ⟨_, rfl, goodFields_nil _, goodFields_nil _⟩⟩, ?_, (by intro s hs; cases hs), .inr rfl⟩
    intro r hr
    have hr : r ∈ [atsDelegated] := hr
    rw [List.mem_singleton] at hr
    subst hr
    exact ⟨goodFields_nil _, rfl, .inr rfl⟩
  · exact ⟨goodFields_nil _, rfl, folInt v, rfl, goodAtsTarget _, fun _ h => nomatch h⟩

theorem ats_ids : (∀ id, SignerID atsEnv atsSigner id ↔ id = idOf 1) ∧ (∀ id, SignerID atsEnv (signer 2) id ↔ id = idOf 2) := by
  refine ⟨fun id => ⟨?_, ?_⟩, fun id => ⟨?_, ?_⟩⟩
  · rintro ⟨pk, key, key', h1, h2, h3⟩
    cases h1
    cases h2
    cases h3
    rfl
  · rintro rfl
    exact ⟨_, folKey 1, _, rfl, rfl, rfl⟩
  · rintro ⟨pk, key, key', h1, h2, h3⟩
    cases h1
    cases h2
    cases h3
    rfl
  · rintro rfl
    exact ⟨_, folKey 2, _, rfl, rfl, rfl⟩

theorem ats_written {T : Type} [RoleType T] {a : T} {p data : Bytes} (hp : payload a = .ok p) (hm : payload a ∈ atsPayloads)
    (hb : toBytes atsEnv (attSigned a) false = .ok data) (hj : ∀ j, (attSigned a).marshal = .ok j → atsEnv.parse (atsEnv.print false j) = some j) :
    Publishes atsEnv a [atsSigner, signer 2] data := by
  refine ⟨?_, { signed := a, signatures := some [] }, attSigned a, false, rfl, rfl, goodFields_nil _, ?_, hb, hj⟩
  · simp only [List.pairwise_cons, List.mem_singleton, forall_eq, List.not_mem_nil, false_implies, implies_true, List.Pairwise.nil, and_true]
    intro id h1 h2
    rw [ats_ids.1] at h1
    rw [ats_ids.2] at h2
    exact att_distinct (h1.symm.trans h2)
  · rw [hp] at hm
    refine .snoc (ss := [atsSigner]) (sig := sigOf (idOf 2) [2]) (.snoc (ss := []) (sig := sigOf (idOf 1) [1]) (m1 := { signed := a, signatures := some [] }) (m2 := { signed := a, signatures := some [sigOf (idOf 1) [1]] }) .nil ?_) ?_
    · have hs : atsSigner.signMessage p = some [1] := if_pos hm
      unfold sign
      dsimp only
      rw [hp, Res.bind_ok, hs]
      rfl
    · unfold sign
      dsimp only
      rw [hp]
      rfl

theorem ats_published {v : UInt8} (hv : v = 1 ∨ v = 2) : Publishes atsEnv (folTimestamp v) [atsSigner, signer 2] [2, v] ∧
    Publishes atsEnv (atsSnapshot v) [atsSigner, signer 2] [3, v] := by
  rcases hv with rfl | rfl
  · exact ⟨ats_written rfl (by simp [atsPayloads]) rfl (by intro j hj; cases hj; rfl), ats_written rfl (by simp [atsPayloads]) rfl (by intro j hj; cases hj; rfl)⟩
  · exact ⟨ats_written rfl (by simp [atsPayloads]) rfl (by intro j hj; cases hj; rfl), ats_written rfl (by simp [atsPayloads]) rfl (by intro j hj; cases hj; rfl)⟩

theorem ats_publishedTargets {v : UInt8} (hv : v ∈ ([1, 2, 11, 12] : List UInt8)) : Publishes atsEnv (atsTargets v) [atsSigner, signer 2] [4, v] := by
  simp only [List.mem_cons, List.not_mem_nil, or_false] at hv
  rcases hv with rfl | rfl | rfl | rfl
  · exact ats_written rfl (by simp [atsPayloads]) rfl (by intro j hj; cases hj; rfl)
  · exact ats_written rfl (by simp [atsPayloads]) rfl (by intro j hj; cases hj; rfl)
  · exact ats_written rfl (by simp [atsPayloads]) rfl (by intro j hj; cases hj; rfl)
  · exact ats_written rfl (by simp [atsPayloads]) rfl (by intro j hj; cases hj; rfl)

theorem atsPublishesRoot : Publishes atsEnv attRoot [atsSigner, signer 2] [1, 1] := ats_written rfl (by simp [atsPayloads]) rfl (by intro j hj; cases hj; rfl)

theorem atsEnough {D : AnyMeta} {role : Str} {keys : GoMap (Option Key)} {k1 k2 : Key} (h : Delegates D role keys [idOf 1, idOf 2] 2) (h1 : keys.get? (idOf 1) = some (some k1))
    (h2 : keys.get? (idOf 2) = some (some k2)) (e1 : VerifierOf atsEnv k1 (.ed25519 [1]) .none) (e2 : VerifierOf atsEnv k2 (.ed25519 [2]) .none) : Suffice atsEnv D role [atsSigner, signer 2] := by
  refine ⟨_, _, _, h, by decide, ⟨[idOf 1, idOf 2], by simp [att_distinct], by decide, ?_⟩, ?_⟩
  · intro id hid
    refine ⟨hid, ?_⟩
    simp only [List.mem_cons, List.not_mem_nil, or_false] at hid
    rcases hid with rfl | rfl
    · exact ⟨atsSigner, by simp, ats_ids.1 _ |>.2 rfl⟩
    · exact ⟨signer 2, by simp, ats_ids.2 _ |>.2 rfl⟩
  · intro id hid
    have hid : id ∈ [idOf 1, idOf 2] := hid
    simp only [List.mem_cons, List.not_mem_nil, or_false] at hid
    rcases hid with rfl | rfl
    · refine ⟨k1, .ed25519 [1], .none, h1, e1, ?_, ?_⟩
      · intro sig p hp
        have : (if sig = [1] ∧ Res.ok p ∈ atsPayloads then Res.ok () else .err (.other "bad signature")) = (.panic : Res Unit) := hp
        split at this <;> cases this
      · intro s hs hid p sig hsig
        simp only [List.mem_cons, List.not_mem_nil, or_false] at hs
        rcases hs with rfl | rfl
        · have hsig : (if Res.ok p ∈ atsPayloads then some [1] else none) = some sig := hsig
          split at hsig
          · rename_i hm
            cases hsig
            show (if [1] = [1] ∧ Res.ok p ∈ atsPayloads then Res.ok () else .err (.other "bad signature")) = (.ok () : Res Unit)
            rw [if_pos ⟨rfl, hm⟩]
          · cases hsig
        · exact absurd ((ats_ids.2 _).1 hid) att_distinct
    · refine ⟨k2, .ed25519 [2], .none, h2, e2, ?_, ?_⟩
      · intro sig p hp
        have : (if sig = [2] then Res.ok () else .err (.other "bad signature")) = (.panic : Res Unit) := hp
        split at this <;> cases this
      · intro s hs hid p sig hsig
        simp only [List.mem_cons, List.not_mem_nil, or_false] at hs
        rcases hs with rfl | rfl
        · exact absurd ((ats_ids.1 _).1 hid).symm att_distinct
        · cases hsig
          rfl

theorem atsSuffice {role : Str} (h : attRoot.roles.get? role = some (some attRole)) : Suffice atsEnv (.root { signed := attRoot }) role [atsSigner, signer 2] :=
  atsEnough (k1 := folKey 1) (k2 := folKey 2) (Delegates.root (m := { signed := attRoot }) h) rfl rfl (.ed25519 rfl rfl rfl rfl) (.ed25519 rfl rfl rfl rfl)

theorem atsReleased {v : UInt8} (hv : v = 1 ∨ v = 2) : Released atsEnv now attRoot (atsFiles v) where
  goodTimestamp := goodAtsTimestamp v
  goodSnapshot := goodAtsSnapshot v
  goodTargets := goodAtsTargets v
  timestamp := ⟨_, (ats_published hv).1, atsSuffice rfl⟩
  snapshot := ⟨_, (ats_published hv).2, atsSuffice rfl⟩
  targets := ⟨_, ats_publishedTargets (by rcases hv with rfl | rfl <;> decide), atsSuffice rfl⟩
  rootFresh := by simp [Expired, attRoot, pubTime, now, at']
  timestampFresh := by simp [Expired, atsFiles, folTimestamp, pubTime, now, at']
  snapshotFresh := by simp [Expired, atsFiles, atsSnapshot, pubTime, now, at']
  targetsFresh := by rcases hv with rfl | rfl <;> simp [Expired, atsFiles, atsTargets, pubTime, now, at']
  snapshotListed := ⟨rfl, rfl, fun h => absurd rfl h, by intro e h he; cases he⟩
  targetsListed := ⟨rfl, by rcases hv with rfl | rfl <;> rfl, fun h => absurd rfl h, by intro e h he; cases he⟩

theorem atsServing : ServingFiles atsRun.x atsRun.srv attRoot (atsFiles 2) where
  timestamp := ⟨b!"u/timestamp.json", ⟨_, pubBase, by decide +kernel⟩, rfl⟩
  snapshot := ⟨b!"u/2.snapshot.json", _, .inl ⟨rfl, _, pubBase, by decide +kernel⟩, .inr ⟨rfl, rfl⟩, rfl⟩
  targets := ⟨b!"u/2.targets.json", _, .inl ⟨rfl, _, pubBase, by decide +kernel⟩, .inr ⟨rfl, rfl⟩, rfl⟩

theorem atsGood : atsRun.Good atsEnv b!"m" where
  sameEnv := rfl
  sameDir := rfl
  online := rfl
  caching := rfl
  url := by decide
  dirs := by decide
  disk := ⟨fun _ => rfl, fun _ => rfl, fun _ _ => rfl, fun _ _ => Nat.le_refl _, fun _ _ _ => rfl⟩
  mkdir := fun _ _ => rfl
  network := fun _ _ _ => rfl
  clock := fun _ => rfl
  released := atsReleased (.inr rfl)
  served := atsServing
  roots := by
    obtain ⟨t, h1, h2, _⟩ := C86_root atsEnv_laws goodAtsRoot atsPublishesRoot (atsSuffice rfl) now
    refine ⟨t, t, by decide, h1, by decide, by rw [h2]; decide, .newest (n := 31) (url := b!"u/2.root.json") (status := 404) ⟨_, pubBase, by rw [h2]; decide +kernel⟩ rfl (.inr rfl), h2⟩

theorem atsMayFollow {v : UInt8} (hv : v = 1 ∨ v = 2) : MayFollow (atsFiles v) (atsFiles 2) := by
  rcases hv with rfl | rfl
  · refine ⟨.inl (by decide), by decide, .inl (by decide), ?_, .inl (by decide)⟩
    intro name f h
    have h : Entries.get? [(b!"a.json", some (folMeta 11)), (b!"targets.json", some (folMeta 1))] name = some (some f) := h
    rw [Entries.get?_cons] at h
    split at h
    · next he => cases h; rw [← (he : b!"a.json" = name)]; exact ⟨folMeta 12, rfl, by decide⟩
    · rw [Entries.get?_cons] at h
      split at h
      · next he => cases h; rw [← (he : b!"targets.json" = name)]; exact ⟨folMeta 2, rfl, by decide⟩
      · cases h
  · exact ⟨.inr rfl, by decide, .inr rfl, fun name f h => ⟨f, h, by omega⟩, .inr rfl⟩

theorem atsReleases (first : Metadata RootType) : OnlyReleases atsEnv atsHolders first (atsFiles 2) where
  timestamp := by
    rintro d ⟨_, _, _, _, _, _, _, _, _, _, _, _, _, _, _, hd⟩
    cases hd with
    | @timestamp _ v hv h =>
      have g := ats_parsed.2.1 _ hv
      rw [h] at g
      exact ⟨_, wasReleased_of (atsReleased hv), atsMayFollow hv, congrArg Prod.fst (Res.ok.inj g)⟩
  snapshot := by
    rintro d ⟨_, _, _, _, _, _, _, _, _, _, _, _, _, _, _, hd⟩
    cases hd with
    | @snapshot _ v hv h =>
      have g := ats_parsed.2.2.1 _ hv
      rw [h] at g
      exact ⟨_, wasReleased_of (atsReleased hv), atsMayFollow hv, congrArg Prod.fst (Res.ok.inj g)⟩
  targets := by
    rintro d ⟨_, _, _, _, _, _, _, _, _, _, _, _, _, _, _, hd⟩
    cases hd with
    | @targets _ v hv h =>
      have g := ats_parsed.2.2.2 _ hv
      rw [h] at g
      have hr := wasReleased_of (atsReleased (.inr rfl))
      refine ⟨{ atsFiles 2 with tg := atsTargets v, dtg := [4, v] }, ⟨hr.goodTimestamp, hr.goodSnapshot, goodAtsTargets v, hr.timestamp, hr.snapshot, ⟨_, by simp, ats_publishedTargets hv⟩, hr.snapshotListed⟩,
        ⟨.inr rfl, Int.le_refl _, .inr rfl, fun name f h => ⟨f, h, by omega⟩, ?_⟩, congrArg Prod.fst (Res.ok.inj g)⟩
      simp only [List.mem_cons, List.not_mem_nil, or_false] at hv
      rcases hv with rfl | rfl | rfl | rfl
      · exact .inl (by decide)
      · exact .inr rfl
      · exact .inl (by decide)
      · exact .inl (by decide)
  names := by
    rintro d ⟨_, _, _, _, _, _, _, _, _, _, _, _, _, _, _, hd⟩
    cases hd with
    | @snapshot _ v hv h =>
      have g := ats_names hv
      rw [h] at g
      have g := Res.ok.inj g
      rw [Bool.and_eq_true, Option.isNone_iff_eq_none, Option.isNone_iff_eq_none] at g
      intro name hn f hf
      simp only [List.mem_cons, List.not_mem_nil, or_false] at hn
      rcases hn with rfl | rfl
      · rw [g.1] at hf; cases hf
      · rw [g.2] at hf; cases hf

theorem atsPublished (first : Metadata RootType) : OnlyPublished atsEnv atsHolders first atsDocs := by
  intro role p d hp hne hd
  have hpa : p = ⟨atsTargets 12, folMeta 12, [4, 12]⟩ := by
    unfold atsDocs at hp
    rw [if_neg hne] at hp
    split at hp
    · cases hp; rfl
    · cases hp
  subst hpa
  cases hd with
  | signed _ _ _ _ _ _ hs =>
    obtain ⟨_, hs⟩ := hs
    cases hs with
    | @targets _ v hv h =>
      have g := ats_parsed.2.2.2 _ hv
      rw [h] at g
      refine ⟨atsTargets v, _, [4, v], goodAtsTargets v, by simp, ats_publishedTargets hv, congrArg Prod.fst (Res.ok.inj g), ?_⟩
      simp only [List.mem_cons, List.not_mem_nil, or_false] at hv
      rcases hv with rfl | rfl | rfl | rfl
      · exact .inl (by decide)
      · exact .inl (by decide)
      · exact .inl (by decide)
      · exact .inr rfl

theorem ats_cases {P : Str → PubRole → Prop} (h1 : P b!"targets" ⟨atsTargets 2, folMeta 2, [4, 2]⟩) (h2 : P b!"a" ⟨atsTargets 12, folMeta 12, [4, 12]⟩) :
    ∀ role p, atsDocs role = some p → P role p := by
  intro role p h
  unfold atsDocs at h
  split at h
  · next he => subst he; cases h; exact h1
  · split at h
    · next he => subst he; cases h; exact h2
    · cases h

theorem ats_covers {role child : Str} {p : PubRole} {b : Bool} (h : atsDocs role = some p) (hc : Covers atsEnv { signed := p.value } b!"g" child b) :
    p.value = atsTargets 2 ∧ b = false ∧ child = b!"a" := by
  unfold atsDocs at h
  split at h
  · cases h
    refine ⟨rfl, ?_⟩
    cases hc with
    | @listed _ before after r h1 h2 h3 h4 =>
      cases h1
      have h2 : [atsDelegated] = before ++ r :: after := Option.some.inj h2
      have hm : r ∈ [atsDelegated] := by rw [h2]; exact List.mem_append_right _ (.head _)
      rw [List.mem_singleton] at hm
      subst hm
      exact ⟨rfl, rfl⟩
    | bin h1 h2 => cases h1; cases h2
  · split at h
    · cases h; cases hc with
      | listed h1 => cases h1
      | bin h1 => cases h1
    · cases h

theorem atsBranches : Branches atsRun.x atsRun.srv now attRoot (atsSnapshot 2) (atsTargets 2) b!"g" atsDocs where
  top := ⟨_, rfl, rfl⟩
  good := ats_cases (P := fun _ p => GoodTargets atsEnv p.value ∧ ¬ Expired p.value.expires now) ⟨goodAtsTargets 2, by simp [Expired, atsTargets, pubTime, now, at']⟩
    ⟨goodAtsTargets 12, by simp [Expired, atsTargets, pubTime, now, at']⟩
  listed := ats_cases (P := fun role p => (atsSnapshot 2).metas.get? (role ++ b!".json") = some (some p.entry) ∧ p.entry.version = p.value.version ∧ MetaMatches atsEnv p.entry p.file)
    ⟨rfl, rfl, fun h => absurd rfl h, by intro e h he; cases he⟩ ⟨rfl, rfl, fun h => absurd rfl h, by intro e h he; cases he⟩
  served := ats_cases (P := fun role p => ∃ url n, RoleURL atsRun.x { root := { signed := attRoot }, refTime := Time.zero } role p.entry.version url ∧
      LengthLimit p.entry.length atsRun.x.cfg.targetsMaxLength n ∧ atsServer2 url = .ok p.file)
    ⟨b!"u/2.targets.json", _, .inl ⟨rfl, _, pubBase, by decide +kernel⟩, .inr ⟨rfl, rfl⟩, rfl⟩ ⟨b!"u/12.a.json", _, .inl ⟨rfl, _, pubBase, by decide +kernel⟩, .inr ⟨rfl, rfl⟩, rfl⟩
  named := ats_cases (P := fun role _ => SafeName role ∧ role ∉ [b!"root", b!"timestamp", b!"snapshot"]) ⟨⟨by decide, by decide, by decide, by decide⟩, by decide⟩
    ⟨⟨by decide, by decide, by decide, by decide⟩, by decide⟩
  bins := by
    intro role p d sr h
    refine ats_cases (P := fun _ p => p.value.delegations = some d → d.roles = none → d.succinctRoles = some sr → _) ?_ ?_ role p h
    · intro h1 h2; cases h1; cases h2
    · intro h1; cases h1
  closed := by
    intro role p child b h hc
    obtain ⟨h1, _, rfl⟩ := ats_covers h hc
    refine ⟨_, [atsSigner, signer 2], rfl, ats_publishedTargets (v := 12) (by decide), ?_⟩
    rw [h1]
    exact atsEnough (k1 := folKey 1) (k2 := folKey 2)
      (.targets (m := { signed := atsTargets 2 }) (d := { keys := atsKeys, roles := some [atsDelegated] }) (before := []) (after := []) (v := atsDelegated) rfl rfl rfl (by simp)) rfl rfl
      (.ed25519 rfl rfl rfl rfl) (.ed25519 rfl rfl rfl rfl)

theorem atsSessionGood : atsSession.Good atsEnv b!"m" where
  run := atsGood
  named := atsBranches.named
  branches := by
    intro path hp
    have hp : path ∈ [b!"g"] := hp
    rw [List.mem_singleton] at hp
    subst hp
    exact atsBranches

namespace Sample
/-- The attacked client, just started. -/
def atsStart : St := ⟨{ root := attSigned attRoot, refTime := now }, { fs := fun _ => none }⟩
/-- The files after the search of the attacked client. -/
def atsTrace : List Event := ((Api.getTargetInfo b!"g").run atsCtx atsStart).2.world.trace
def atsCache : FS := replay (fun _ => none) atsTrace
end Sample

theorem atsStart_new : Trusted.new atsEnv now [1, 1] = .ok atsStart.trusted := by
  have hok : (Trusted.new atsEnv now [1, 1]).isOk = true := by decide +kernel
  cases h : Trusted.new atsEnv now [1, 1] with
  | ok t0 =>
    obtain ⟨m, h1, _, _, rfl⟩ := C78_new.1 h
    have h1 : fromBytes atsEnv [1, 1] = .ok m := h1
    rw [ats_root_parsed] at h1
    cases h1
    rfl
  | err e => rw [h] at hok; cases hok
  | panic => rw [h] at hok; cases hok

theorem atsTrace_eq : ((Api.getTargetInfo b!"g").run atsCtx atsStart).2.world.trace = [] ++ atsTrace := (List.nil_append _).symm

attribute [irreducible] atsTrace

theorem atsAttacked : Attacked (CarefulSearch atsEnv atsHolders b!"m" (atsFiles 2) atsDocs) b!"m" (fun _ => none) atsCache :=
  .call (x := atsCtx) (w := atsStart.world) (s := atsStart) (a := .getTargetInfo b!"g") (evs := atsTrace) .start
    ⟨⟨rfl, rfl, ⟨now, atsStart_new⟩, ats_wellGuarded, atsReleases _⟩, atsPublished _⟩ .refl atsTrace_eq ⟨_, [], (List.append_nil _).symm, .inl rfl⟩ (by intro _ _ _ _ h; cases h)

/-- A case of `C135_search`: the attacked client stored the attacker's document of the role `a`. The next client finds the target in the current one, and only there. -/
example : atsCache b!"m/timestamp.json" = some [2, 1] ∧ atsCache b!"m/a.json" = some [4, 15] ∧
    ∃ t0 w1 s1 s', newUpdater atsRun.x { fs := atsCache } = (.ok t0, w1) ∧ refresh atsRun.x ⟨t0, w1⟩ = (.ok (), s1) ∧ SearchesSay atsRun.x atsDocs s1 [b!"g"] s' ∧
      ∃ tf, (getTargetInfo atsRun.x b!"g" ⟨t0, w1⟩).1 = .ok (some tf) ∧ viewTarget tf = viewTarget { pubTarget with path := b!"g" } := by
  refine ⟨by decide +kernel, by decide +kernel, ?_⟩
  obtain ⟨t0, w1, s1, s', h1, h2, h3, h4⟩ := C135_search atsEnv_laws ats_diligent atsSessionGood (fs := fun _ => none) (w := { fs := atsCache }) atsAttacked ⟨by simp, by simp, by simp⟩
    (by intro _ _ _ _ _ h; cases h) (by
      rintro p ⟨tr, cwd, n, h1, h2, rfl⟩
      cases h1
      cases h2
      decide +kernel)
  refine ⟨t0, w1, s1, s', h1, h2, h3, ?_⟩
  obtain ⟨o, ho, ha⟩ := (h4 b!"g" (List.mem_singleton.2 rfl)).found [b!"targets", b!"a"] (by
      intro role hr
      obtain ⟨p, hp⟩ := Option.isSome_iff_exists.1 hr
      exact ats_cases (P := fun role _ => role ∈ [b!"targets", b!"a"]) (by decide) (by decide) role p hp) (by decide) (.inl (by
      rintro m ⟨role, p, hp, rfl⟩ name hc
      have := (ats_covers hp hc).2.1
      cases this)) b!"a" _ (some pubTarget) (.step .top rfl (.listed (before := []) (after := []) (r := atsDelegated) rfl rfl ((isDelegatedPath_iff _ _ _).1 (by decide +kernel)) (by simp))) rfl rfl
  have ha := ha (by
    intro role' p' _ hp hs
    revert hs
    refine ats_cases (P := fun role p => (p.value.targets.get? b!"g").isSome = true → role = b!"a") ?_ ?_ role' p' hp
    · intro h; cases h
    · intro _; rfl)
  cases o with
  | none => cases ha
  | some tf => exact ⟨tf, ho, Option.some.inj ha⟩

/-- A forged document of the role is refused. -/
example : ((getTargetInfo { atsCtx with host := hostOf (fun url => if url = b!"u/11.a.json" then .ok [4, 19] else atsServer url) } b!"g" atsStart).1).isOk = false ∧
    ((getTargetInfo atsCtx b!"g" atsStart).1).isOk = true := by decide +kernel

end Tuf
