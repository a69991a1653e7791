import Verif.Props.HonestTree
import Verif.Props.PublishCase

/-!
# A published repository with delegations

Hypotheses of C89 and C90 are met: top-level targets delegate the path `g` to the roles `a` and `b`; `b` has an entry.
-/

namespace Tuf
open Spec Sample

namespace Sample

def treeRole (name : Str) : DelegatedRole := { name := name, keyIDs := some [idOf 1], threshold := 1, terminating := false, paths := some [b!"g"] }

def treeTop : TargetsType :=
  { type := TARGETS, version := 4, expires := pubTime, targets := some [(b!"f", some pubTarget)],
    delegations := some { keys := some [(idOf 1, some { edKey b!"01" with id := idOf 1 })], roles := some [treeRole b!"a", treeRole b!"b"] } }
def treeA : TargetsType := { type := TARGETS, version := 5, expires := pubTime, targets := some [] }
def treeB : TargetsType := { type := TARGETS, version := 6, expires := pubTime, targets := some [(b!"g", some pubTarget)] }
def treeSnapshot : SnapshotType :=
  { type := SNAPSHOT, version := 4, expires := pubTime, metas := some [(b!"a.json", some { version := 5 }), (b!"b.json", some { version := 6 }), (b!"targets.json", some pubTargetsMeta)] }

def docVersion (j : Json) : Option Int :=
  match j with
  | .obj m => match Entries.get? m b!"signed" with
    | some (.obj s) => match Entries.get? s b!"version" with
      | some (.num t) => some t
      | _ => none
    | _ => none
  | _ => none

/-- What `encoding/json` does on the documents, and `filepath.Match` on plain patterns. -/
def treeEnv : Env :=
  { pubEnv with
    print := fun _ j => if docType j = some ROOT then [1] else if docType j = some TIMESTAMP then [2] else if docType j = some SNAPSHOT then [3]
      else if docVersion j = some 4 then [4] else if docVersion j = some 5 then [5] else [6]
    parse := fun b => match b with
      | [1] => some (pubJson pubRoot)
      | [2] => some (pubJson pubTimestamp)
      | [3] => some (pubJson treeSnapshot)
      | [4] => some (pubJson treeTop)
      | [5] => some (pubJson treeA)
      | [6] => some (pubJson treeB)
      | _ => none }

def treeServer (url : Str) : Except Err Bytes :=
  if url = b!"u/5.a.json" then .ok [5]
  else if url = b!"u/6.b.json" then .ok [6]
  else pubServer url

def treeCtx : Ctx := ⟨treeEnv, hostOf treeServer, cfg⟩

/-- The roles for the path `g`. -/
def treeDocs (role : Str) : Option PubRole :=
  if role = b!"targets" then some ⟨treeTop, pubTargetsMeta, [4]⟩
  else if role = b!"a" then some ⟨treeA, { version := 5 }, [5]⟩
  else if role = b!"b" then some ⟨treeB, { version := 6 }, [6]⟩
  else none

end Sample

theorem treeEnv_laws : EnvLaws treeEnv where
  anyIdem := fun _ _ _ => rfl
  anyInt := fun _ _ => rfl
  time := (rtEnv_laws .null .null).time
  zeroTime := rfl

theorem tree_written {T : Type} [RoleType T] {a : T} {sig : Signature} {data : Bytes} (h : sign treeEnv { signed := a, signatures := some [] } (signer 1) = .ok (sig, pubSigned a))
    (hb : toBytes treeEnv (pubSigned a) false = .ok data) (hp : ∀ j, (pubSigned a).marshal = .ok j → treeEnv.parse (treeEnv.print false j) = some j) :
    Publishes treeEnv a [signer 1] data :=
  ⟨by simp, _, _, false, rfl, rfl, (goodFields_nil _), .snoc (ss := []) .nil h, hb, hp⟩

theorem tree_suffice {D : AnyMeta} {role : Str} {keys : GoMap (Option Key)} (h : Delegates D role keys [idOf 1] 1) (hk : keys.get? (idOf 1) = some (some { edKey b!"01" with id := idOf 1 })) :
    Suffice treeEnv D role [signer 1] := by
  refine ⟨_, _, _, h, by decide, ⟨[idOf 1], by simp, by decide, ?_⟩, ?_⟩
  · intro id hid
    rw [List.mem_singleton] at hid
    subst hid
    exact ⟨List.mem_singleton.2 rfl, signer 1, List.mem_singleton.2 rfl, _, edKey b!"01", _, rfl, rfl, rfl⟩
  · intro id hid
    have hid' : id = idOf 1 := List.mem_singleton.1 hid
    subst hid'
    refine ⟨{ edKey b!"01" with id := idOf 1 }, .ed25519 [1], .none, hk, .ed25519 rfl rfl rfl rfl, ?_, ?_⟩
    · intro sig p hp
      have : (if sig = material (.ed25519 [1]) ∧ sig ≠ [] then Res.ok () else .err (.other "bad signature")) = (.panic : Res Unit) := hp
      split at this <;> cases this
    · intro s hs _ p sig hsig
      rw [List.mem_singleton] at hs
      subst hs
      cases hsig
      rfl

theorem tree_covers {role child : Str} {p : PubRole} {b : Bool} (h : treeDocs role = some p) (hc : Covers treeEnv { signed := p.value } b!"g" child b) :
    role = b!"targets" ∧ b = false ∧ (child = b!"a" ∨ child = b!"b") := by
  unfold treeDocs at h
  split at h
  · next he =>
    cases h
    refine ⟨he, ?_⟩
    cases hc with
    | @listed _ before after r h1 h2 h3 h4 =>
      cases h1
      have h2 : [treeRole b!"a", treeRole b!"b"] = before ++ r :: after := Option.some.inj h2
      have hm : r ∈ [treeRole b!"a", treeRole b!"b"] := by rw [h2]; exact List.mem_append_right _ (.head _)
      simp only [List.mem_cons, List.not_mem_nil, or_false] at hm
      rcases hm with rfl | rfl
      · exact ⟨rfl, .inl rfl⟩
      · exact ⟨rfl, .inr rfl⟩
    | bin h1 h2 => cases h1; cases h2
  · split at h
    · cases h; cases hc with
      | listed h1 => cases h1
      | bin h1 => cases h1
    · split at h
      · cases h; cases hc with
        | listed h1 => cases h1
        | bin h1 => cases h1
      · cases h

theorem tree_cases {P : Str → PubRole → Prop} (h1 : P b!"targets" ⟨treeTop, pubTargetsMeta, [4]⟩) (h2 : P b!"a" ⟨treeA, { version := 5 }, [5]⟩) (h3 : P b!"b" ⟨treeB, { version := 6 }, [6]⟩) :
    ∀ role p, treeDocs role = some p → P role p := by
  intro role p h
  unfold treeDocs at h
  split at h
  · next he => subst he; cases h; exact h1
  · split at h
    · next he => subst he; cases h; exact h2
    · split at h
      · next he => subst he; cases h; exact h3
      · cases h

theorem goodTreeTop : GoodTargets treeEnv treeTop where
  fields := goodFields_nil _
  type := rfl
  version := rfl
  expires := rfl
  targets := ⟨by simp [treeTop, Entries.Sorted, GoMap.entries], by
    simp only [treeTop, GoMap.entries, Option.getD_some, List.mem_singleton, forall_eq]
    exact ⟨_, rfl, (goodFields_nil _), rfl, by simp [pubTarget, Entries.Sorted, GoMap.entries], by intro c hc; cases hc⟩⟩
  delegations := by
    intro d hd
    cases hd
    refine ⟨goodFields_nil _, ⟨by simp [Entries.Sorted, GoMap.entries], by simp only [GoMap.entries, Option.getD_some, List.mem_singleton, forall_eq]; exact ⟨_, rfl, goodFields_nil _, goodFields_nil _⟩⟩, ?_, (by intro s hs; cases hs), .inr rfl⟩
    intro r hr
    have hr : r ∈ [treeRole b!"a", treeRole b!"b"] := hr
    simp only [List.mem_cons, List.not_mem_nil, or_false] at hr
    rcases hr with rfl | rfl <;> exact ⟨goodFields_nil _, rfl, .inr rfl⟩

theorem goodTreeA : GoodTargets treeEnv treeA where
  fields := goodFields_nil _
  type := rfl
  version := rfl
  expires := rfl
  targets := ⟨by simp [treeA, Entries.Sorted, GoMap.entries], by intro e he; cases he⟩
  delegations := by intro d hd; cases hd

theorem goodTreeB : GoodTargets treeEnv treeB where
  fields := goodFields_nil _
  type := rfl
  version := rfl
  expires := rfl
  targets := ⟨by simp [treeB, Entries.Sorted, GoMap.entries], by
    simp only [treeB, GoMap.entries, Option.getD_some, List.mem_singleton, forall_eq]
    exact ⟨_, rfl, (goodFields_nil _), rfl, by simp [pubTarget, Entries.Sorted, GoMap.entries], by intro c hc; cases hc⟩⟩
  delegations := by intro d hd; cases hd

theorem goodTreeTimestamp : GoodTimestamp treeEnv pubTimestamp where
  fields := (goodFields_nil _)
  type := rfl
  version := rfl
  expires := rfl
  metas := ⟨by simp [pubTimestamp, Entries.Sorted, GoMap.entries], by
    simp only [pubTimestamp, GoMap.entries, Option.getD_some, List.mem_singleton, forall_eq]
    exact ⟨_, rfl, (goodFields_nil _), rfl, rfl, List.Pairwise.nil⟩⟩

theorem goodTreeSnapshot : GoodSnapshot treeEnv treeSnapshot where
  fields := (goodFields_nil _)
  type := rfl
  version := rfl
  expires := rfl
  metas := ⟨by simp only [treeSnapshot, Entries.Sorted, GoMap.entries, StrLt]; decide, by
    simp only [treeSnapshot, GoMap.entries, Option.getD_some]
    intro e he
    simp only [List.mem_cons, List.not_mem_nil, or_false] at he
    rcases he with rfl | rfl | rfl <;> exact ⟨_, rfl, (goodFields_nil _), rfl, rfl, List.Pairwise.nil⟩⟩

theorem treeRelease : Release treeEnv now pubRoot pubTimestamp treeSnapshot treeTop [2] [3] [4] pubSnapshotMeta pubTargetsMeta where
  goodTimestamp := goodTreeTimestamp
  goodSnapshot := goodTreeSnapshot
  goodTargets := goodTreeTop
  timestamp := ⟨_, tree_written (a := pubTimestamp) (sig := { keyID := idOf 1, sig := [1] }) rfl rfl (by intro j hj; cases hj; rfl), tree_suffice (.root (r := pubRole) rfl) rfl⟩
  snapshot := ⟨_, tree_written (a := treeSnapshot) (sig := { keyID := idOf 1, sig := [1] }) rfl rfl (by intro j hj; cases hj; rfl), tree_suffice (.root (r := pubRole) rfl) rfl⟩
  targets := ⟨_, tree_written (a := treeTop) (sig := { keyID := idOf 1, sig := [1] }) rfl rfl (by intro j hj; cases hj; rfl), tree_suffice (.root (r := pubRole) rfl) rfl⟩
  rootFresh := by simp [Expired, pubRoot, pubTime, now, at']
  timestampFresh := by simp [Expired, pubTimestamp, pubTime, now, at']
  snapshotFresh := by simp [Expired, treeSnapshot, pubTime, now, at']
  targetsFresh := by simp [Expired, treeTop, pubTime, now, at']
  snapshotListed := ⟨rfl, rfl, fun h => absurd rfl h, by intro e h he; cases he⟩
  targetsListed := ⟨rfl, rfl, fun h => absurd rfl h, by intro e h he; cases he⟩

theorem treeBase : SlashBase treeCtx.cfg.remoteMetadataURL b!"u/" := .inr ⟨by decide +kernel, by decide +kernel⟩

theorem treeServing : Serving treeCtx (fun u _ => treeServer u) pubRoot [2] [3] [4] pubSnapshotMeta pubTargetsMeta where
  timestamp := ⟨b!"u/timestamp.json", ⟨_, treeBase, by decide +kernel⟩, rfl⟩
  snapshot := ⟨b!"u/4.snapshot.json", _, .inl ⟨rfl, _, treeBase, by decide +kernel⟩, .inr ⟨rfl, rfl⟩, rfl⟩
  targets := ⟨b!"u/4.targets.json", _, .inl ⟨rfl, _, treeBase, by decide +kernel⟩, .inr ⟨rfl, rfl⟩, rfl⟩

theorem treeDisk : GoodDisk treeCtx.host := ⟨fun _ => rfl, fun _ => rfl, fun _ _ => rfl, fun _ _ => Nat.le_refl _, fun _ _ _ => rfl⟩

theorem treeBranches : Branches treeCtx (fun u _ => treeServer u) now pubRoot treeSnapshot treeTop b!"g" treeDocs where
  top := ⟨_, rfl, rfl⟩
  good := tree_cases (P := fun _ p => GoodTargets treeEnv p.value ∧ ¬ Expired p.value.expires now) ⟨goodTreeTop, by simp [Expired, treeTop, pubTime, now, at']⟩
    ⟨goodTreeA, by simp [Expired, treeA, pubTime, now, at']⟩ ⟨goodTreeB, by simp [Expired, treeB, pubTime, now, at']⟩
  listed := tree_cases (P := fun role p => treeSnapshot.metas.get? (role ++ b!".json") = some (some p.entry) ∧ p.entry.version = p.value.version ∧ MetaMatches treeEnv p.entry p.file)
    ⟨rfl, rfl, fun h => absurd rfl h, by intro e h he; cases he⟩ ⟨rfl, rfl, fun h => absurd rfl h, by intro e h he; cases he⟩
    ⟨rfl, rfl, fun h => absurd rfl h, by intro e h he; cases he⟩
  served := tree_cases (P := fun role p => ∃ url n, RoleURL treeCtx { root := { signed := pubRoot }, refTime := Time.zero } role p.entry.version url ∧
      LengthLimit p.entry.length treeCtx.cfg.targetsMaxLength n ∧ treeServer url = .ok p.file)
    ⟨b!"u/4.targets.json", _, .inl ⟨rfl, _, treeBase, by decide +kernel⟩, .inr ⟨rfl, rfl⟩, rfl⟩ ⟨b!"u/5.a.json", _, .inl ⟨rfl, _, treeBase, by decide +kernel⟩, .inr ⟨rfl, rfl⟩, rfl⟩
    ⟨b!"u/6.b.json", _, .inl ⟨rfl, _, treeBase, by decide +kernel⟩, .inr ⟨rfl, rfl⟩, rfl⟩
  named := tree_cases (P := fun role _ => SafeName role ∧ role ∉ [b!"root", b!"timestamp", b!"snapshot"]) ⟨⟨by decide, by decide, by decide, by decide⟩, by decide⟩
    ⟨⟨by decide, by decide, by decide, by decide⟩, by decide⟩ ⟨⟨by decide, by decide, by decide, by decide⟩, by decide⟩
  bins := by
    intro role p d sr h
    refine tree_cases (P := fun _ p => p.value.delegations = some d → d.roles = none → d.succinctRoles = some sr → _) ?_ ?_ ?_ role p h
    · intro h1 h2; cases h1; cases h2
    · intro h1; cases h1
    · intro h1; cases h1
  closed := by
    intro role p child b h hc
    obtain ⟨rfl, _, hch⟩ := tree_covers h hc
    clear hc
    cases h
    rcases hch with rfl | rfl
    · exact ⟨_, _, rfl, tree_written (a := treeA) (sig := { keyID := idOf 1, sig := [1] }) rfl rfl (by intro j hj; cases hj; rfl),
        tree_suffice (.targets (before := []) (after := [treeRole b!"b"]) (v := treeRole b!"a") rfl rfl rfl (by simp)) rfl⟩
    · exact ⟨_, _, rfl, tree_written (a := treeB) (sig := { keyID := idOf 1, sig := [1] }) rfl rfl (by intro j hj; cases hj; rfl),
        tree_suffice (.targets (before := [treeRole b!"a"]) (after := []) (v := treeRole b!"b") rfl rfl rfl (by decide)) rfl⟩

theorem tree_coversB : Covers treeEnv { signed := treeTop } b!"g" b!"b" false :=
  .listed (before := [treeRole b!"a"]) (after := []) (r := treeRole b!"b") rfl rfl ((isDelegatedPath_iff _ _ _).1 (by decide +kernel)) (by simp)

/-- A case of `C90_delegated`: the client refreshes, finds that `a` does not have `g`, and answers with the entry of `b`. -/
example : (getTargetInfo treeCtx b!"g" pubClient).1 = .ok (some { pubTarget with path := b!"g" }) := by
  obtain ⟨_, _, h3⟩ := C90_delegated (x := treeCtx) (srv := fun u _ => treeServer u) (s := pubClient) (t := pubClient.trusted) (docs := treeDocs) (path := b!"g") treeEnv_laws treeRelease
    treeServing rfl (fun _ _ _ => rfl) (.inr treeDisk) (fun _ _ => rfl) (by decide)
    (.newest (n := 31) (url := b!"u/2.root.json") (status := 404) ⟨_, treeBase, by decide +kernel⟩ rfl (.inr rfl)) rfl rfl rfl rfl rfl (fun _ _ => rfl) treeBranches (fun _ _ => rfl)
  refine (h3 [b!"targets", b!"a", b!"b"] ?_ (by decide) (.inl ?_) b!"b" _ (some pubTarget) (.step .top rfl tree_coversB) rfl rfl).2 ?_
  · intro role hr
    cases hd : treeDocs role with
    | none => rw [hd] at hr; cases hr
    | some p => exact tree_cases (P := fun role _ => role ∈ [b!"targets", b!"a", b!"b"]) (by simp) (by simp) (by simp) role p hd
  · rintro m ⟨role, p, h1, rfl⟩ name hc
    exact absurd (tree_covers h1 hc).2.1 (by simp)
  · intro role' p' _ h1 h2
    revert h2
    refine tree_cases (P := fun role' p' => (p'.value.targets.get? b!"g").isSome → role' = b!"b") ?_ ?_ ?_ role' p' h1
    · intro h; cases h
    · intro h; cases h
    · intro _; rfl

namespace Sample
/-- The only role for the path `h`. -/
def topDocs (role : Str) : Option PubRole := if role = b!"targets" then some ⟨treeTop, pubTargetsMeta, [4]⟩ else none
end Sample

theorem top_only {role : Str} {p : PubRole} (h : topDocs role = some p) : role = b!"targets" ∧ p = ⟨treeTop, pubTargetsMeta, [4]⟩ := by
  unfold topDocs at h
  split at h
  · next he => cases h; exact ⟨he, rfl⟩
  · cases h

theorem top_covers {child : Str} {b : Bool} : ¬ Covers treeEnv { signed := treeTop } b!"h" child b := by
  intro hc
  cases hc with
  | @listed _ before after r h1 h2 h3 h4 =>
    cases h1
    have h2 : [treeRole b!"a", treeRole b!"b"] = before ++ r :: after := Option.some.inj h2
    have hm : r ∈ [treeRole b!"a", treeRole b!"b"] := by rw [h2]; exact List.mem_append_right _ (.head _)
    have hp : r.isDelegatedPath treeEnv b!"h" = false := by
      simp only [List.mem_cons, List.not_mem_nil, or_false] at hm
      rcases hm with rfl | rfl <;> decide +kernel
    rw [(isDelegatedPath_iff _ _ _).2 h3] at hp
    cases hp
  | bin h1 h2 => cases h1; cases h2

theorem topBranches : Branches treeCtx (fun u _ => treeServer u) now pubRoot treeSnapshot treeTop b!"h" topDocs where
  top := ⟨_, rfl, rfl⟩
  good := by intro role p h; obtain ⟨rfl, rfl⟩ := top_only h; exact treeBranches.good b!"targets" _ rfl
  listed := by intro role p h; obtain ⟨rfl, rfl⟩ := top_only h; exact treeBranches.listed b!"targets" _ rfl
  served := by intro role p h; obtain ⟨rfl, rfl⟩ := top_only h; exact treeBranches.served b!"targets" _ rfl
  named := by intro role p h; obtain ⟨rfl, rfl⟩ := top_only h; exact treeBranches.named b!"targets" _ rfl
  bins := by intro role p d sr h h1 h2; obtain ⟨rfl, rfl⟩ := top_only h; cases h1; cases h2
  closed := by intro role p child b h hc; obtain ⟨rfl, rfl⟩ := top_only h; exact absurd hc top_covers

/-- A case of `C89_not_found`: no role has `h`, and `GetTargetInfo` says so after consulting top-level targets. -/
example : ∃ e vs, SearchRun treeCtx b!"h" pubClient vs (.err e) (getTargetInfo treeCtx b!"h" pubClient).2 ∧ vs ≠ [] ∧ (vs.length : Int) ≤ treeCtx.cfg.maxDelegations ∧
    (∀ v ∈ vs, v.found ≠ none) ∧ Unhindered treeEnv b!"h" (fun m => ∃ v ∈ vs, v.found = some m) := by
  obtain ⟨s1, g1, g2, g3⟩ := onRelease (x := treeCtx) (srv := fun u _ => treeServer u) (s := pubClient) (t := pubClient.trusted) (docs := topDocs) (path := b!"h") treeEnv_laws
    treeRelease treeServing rfl (fun _ _ _ => rfl) (.inr treeDisk) (fun _ _ => rfl) (by decide)
    (.newest (n := 31) (url := b!"u/2.root.json") (status := 404) ⟨_, treeBase, by decide +kernel⟩ rfl (.inr rfl)) rfl rfl rfl rfl rfl (fun _ _ => rfl) topBranches (fun _ _ => rfl)
  obtain ⟨vs, hr⟩ := getTargetInfo_run (x := treeCtx) (path := b!"h") pubClient
  have hout : ∃ e, (getTargetInfo treeCtx b!"h" pubClient).1 = .err e := by
    obtain ⟨h1, h2, _⟩ := C90_delegated (x := treeCtx) (srv := fun u _ => treeServer u) (s := pubClient) (t := pubClient.trusted) (docs := topDocs) (path := b!"h") treeEnv_laws
      treeRelease treeServing rfl (fun _ _ _ => rfl) (.inr treeDisk) (fun _ _ => rfl) (by decide)
      (.newest (n := 31) (url := b!"u/2.root.json") (status := 404) ⟨_, treeBase, by decide +kernel⟩ rfl (.inr rfl)) rfl rfl rfl rfl rfl (fun _ _ => rfl) topBranches (fun _ _ => rfl)
    cases h : (getTargetInfo treeCtx b!"h" pubClient).1 with
    | err e => exact ⟨e, rfl⟩
    | panic => exact absurd h h1
    | ok o =>
      obtain ⟨role, p, f, _, h4, h5, _⟩ := h2 o h
      obtain ⟨rfl, rfl⟩ := top_only h4
      cases h5
  obtain ⟨e, he⟩ := hout
  rw [he] at hr
  generalize (getTargetInfo treeCtx b!"h" pubClient).2 = s' at hr ⊢
  have hse : Search treeCtx b!"h" (treeCtx.cfg.maxDelegations + 1).toNat [(b!"targets", b!"root")] [] s1 vs (.err e) s' := by
    cases hr with
    | direct h0 _ => cases h0
    | refreshed _ h1 h2 => rw [g1] at h1; cases h1; exact h2
    | notRefreshed _ h1 h2 => rw [g1] at h1; cases h1; exact absurd rfl h2
  obtain ⟨_, p2⟩ := search_published treeEnv_laws (fun _ _ _ => rfl) (.inr treeDisk) topBranches hse g2 (by
    intro p hp
    rw [List.mem_singleton] at hp; subst hp
    exact .inl g3)
  have hf : ∀ v ∈ vs, v.role = b!"targets" ∧ ∃ m, v.found = some m ∧ m.signed = readTargets treeTop := by
    intro v hv
    obtain ⟨m, p, e1, e2, e3⟩ := p2 v hv
    obtain ⟨e4, rfl⟩ := top_only e2
    exact ⟨e4, m, e1, e3⟩
  refine ⟨e, vs, hr, ?_, ?_, ?_, .inl ?_⟩
  · rintro rfl
    have : (treeCtx.cfg.maxDelegations + 1).toNat = 33 := rfl
    rw [this] at hse
    cases hse with
    | skip h => cases h
  · have := (search_bounded hse).1.length_le_of_subset (l₂ := [b!"targets"]) (by
      intro a ha
      obtain ⟨v, hv, rfl⟩ := List.mem_map.1 ha
      rw [(hf v hv).1]
      simp)
    rw [List.length_map] at this
    have h2 : treeCtx.cfg.maxDelegations = 32 := rfl
    simp at this
    omega
  · intro v hv h
    obtain ⟨_, m, e1, _⟩ := hf v hv
    rw [h] at e1
    cases e1
  · rintro m ⟨v, hv, hm⟩ name hc
    obtain ⟨_, m', e1, e2⟩ := hf v hv
    rw [hm] at e1
    cases e1
    exact top_covers ((covers_read e2).1 hc)

end Tuf
