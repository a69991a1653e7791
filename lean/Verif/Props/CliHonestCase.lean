import Verif.Props.CliHonest
import Verif.Props.CliCase
import Verif.Props.HonestTreeCase

/-!
# The command line client and a published repository

Hypotheses of C97 are met.
-/

namespace Tuf
open Spec Sample

namespace Sample

/-- A client that was initialized with the published root. -/
def pubCli : CliSt := { world := { fs := disk [(b!"w/tuf_metadata/root.json", [1])] }, folder := fun p => p = b!"w/tuf_metadata" || p = b!"w/tuf_download" }

def pubCliCfg : Cfg :=
  { localTrustedRoot := [1], localMetadataDir := b!"w/tuf_metadata", localTargetsDir := b!"w/tuf_download", remoteMetadataURL := b!"u", remoteTargetsURL := b!"u/targets",
    prefixTargetsWithHash := false }

def pubCliCtx : Ctx := ⟨pubEnv, hostOf pubServer, pubCliCfg⟩

end Sample

theorem pubCliBase : SlashBase pubCliCtx.cfg.remoteMetadataURL b!"u/" := .inr ⟨by decide +kernel, by decide +kernel⟩

theorem pubCliGood : ClientRun.Good pubEnv b!"w/tuf_metadata" ⟨pubCliCtx, fun u _ => pubServer u, now, pubRoot, ⟨pubTimestamp, pubSnapshot, pubTargets, [2], [3], [4], pubSnapshotMeta, pubTargetsMeta⟩⟩ where
  sameEnv := rfl
  sameDir := rfl
  online := rfl
  caching := rfl
  url := by decide
  dirs := by decide
  disk := ⟨fun _ => rfl, fun _ => rfl, fun _ _ => rfl, fun _ _ => Nat.le_refl _, fun _ _ _ => rfl⟩
  mkdir := fun _ _ => rfl
  network := fun _ _ _ => rfl
  clock := fun _ => rfl
  released := pubRelease
  served := ⟨⟨b!"u/timestamp.json", ⟨_, pubCliBase, by decide +kernel⟩, rfl⟩, ⟨b!"u/4.snapshot.json", _, .inl ⟨rfl, _, pubCliBase, by decide +kernel⟩, .inr ⟨rfl, rfl⟩, rfl⟩,
    ⟨b!"u/4.targets.json", _, .inl ⟨rfl, _, pubCliBase, by decide +kernel⟩, .inr ⟨rfl, rfl⟩, rfl⟩⟩
  roots := by
    obtain ⟨t, h1, h2, _⟩ := C86_root pubEnv_laws goodPubRoot pubPublishesRoot (pubSuffice rfl) now
    exact ⟨t, t, by decide, h1, by decide, by rw [h2]; decide, .newest (n := 31) (url := b!"u/2.root.json") (status := 404) ⟨_, pubCliBase, by rw [h2]; decide +kernel⟩ rfl (.inr rfl), h2⟩

theorem pubCliDir : joinPath b!"w" b!"tuf_metadata" = b!"w/tuf_metadata" ∧ joinPath b!"w" b!"tuf_download" = b!"w/tuf_download" := by decide +kernel

/-- A case of `C97_get_succeeds_partial`. -/
example : ∃ g s', getCmd pubEnv (cliHost pubServer) (cliArgs) b!"f" pubCli = (.ok g, s') ∧ g.file = b!"w/tuf_download/f" ∧
    ∃ d, s'.world.fs b!"w/tuf_download/f" = some d ∧ TargetMatches pubEnv pubTarget d := by
  have hdisk : ∀ p, pubCli.world.fs p = if b!"w/tuf_metadata/root.json" = p then some [1] else none := by
    intro p
    by_cases hp : b!"w/tuf_metadata/root.json" = p
    · subst hp; rfl
    · simp [pubCli, disk, hp]
  refine C97_get_succeeds_partial (target := b!"f") pubEnv_laws (h := cliHost pubServer) (a := cliArgs) (cwd := b!"w") (data := [1]) (cfg := pubCliCfg) ?_ ?_ (srv := fun u _ => pubServer u)
    (now := now) (r := pubRoot) (R := ⟨pubTimestamp, pubSnapshot, pubTargets, [2], [3], [4], pubSnapshotMeta, pubTargetsMeta⟩) (by rw [pubCliDir.1]; exact pubCliGood) ?_ ?_
    (f := pubTarget) rfl (content := [7, 7]) (base := b!"u/targets/") (.generated rfl (by decide +kernel) ?_) (by decide) (.configured rfl (by decide) (.inr ⟨by decide +kernel, by decide +kernel⟩))
    (.inl ⟨.inr rfl, rfl⟩) ?_ (by intro h; cases h)
  · exact ⟨rfl, by decide +kernel, by decide +kernel, by decide +kernel, fun _ _ => rfl, fun _ _ => rfl⟩
  · rfl
  · intro p hp
    rw [hdisk]
    split
    · next he =>
      have e : persistPath pubCliCfg ROOT = b!"w/tuf_metadata/root.json" := by decide +kernel
      rw [← he, ← e] at hp
      exact absurd hp (persistPath_not_temp _ _)
    · rfl
  · rw [pubCliDir.1]
    have e1 : joinPath b!"w/tuf_metadata" b!"timestamp.json" = b!"w/tuf_metadata/timestamp.json" := by decide +kernel
    have e2 : joinPath b!"w/tuf_metadata" b!"snapshot.json" = b!"w/tuf_metadata/snapshot.json" := by decide +kernel
    have e3 : joinPath b!"w/tuf_metadata" b!"targets.json" = b!"w/tuf_metadata/targets.json" := by decide +kernel
    exact ⟨by rw [e1, hdisk]; simp, by rw [e2, hdisk]; simp, by rw [e3, hdisk]; simp⟩
  · rfl
  · refine ⟨rfl, ?_⟩
    intro alg v hv
    have : (alg, v) = (b!"sha256", digest [7, 7]) := List.mem_singleton.1 hv
    cases this
    exact .sha256

namespace Sample

/-- The repository with delegations, which also has the target `g`. -/
def treeFiles (url : Str) : Except Err Bytes := if url = b!"u/targets/g" then .ok [7, 7] else treeServer url

def treeCliCtx : Ctx := ⟨treeEnv, hostOf treeFiles, pubCliCfg⟩

/-- A client that was initialized with the published root and has another version of the role `a` cached. -/
def treeCli : CliSt :=
  { world := { fs := disk [(b!"w/tuf_metadata/root.json", [1]), (b!"w/tuf_metadata/a.json", [6])] }, folder := fun p => p = b!"w/tuf_metadata" || p = b!"w/tuf_download" }

def treeReleased : Files := ⟨pubTimestamp, treeSnapshot, treeTop, [2], [3], [4], pubSnapshotMeta, pubTargetsMeta⟩

end Sample

theorem treeCliBase : SlashBase treeCliCtx.cfg.remoteMetadataURL b!"u/" := .inr ⟨by decide +kernel, by decide +kernel⟩

theorem treeCliGood : ClientRun.Good treeEnv b!"w/tuf_metadata" ⟨treeCliCtx, fun u _ => treeFiles u, now, pubRoot, treeReleased⟩ where
  sameEnv := rfl
  sameDir := rfl
  online := rfl
  caching := rfl
  url := by decide
  dirs := by decide
  disk := ⟨fun _ => rfl, fun _ => rfl, fun _ _ => rfl, fun _ _ => Nat.le_refl _, fun _ _ _ => rfl⟩
  mkdir := fun _ _ => rfl
  network := fun _ _ _ => rfl
  clock := fun _ => rfl
  released := treeRelease
  served := ⟨⟨b!"u/timestamp.json", ⟨_, treeCliBase, by decide +kernel⟩, rfl⟩, ⟨b!"u/4.snapshot.json", _, .inl ⟨rfl, _, treeCliBase, by decide +kernel⟩, .inr ⟨rfl, rfl⟩, rfl⟩,
    ⟨b!"u/4.targets.json", _, .inl ⟨rfl, _, treeCliBase, by decide +kernel⟩, .inr ⟨rfl, rfl⟩, rfl⟩⟩
  roots := by
    have hgood : GoodRoot treeEnv pubRoot := ⟨goodFields_nil _, rfl, rfl, rfl,
      ⟨goodPubRoot.keys.1, by simp only [pubRoot, GoMap.entries, Option.getD_some, List.mem_singleton, forall_eq]; exact ⟨_, rfl, goodFields_nil _, goodFields_nil _⟩⟩,
      ⟨goodPubRoot.roles.1, by
        intro e he
        have : e.2 = some pubRole := by
          simp only [pubRoot, GoMap.entries, Option.getD_some, List.mem_cons, List.not_mem_nil, or_false] at he
          rcases he with rfl | rfl | rfl | rfl <;> rfl
        exact ⟨_, this, goodFields_nil _, rfl⟩⟩⟩
    obtain ⟨t, h1, h2, _⟩ := C86_root treeEnv_laws hgood (tree_written (a := pubRoot) (sig := { keyID := idOf 1, sig := [1] }) rfl rfl (by intro j hj; cases hj; rfl))
      (tree_suffice (.root (r := pubRole) rfl) rfl) now
    exact ⟨t, t, by decide, h1, by decide, by rw [h2]; decide, .newest (n := 31) (url := b!"u/2.root.json") (status := 404) ⟨_, treeCliBase, by rw [h2]; decide +kernel⟩ rfl (.inr rfl), h2⟩

theorem treeCliBranches : Branches treeCliCtx (fun u _ => treeFiles u) now pubRoot treeSnapshot treeTop b!"g" treeDocs where
  top := treeBranches.top
  good := treeBranches.good
  listed := treeBranches.listed
  served := tree_cases (P := fun role p => ∃ url n, RoleURL treeCliCtx { root := { signed := pubRoot }, refTime := Time.zero } role p.entry.version url ∧
      LengthLimit p.entry.length treeCliCtx.cfg.targetsMaxLength n ∧ treeFiles url = .ok p.file)
    ⟨b!"u/4.targets.json", _, .inl ⟨rfl, _, treeCliBase, by decide +kernel⟩, .inr ⟨rfl, rfl⟩, rfl⟩ ⟨b!"u/5.a.json", _, .inl ⟨rfl, _, treeCliBase, by decide +kernel⟩, .inr ⟨rfl, rfl⟩, rfl⟩
    ⟨b!"u/6.b.json", _, .inl ⟨rfl, _, treeCliBase, by decide +kernel⟩, .inr ⟨rfl, rfl⟩, rfl⟩
  named := treeBranches.named
  bins := treeBranches.bins
  closed := treeBranches.closed

theorem treeCli_disk (p : Str) : treeCli.world.fs p = if b!"w/tuf_metadata/root.json" = p then some [1] else if b!"w/tuf_metadata/a.json" = p then some [6] else none := by
  by_cases hp : b!"w/tuf_metadata/root.json" = p
  · subst hp; rfl
  · by_cases hp' : b!"w/tuf_metadata/a.json" = p
    · subst hp'; rfl
    · simp [treeCli, disk, hp, hp']

theorem treeCli_temps : NoTemps treeCli.world.fs := by
  intro p hp
  rw [treeCli_disk]
  split
  · next he =>
    have e : persistPath pubCliCfg ROOT = b!"w/tuf_metadata/root.json" := by decide +kernel
    rw [← he, ← e] at hp
    exact absurd hp (persistPath_not_temp _ _)
  · split
    · next he =>
      have e : persistPath pubCliCfg b!"a" = b!"w/tuf_metadata/a.json" := by decide +kernel
      rw [← he, ← e] at hp
      exact absurd hp (persistPath_not_temp _ _)
    · rfl

theorem treeCli_cache : CacheBefore treeEnv b!"w/tuf_metadata" treeCli.world.fs treeReleased := by
  have e1 : joinPath b!"w/tuf_metadata" b!"timestamp.json" = b!"w/tuf_metadata/timestamp.json" := by decide +kernel
  have e2 : joinPath b!"w/tuf_metadata" b!"snapshot.json" = b!"w/tuf_metadata/snapshot.json" := by decide +kernel
  have e3 : joinPath b!"w/tuf_metadata" b!"targets.json" = b!"w/tuf_metadata/targets.json" := by decide +kernel
  exact ⟨by rw [e1, treeCli_disk]; simp, by rw [e2, treeCli_disk]; simp, by rw [e3, treeCli_disk]; simp⟩

theorem treeCli_roles : RolesBefore treeEnv b!"w/tuf_metadata" treeCli.world.fs treeDocs := by
  intro role p d hr
  revert d
  have ea : joinPath b!"w/tuf_metadata" (b!"a" ++ b!".json") = b!"w/tuf_metadata/a.json" := by decide +kernel
  have eb : joinPath b!"w/tuf_metadata" (b!"b" ++ b!".json") = b!"w/tuf_metadata/b.json" := by decide +kernel
  refine tree_cases (P := fun role p => ∀ d, role ≠ b!"targets" → treeCli.world.fs (joinPath b!"w/tuf_metadata" (role ++ b!".json")) = some d → RoleBefore treeEnv p d) ?_ ?_ ?_ role p hr
  · intro d h; exact absurd rfl h
  · intro d _ hf
    rw [ea, treeCli_disk] at hf
    cases hf
    exact ⟨treeB, _, [6], goodTreeB, by simp, tree_written (a := treeB) (sig := { keyID := idOf 1, sig := [1] }) rfl rfl (by intro j hj; cases hj; rfl), fun _ => Iff.rfl, .inl (by decide)⟩
  · intro d _ hf
    rw [eb, treeCli_disk] at hf
    simp at hf

namespace Sample
/-- A client that asks for `g`. -/
def treeSession : ClientSession := ⟨⟨treeCliCtx, fun u _ => treeFiles u, now, pubRoot, treeReleased⟩, treeDocs, [b!"g"]⟩
end Sample

/-- A case of `C129_keeps_up`: two clients ask for `g`, one after the other, though at first another version of the role `a` is cached. -/
example : AllAnswered treeCli.world [treeSession, treeSession] := by
  have hmem : ∀ v ∈ [treeSession, treeSession], v = treeSession := by intro v hv; simpa using hv
  refine C129_keeps_up (env := treeEnv) (dir := b!"w/tuf_metadata") treeEnv_laws ?_ ?_ treeCli_temps ?_ ?_
  · intro v hv
    rw [hmem v hv]
    refine ⟨treeCliGood, treeBranches.named, ?_⟩
    intro path hp
    rw [show path = b!"g" from List.mem_singleton.1 hp]
    exact treeCliBranches
  · refine List.pairwise_pair.2 ⟨⟨.inr rfl, Int.le_refl _, .inr rfl, fun name f hf => ⟨f, hf, Int.le_refl _⟩, .inr rfl⟩, ?_⟩
    intro role p q h1 h2
    rw [h1] at h2
    cases h2
    exact .inr rfl
  · intro v hv; rw [hmem v hv]; exact treeCli_cache
  · intro v hv; rw [hmem v hv]; exact treeCli_roles

/-- A case of `C97_get_delegated_partial`, and of `C90_cached` in it: the client gets the target of the role `b`, though another version of the role `a` is cached. -/
example : ∃ g s', getCmd treeEnv (cliHost treeFiles) (cliArgs) b!"g" treeCli = (.ok g, s') ∧ g.file = b!"w/tuf_download/g" ∧
    ∃ d, s'.world.fs b!"w/tuf_download/g" = some d ∧ TargetMatches treeEnv pubTarget d := by
  refine C97_get_delegated_partial (target := b!"g") treeEnv_laws (h := cliHost treeFiles) (a := cliArgs) (cwd := b!"w") (data := [1]) (cfg := pubCliCfg) ?_ ?_ (srv := fun u _ => treeFiles u)
    (now := now) (r := pubRoot) (R := treeReleased) (by rw [pubCliDir.1]; exact treeCliGood) ?_ ?_ treeCliBranches ?_ (names := [b!"targets", b!"a", b!"b"]) ?_ (by decide) (.inl ?_)
    (role := b!"b") (f := pubTarget) (.step .top rfl tree_coversB) rfl rfl ?_ (content := [7, 7]) (base := b!"u/targets/") (.generated rfl (by decide +kernel) ?_) (by decide)
    (.configured rfl (by decide) (.inr ⟨by decide +kernel, by decide +kernel⟩)) (.inl ⟨.inr rfl, rfl⟩) ?_ (by intro h; cases h)
  · exact ⟨rfl, by decide +kernel, by decide +kernel, by decide +kernel, fun _ _ => rfl, fun _ _ => rfl⟩
  · rfl
  · exact treeCli_temps
  · rw [pubCliDir.1]; exact treeCli_cache
  · rw [pubCliDir.1]; exact treeCli_roles
  · intro role hr
    cases hd : treeDocs role with
    | none => rw [hd] at hr; cases hr
    | some p => exact tree_cases (P := fun role _ => role ∈ [b!"targets", b!"a", b!"b"]) (by simp) (by simp) (by simp) role p hd
  · rintro m ⟨role, p, h1, rfl⟩ name hc
    exact absurd (tree_covers h1 hc).2.1 (by simp)
  · intro role' p' _ h1 h2
    revert h2
    refine tree_cases (P := fun role' p' => (p'.value.targets.get? b!"g").isSome → role' = b!"b") ?_ ?_ ?_ role' p' h1
    · intro h; cases h
    · intro h; cases h
    · intro _; rfl
  · rfl
  · refine ⟨rfl, ?_⟩
    intro alg v hv
    have : (alg, v) = (b!"sha256", digest [7, 7]) := List.mem_singleton.1 hv
    cases this
    exact .sha256

end Tuf
