import Verif.Props.MultiHonest
import Verif.Props.HonestTreeCase

/-!
# Two mirrors that agree

Hypotheses of C122 are met: a client of the repositories `one` and `two`, which publish the delegations of `HonestTreeCase` under one URL.
-/

namespace Tuf
open Spec Sample

namespace Sample

def agreeMapping : Mapping := { paths := some [b!"g"], repositories := some [b!"one", b!"two"], threshold := 2 }
def agreeCfg : MultiCfg :=
  { repoMap := { repositories := some [(b!"one", some [b!"u"]), (b!"two", some [b!"u"])], mapping := some [some { paths := some [b!"f"] }, some agreeMapping] },
    trustedRoots := [(b!"one", [1]), (b!"two", [1])], localMetadataDir := b!"m", localTargetsDir := b!"t" }

end Sample

theorem agree_url {repo : Str} {cfg : Cfg} (h : OwnConfig agreeCfg repo cfg) : cfg.remoteMetadataURL = b!"u" ∧ cfg.localTrustedRoot = [1] := by
  obtain ⟨⟨urls, hu⟩, hr, _⟩ := h
  constructor
  · have := Entries.mem_of_get? hu
    simp only [agreeCfg, GoMap.entries, Option.getD_some, List.mem_cons, List.not_mem_nil, or_false, Prod.mk.injEq, Option.some.injEq, List.cons.injEq] at this
    rcases this with h | h <;> exact h.2.1
  · have := Entries.mem_of_get? hr
    simp only [agreeCfg, List.mem_cons, List.not_mem_nil, or_false, Prod.mk.injEq] at this
    rcases this with h | h <;> exact h.2

theorem goodTreeRoot : GoodRoot treeEnv pubRoot where
  fields := goodFields_nil _
  type := rfl
  version := rfl
  expires := rfl
  keys := ⟨by simp [pubRoot, Entries.Sorted, GoMap.entries], by simp only [pubRoot, GoMap.entries, Option.getD_some, List.mem_singleton, forall_eq]; exact ⟨_, rfl, goodFields_nil _, goodFields_nil _⟩⟩
  roles := ⟨by simp only [pubRoot, Entries.Sorted, GoMap.entries, StrLt]; decide, by
    have : GoodRole treeEnv pubRole := ⟨goodFields_nil _, rfl⟩
    simp [pubRoot, GoMap.entries, this]⟩

theorem agreeRoot : ∃ t, Trusted.new treeEnv now [1] = .ok t ∧ t.root.signed = readRoot pubRoot := by
  obtain ⟨t, h1, h2, _⟩ := C86_root treeEnv_laws goodTreeRoot (tree_written (a := pubRoot) (sig := { keyID := idOf 1, sig := [1] }) rfl rfl (by intro j hj; cases hj; rfl)) (tree_suffice (.root (r := pubRole) rfl) rfl) now
  exact ⟨t, h1, h2⟩

theorem agreeBase {cfg : Cfg} (h : cfg.remoteMetadataURL = b!"u") : SlashBase cfg.remoteMetadataURL b!"u/" := by rw [h]; exact treeBase

theorem agree_listed {serve : Str → Except Err Bytes} (hs : ∀ url : Str, (b!"u/targets/").isPrefixOf url = false → serve url = treeServer url) {repo : Str} {cfg : Cfg} (h : OwnConfig agreeCfg repo cfg) :
    ListedAt ⟨treeEnv, hostOf serve, cfg⟩ (fun u _ => serve u) now b!"g" pubTarget.length pubTarget.hashes pubRoot ⟨pubTimestamp, treeSnapshot, treeTop, [2], [3], [4], pubSnapshotMeta, pubTargetsMeta⟩ treeDocs where
  released := treeRelease
  served :=
    { timestamp := ⟨b!"u/timestamp.json", ⟨_, agreeBase (agree_url h).1, by decide +kernel⟩, hs _ (by decide)⟩
      snapshot := ⟨b!"u/4.snapshot.json", _, .inl ⟨rfl, _, agreeBase (agree_url h).1, by decide +kernel⟩, .inr ⟨rfl, rfl⟩, hs _ (by decide)⟩
      targets := ⟨b!"u/4.targets.json", _, .inl ⟨rfl, _, agreeBase (agree_url h).1, by decide +kernel⟩, .inr ⟨rfl, rfl⟩, hs _ (by decide)⟩ }
  roots := by
    obtain ⟨t, h1, h2⟩ := agreeRoot
    have hv : t.root.signed.version = 1 := by rw [h2]; rfl
    refine ⟨t, t, by rw [(agree_url h).2]; exact h1, by rw [hv]; decide, by rw [hv]; decide, ?_, h2⟩
    dsimp only
    rw [h.limits.1]
    have hw : wrap64 (t.root.signed.version + 1) = 2 := by rw [hv]; rfl
    exact .newest (n := 31) (url := b!"u/2.root.json") (status := 404) ⟨_, agreeBase (agree_url h).1, by rw [hw]; decide +kernel⟩ (hs _ (by decide)) (.inr rfl)
  branches :=
    { top := treeBranches.top
      good := treeBranches.good
      listed := treeBranches.listed
      served := tree_cases (P := fun role p => ∃ url n, RoleURL ⟨treeEnv, hostOf serve, cfg⟩ { root := { signed := pubRoot }, refTime := Time.zero } role p.entry.version url ∧
          LengthLimit p.entry.length cfg.targetsMaxLength n ∧ serve url = .ok p.file)
        ⟨b!"u/4.targets.json", _, .inl ⟨rfl, _, agreeBase (agree_url h).1, by decide +kernel⟩, .inr ⟨rfl, rfl⟩, hs _ (by decide)⟩
        ⟨b!"u/5.a.json", _, .inl ⟨rfl, _, agreeBase (agree_url h).1, by decide +kernel⟩, .inr ⟨rfl, rfl⟩, hs _ (by decide)⟩
        ⟨b!"u/6.b.json", _, .inl ⟨rfl, _, agreeBase (agree_url h).1, by decide +kernel⟩, .inr ⟨rfl, rfl⟩, hs _ (by decide)⟩
      named := treeBranches.named
      bins := treeBranches.bins
      closed := treeBranches.closed }
  few := ⟨[b!"targets", b!"a", b!"b"], by
    intro role hr
    cases hd : treeDocs role with
    | none => rw [hd] at hr; cases hr
    | some p => exact tree_cases (P := fun role _ => role ∈ [b!"targets", b!"a", b!"b"]) (by simp) (by simp) (by simp) role p hd, by
    dsimp only
    rw [h.limits.2.1]
    decide⟩
  unhindered := .inl (by
    rintro m ⟨role, p, h1, rfl⟩ name hc
    exact absurd (tree_covers h1 hc).2.1 (by simp))
  listed := ⟨b!"b", _, pubTarget, .step .top rfl tree_coversB, rfl, rfl, rfl, rfl, by
    intro role' p' _ h1 h2
    revert h2
    refine tree_cases (P := fun role' p' => (p'.value.targets.get? b!"g").isSome → role' = b!"b") ?_ ?_ ?_ role' p' h1
    · intro h; cases h
    · intro h; cases h
    · intro _; rfl⟩

theorem agreeHost : GoodHost (hostOf treeServer) (fun u _ => treeServer u) now where
  disk := treeDisk
  remove := fun _ _ => rfl
  mkdir := fun _ _ => rfl
  network := fun _ _ _ => rfl
  clock := fun _ => rfl

theorem agreeStart : CanStart treeEnv now agreeCfg where
  caching := rfl
  dirs := ⟨by decide, by decide⟩
  unique := by simp only [UniqueKeys, agreeCfg, GoMap.entries]; decide
  repos := by
    intro repo urls h
    obtain ⟨t, h1, _⟩ := agreeRoot
    have hm := Entries.mem_of_get? h
    simp only [agreeCfg, GoMap.entries, Option.getD_some, List.mem_cons, List.not_mem_nil, or_false, Prod.mk.injEq] at hm
    rcases hm with ⟨rfl, rfl⟩ | ⟨rfl, rfl⟩
    · exact ⟨⟨by decide, by decide, by decide, by decide⟩, ⟨_, _, rfl, by decide, rfl⟩, _, t, rfl, by decide, h1⟩
    · exact ⟨⟨by decide, by decide, by decide, by decide⟩, ⟨_, _, rfl, by decide, rfl⟩, _, t, rfl, by decide, h1⟩

/-- A case of `C122_honest`. -/
example : ∃ s1 g s2, newMultiRepo treeEnv (hostOf treeServer) agreeCfg { world := { fs := disk [] } } = (.ok (), s1) ∧
    multiGetTargetInfo treeEnv (hostOf treeServer) agreeCfg b!"g" s1 = (.ok g, s2) ∧ g.targetInfo.length = pubTarget.length ∧ g.targetInfo.hashes = pubTarget.hashes ∧
      g.targetInfo.path = b!"g" ∧ g.repositories.Nodup ∧ ∀ repo, repo ∈ g.repositories ↔ repo ∈ [b!"one", b!"two"] :=
  C122_honest treeEnv_laws agreeHost agreeStart (fun _ _ => rfl) (skipped := [some (b!"f", { paths := some [b!"f"] })]) (rest := []) (p := b!"g") (m := agreeMapping) rfl
    (by intro o ho; rw [List.mem_singleton] at ho; subst ho; exact ⟨_, _, rfl, by decide +kernel⟩) (by decide +kernel) (by decide) (by decide) (by decide)
    (by simp only [UniqueKeys, pubTarget, GoMap.entries]; decide) (by decide) (by
      intro repo hr
      refine ⟨by simp only [agreeMapping, Slice.elems, Option.getD_some, List.mem_cons, List.not_mem_nil, or_false] at hr; rcases hr with rfl | rfl <;> rfl, ?_⟩
      intro cfg hc
      exact ⟨_, _, _, agree_listed (fun _ _ => rfl) hc, fun _ _ => rfl, fun _ _ => rfl⟩)

end Tuf
