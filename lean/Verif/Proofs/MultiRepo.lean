import Verif.Spec.MultiRepo
import Verif.Props.Targets

/-! # The multi-repository search refines its specification -/

namespace Tuf
open Spec

section
variable {env : Env} {h : Host} {path : Str}

/-! ## Groups -/

/-- What `addToGroups` does to one group. -/
def joinGroup (info : TargetFiles) (repo : Str) (g : TargetMatch) : TargetMatch :=
  if g.targetInfo.equal info then (if repo ∈ g.repositories then g else { g with repositories := g.repositories ++ [repo] }) else g

theorem addToGroups_eq (info : TargetFiles) (repo : Str) (gs : List TargetMatch) :
    addToGroups info repo gs = (gs.map (joinGroup info repo), gs.any (fun g => g.targetInfo.equal info)) := by
  induction gs with
  | nil => rfl
  | cons g gs ih =>
    rw [addToGroups, ih]
    dsimp only
    rw [List.map_cons, List.any_cons]
    unfold joinGroup
    cases hg : g.targetInfo.equal info with
    | true => simp
    | false => simp

theorem joinGroup_info (info : TargetFiles) (repo : Str) (g : TargetMatch) : (joinGroup info repo g).targetInfo = g.targetInfo := by
  unfold joinGroup
  repeat' split
  all_goals rfl

theorem joinGroup_mem (info : TargetFiles) (repo : Str) (g : TargetMatch) (r : Str) :
    r ∈ (joinGroup info repo g).repositories ↔ r ∈ g.repositories ∨ (g.targetInfo.equal info = true ∧ r = repo) := by
  unfold joinGroup
  split
  · next he =>
    split
    · next hm => exact ⟨.inl, fun h => h.elim id (fun h => h.2 ▸ hm)⟩
    · simp [he]
  · next he => simp [he]

theorem joinGroup_nodup (info : TargetFiles) (repo : Str) (g : TargetMatch) (hn : g.repositories.Nodup) : (joinGroup info repo g).repositories.Nodup := by
  unfold joinGroup
  split
  · split
    · exact hn
    · next hm => exact List.nodup_append.2 ⟨hn, by simp, by rintro a ha b hb rfl; rw [List.mem_singleton] at hb; exact hm (hb ▸ ha)⟩
  · exact hn

theorem groupsOf_nil : GroupsOf [] [] := ⟨by simp, by simp, .nil⟩

theorem groupsOf_none {as : Answers} {gs : List TargetMatch} (hg : GroupsOf as gs) (repo : Str) : GroupsOf (as ++ [(repo, none)]) gs where
  sound := by
    intro g hm
    obtain ⟨h1, before, r, after, rfl, h2⟩ := hg.sound g hm
    refine ⟨h1, before, r, after ++ [(repo, none)], by simp, ?_⟩
    intro r'
    rw [h2]
    simp
  complete := by
    intro r info hm
    refine hg.complete r info ?_
    simpa using hm
  distinct := hg.distinct

theorem groupsOf_some {as : Answers} {gs : List TargetMatch} (hg : GroupsOf as gs) (repo : Str) (info : TargetFiles) :
    GroupsOf (as ++ [(repo, some info)])
      (if (addToGroups info repo gs).2 then (addToGroups info repo gs).1 else (addToGroups info repo gs).1 ++ [⟨info, [repo]⟩]) := by
  rw [addToGroups_eq]
  dsimp only
  have sound : ∀ g ∈ gs.map (joinGroup info repo), g.repositories.Nodup ∧ ∃ before r0 after, as ++ [(repo, some info)] = before ++ (r0, some g.targetInfo) :: after ∧
      ∀ r, r ∈ g.repositories ↔ r = r0 ∨ ∃ info', (r, some info') ∈ after ∧ g.targetInfo.equal info' = true := by
    intro g' hm'
    obtain ⟨g, hm, rfl⟩ := List.mem_map.1 hm'
    obtain ⟨h1, before, r0, after, h2, h3⟩ := hg.sound g hm
    refine ⟨joinGroup_nodup _ _ _ h1, before, r0, after ++ [(repo, some info)], ?_, ?_⟩
    · rw [joinGroup_info, h2]; simp
    · intro r
      rw [joinGroup_mem, h3, joinGroup_info]
      constructor
      · rintro ((h | ⟨i, h, h'⟩) | ⟨h, rfl⟩)
        · exact .inl h
        · exact .inr ⟨i, List.mem_append_left _ h, h'⟩
        · exact .inr ⟨info, by simp, h⟩
      · rintro (h | ⟨i, h, h'⟩)
        · exact .inl (.inl h)
        · rcases List.mem_append.1 h with h | h
          · exact .inl (.inr ⟨i, h, h'⟩)
          · simp at h; obtain ⟨rfl, rfl⟩ := h; exact .inr ⟨h', rfl⟩
  have old : ∀ r i, (r, some i) ∈ as → ∃ g ∈ gs.map (joinGroup info repo), r ∈ g.repositories ∧ (g.targetInfo = i ∨ g.targetInfo.equal i = true) := by
    intro r i hm
    obtain ⟨g, h1, h2, h3⟩ := hg.complete r i hm
    exact ⟨_, List.mem_map_of_mem h1, (joinGroup_mem ..).2 (.inl h2), by rwa [joinGroup_info]⟩
  have dist : (gs.map (joinGroup info repo)).Pairwise (fun g g' => g.targetInfo.equal g'.targetInfo = false) := by
    rw [List.pairwise_map]
    exact hg.distinct.imp (by intro a b h; rwa [joinGroup_info, joinGroup_info])
  by_cases hf : gs.any (fun g => g.targetInfo.equal info) = true
  · rw [if_pos hf]
    refine ⟨sound, ?_, dist⟩
    intro r i hm
    rcases List.mem_append.1 hm with hm | hm
    · exact old r i hm
    · simp at hm
      obtain ⟨rfl, rfl⟩ := hm
      obtain ⟨g, h1, h2⟩ := List.any_eq_true.1 hf
      exact ⟨_, List.mem_map_of_mem h1, (joinGroup_mem ..).2 (.inr ⟨h2, rfl⟩), .inr (by rwa [joinGroup_info])⟩
  · rw [if_neg hf]
    refine ⟨?_, ?_, ?_⟩
    · intro g hm
      rcases List.mem_append.1 hm with hm | hm
      · exact sound g hm
      · rw [List.mem_singleton] at hm
        subst hm
        exact ⟨by simp, as, repo, [], rfl, by simp⟩
    · intro r i hm
      rcases List.mem_append.1 hm with hm | hm
      · obtain ⟨g, h1, h2⟩ := old r i hm
        exact ⟨g, List.mem_append_left _ h1, h2⟩
      · simp at hm
        obtain ⟨rfl, rfl⟩ := hm
        exact ⟨_, List.mem_append_right _ (.head _), .head _, .inl rfl⟩
    · rw [List.pairwise_append]
      refine ⟨dist, by simp, ?_⟩
      intro a ha b hb
      rw [List.mem_singleton] at hb
      subst hb
      obtain ⟨g, h1, rfl⟩ := List.mem_map.1 ha
      rw [joinGroup_info]
      cases he : g.targetInfo.equal info with
      | false => rfl
      | true => exact absurd (List.any_eq_true.2 ⟨g, h1, he⟩) hf

/-- The repositories are asked one after the other and the answers grouped, or the client crashes. -/
theorem collectGroups_asked (repos : List Str) (prior : Answers) (gs : List TargetMatch) (hg : GroupsOf prior gs) (s : MSt) :
    (∃ as gs' s', collectGroups env h path repos gs s = (.ok gs', s') ∧ Asked env h path repos s as s' ∧ GroupsOf (prior ++ as) gs') ∨
    ∃ s', collectGroups env h path repos gs s = (.panic, s') ∧ AskCrash env h path repos s s' := by
  induction repos generalizing prior gs s with
  | nil => exact .inl ⟨[], gs, s, rfl, .nil, by rwa [List.append_nil]⟩
  | cons repo repos ih =>
    rw [collectGroups]
    rcases ho : onClient env h repo (fun x => getTargetInfo x path) s with ⟨r, s1⟩
    cases r with
    | panic =>
      have : SM.try' (onClient env h repo (fun x => getTargetInfo x path)) s = (.panic, s1) := by unfold SM.try'; rw [ho]
      rw [SM.bind_panic this]
      exact .inr ⟨s1, rfl, [], repo, repos, [], s, _, rfl, .nil, ho, .inl rfl⟩
    | err e =>
      rw [SM.bind_ok (SM.try_err ho)]
      dsimp only
      rcases ih (prior ++ [(repo, none)]) gs (groupsOf_none hg repo) s1 with ⟨as, gs', s', h1, h2, h3⟩ | ⟨s', h1, before, rp, after, as, s2, r', rfl, h2, h3, h4⟩
      · exact .inl ⟨_, gs', s', h1, .error ho h2, by rw [List.append_cons]; exact h3⟩
      · exact .inr ⟨s', h1, repo :: before, rp, after, _, s2, r', rfl, .error ho h2, h3, h4⟩
    | ok o =>
      rw [SM.bind_ok (SM.try_ok ho)]
      dsimp only
      cases o with
      | none => exact .inr ⟨s1, rfl, [], repo, repos, [], s, _, rfl, .nil, ho, .inr rfl⟩
      | some info =>
        rw [SM.bind_ok (show SM.lift (Res.deref (some info)) s1 = (.ok info, s1) from rfl)]
        have hg' := groupsOf_some hg repo info
        rcases ha : addToGroups info repo gs with ⟨gs1, found⟩
        rw [ha] at hg'
        dsimp only at hg' ⊢
        rcases ih (prior ++ [(repo, some info)]) _ hg' s1 with ⟨as, gs', s', h1, h2, h3⟩ | ⟨s', h1, before, rp, after, as, s2, r', rfl, h2, h3, h4⟩
        · exact .inl ⟨_, gs', s', h1, .info ho h2, by rw [List.append_cons]; exact h3⟩
        · exact .inr ⟨s', h1, repo :: before, rp, after, _, s2, r', rfl, .info ho h2, h3, h4⟩

/-! ## Thresholds -/

theorem scanGroups_set (n : Int) (gs : List TargetMatch) :
    (scanGroups n gs true = .ok true ∧ ∀ g ∈ gs, ¬ Reaches n g) ∨
    ((∃ e, scanGroups n gs true = .err e) ∧ ∃ before g after, gs = before ++ g :: after ∧ Reaches n g) := by
  induction gs with
  | nil => exact .inl ⟨rfl, by simp⟩
  | cons g gs ih =>
    rw [scanGroups]
    split
    · next hr => exact .inr ⟨⟨_, rfl⟩, [], g, gs, rfl, hr⟩
    · next hr =>
      rcases ih with ⟨h1, h2⟩ | ⟨h1, before, g', after, rfl, h2⟩
      · exact .inl ⟨h1, by intro g' hm; rcases List.mem_cons.1 hm with rfl | hm; exact hr; exact h2 g' hm⟩
      · exact .inr ⟨h1, g :: before, g', after, rfl, h2⟩

theorem selectGroup_consensus (n : Int) (gs : List TargetMatch) :
    (selectGroup n gs = .ok none ∧ Consensus n gs none) ∨ (∃ g last, selectGroup n gs = .ok (some last) ∧ gs.getLast? = some last ∧ Consensus n gs (some (some g))) ∨
    ((∃ e, selectGroup n gs = .err e) ∧ Consensus n gs (some none)) := by
  have key : (scanGroups n gs false = .ok false ∧ Consensus n gs none) ∨ (scanGroups n gs false = .ok true ∧ ∃ g, Consensus n gs (some (some g))) ∨
      ((∃ e, scanGroups n gs false = .err e) ∧ Consensus n gs (some none)) := by
    induction gs with
    | nil => exact .inl ⟨rfl, .none (by simp)⟩
    | cons g gs ih =>
      rw [scanGroups]
      split
      · next hr =>
        rw [if_neg (by simp)]
        rcases scanGroups_set n gs with ⟨h1, h2⟩ | ⟨h1, before, g', after, rfl, h2⟩
        · exact .inr (.inl ⟨h1, g, .one (before := []) rfl hr (by simp) h2⟩)
        · exact .inr (.inr ⟨h1, .many (before := []) rfl hr h2⟩)
      · next hr =>
        have hc : ∀ {g' : TargetMatch} {l : List TargetMatch}, (∀ g' ∈ l, ¬ Reaches n g') → g' ∈ g :: l → ¬ Reaches n g' := by
          intro g' l h hm
          rcases List.mem_cons.1 hm with rfl | hm
          · exact hr
          · exact h g' hm
        rcases ih with ⟨h1, h2⟩ | ⟨h1, g', h2⟩ | ⟨h1, h2⟩
        · cases h2 with
          | none h2 => exact .inl ⟨h1, .none (fun g' hm => hc h2 hm)⟩
        · cases h2 with
          | @one before after _ he h3 h4 h5 =>
            subst he
            exact .inr (.inl ⟨h1, g', .one (before := g :: before) rfl h3 (fun g' hm => hc h4 hm) h5⟩)
        · cases h2 with
          | @many before between after a b he h3 h4 =>
            subst he
            exact .inr (.inr ⟨h1, .many (before := g :: before) rfl h3 h4⟩)
  unfold selectGroup
  rcases key with ⟨h1, h2⟩ | ⟨h1, g, h2⟩ | ⟨⟨e, h1⟩, h2⟩
  · rw [h1]; exact .inl ⟨rfl, h2⟩
  · rw [h1]
    have hne : gs ≠ [] := by
      rintro rfl
      cases h2 with
      | @one before _ _ he => cases before <;> cases he
    obtain ⟨last, hl⟩ := Option.isSome_iff_exists.1 (List.getLast?_isSome.2 hne)
    exact .inr (.inl ⟨g, last, by rw [Res.bind_ok, if_pos rfl, hl], hl, h2⟩)
  · rw [h1]; exact .inr (.inr ⟨⟨e, rfl⟩, h2⟩)

/-! ## The search -/

theorem tryPatterns_run (m : Mapping) (ps : List Str) (s : MSt) :
    (∃ s' cs g, tryPatterns env h path m ps s = (.ok (some g, false), s') ∧ ∀ rest, MultiRun env h path (ps.map (fun p => some (p, m)) ++ rest) s cs (.ok g) s') ∨
    (∃ s' cs, tryPatterns env h path m ps s = (.ok (none, true), s') ∧ ∀ rest e, MultiRun env h path (ps.map (fun p => some (p, m)) ++ rest) s cs (.err e) s') ∨
    (∃ s' cs, tryPatterns env h path m ps s = (.ok (none, false), s') ∧ ∀ rest cs' out s'', MultiRun env h path rest s' cs' out s'' →
      MultiRun env h path (ps.map (fun p => some (p, m)) ++ rest) s (cs ++ cs') out s'') ∨
    (∃ s' cs e, tryPatterns env h path m ps s = (.err e, s') ∧ ∀ rest, MultiRun env h path (ps.map (fun p => some (p, m)) ++ rest) s cs (.err e) s') ∨
    (∃ s' cs, tryPatterns env h path m ps s = (.panic, s') ∧ ∀ rest, MultiRun env h path (ps.map (fun p => some (p, m)) ++ rest) s cs .panic s') := by
  induction ps generalizing s with
  | nil => exact .inr (.inr (.inl ⟨s, [], rfl, fun rest cs' out s'' h => h⟩))
  | cons p ps ih =>
    rw [tryPatterns]
    cases hg : env.glob p path with
    | none => exact .inr (.inr (.inr (.inl ⟨s, [], _, rfl, fun rest => .badPattern hg⟩)))
    | some b =>
      cases b with
      | false =>
        dsimp only
        rcases ih s with ⟨s', cs, g, h1, h2⟩ | ⟨s', cs, h1, h2⟩ | ⟨s', cs, h1, h2⟩ | ⟨s', cs, e, h1, h2⟩ | ⟨s', cs, h1, h2⟩
        · exact .inl ⟨s', cs, g, h1, fun rest => .noMatch hg (h2 rest)⟩
        · exact .inr (.inl ⟨s', cs, h1, fun rest e => .noMatch hg (h2 rest e)⟩)
        · exact .inr (.inr (.inl ⟨s', cs, h1, fun rest cs' out s'' h => .noMatch hg (h2 rest cs' out s'' h)⟩))
        · exact .inr (.inr (.inr (.inl ⟨s', cs, e, h1, fun rest => .noMatch hg (h2 rest)⟩)))
        · exact .inr (.inr (.inr (.inr ⟨s', cs, h1, fun rest => .noMatch hg (h2 rest)⟩)))
      | true =>
        dsimp only
        rcases collectGroups_asked (env := env) (h := h) (path := path) m.repositories.elems [] [] groupsOf_nil s with ⟨as, gs, s1, h1, h2, h3⟩ | ⟨s1, h1, h2⟩
        · rw [SM.bind_ok h1]
          rcases selectGroup_consensus m.threshold gs with ⟨h4, h5⟩ | ⟨g, last, h4, h5, h6⟩ | ⟨⟨e, h4⟩, h5⟩
          · rw [SM.bind_ok (by rw [h4]; rfl)]
            dsimp only
            cases ht : m.terminating with
            | true =>
              exact .inr (.inl ⟨s1, _, rfl, fun rest e => .terminated hg h2 h3 h5 ht⟩)
            | false =>
              rw [if_neg (by simp)]
              rcases ih s1 with ⟨s', cs, g, i1, i2⟩ | ⟨s', cs, i1, i2⟩ | ⟨s', cs, i1, i2⟩ | ⟨s', cs, e, i1, i2⟩ | ⟨s', cs, i1, i2⟩
              · exact .inl ⟨s', _, g, i1, fun rest => .next hg h2 h3 h5 ht (i2 rest)⟩
              · exact .inr (.inl ⟨s', _, i1, fun rest e => .next hg h2 h3 h5 ht (i2 rest e)⟩)
              · exact .inr (.inr (.inl ⟨s', _ :: cs, i1, fun rest cs' out s'' h => .next hg h2 h3 h5 ht (i2 rest cs' out s'' h)⟩))
              · exact .inr (.inr (.inr (.inl ⟨s', _, e, i1, fun rest => .next hg h2 h3 h5 ht (i2 rest)⟩)))
              · exact .inr (.inr (.inr (.inr ⟨s', _, i1, fun rest => .next hg h2 h3 h5 ht (i2 rest)⟩)))
          · rw [SM.bind_ok (by rw [h4]; rfl)]
            exact .inl ⟨s1, _, last, rfl, fun rest => .chosen hg h2 h3 h6 h5⟩
          · rw [SM.bind_err (by rw [h4]; rfl)]
            exact .inr (.inr (.inr (.inl ⟨s1, _, e, rfl, fun rest => .ambiguous hg h2 h3 h5⟩)))
        · rw [SM.bind_panic h1]
          exact .inr (.inr (.inr (.inr ⟨s1, [], rfl, fun rest => .crash hg h2⟩)))

theorem tryMappings_run (ms : List (Option Mapping)) (s : MSt) :
    ∃ cs, MultiRun env h path (agenda ms) s cs (tryMappings env h path ms s).1 (tryMappings env h path ms s).2 := by
  induction ms generalizing s with
  | nil => exact ⟨[], .exhausted⟩
  | cons o ms ih =>
    cases o with
    | none => exact ⟨[], .nullMapping⟩
    | some m =>
      have ha : agenda (some m :: ms) = m.paths.elems.map (fun p => some (p, m)) ++ agenda ms := rfl
      rw [ha, tryMappings]
      rcases tryPatterns_run (env := env) (h := h) (path := path) m m.paths.elems s with ⟨s', cs, g, h1, h2⟩ | ⟨s', cs, h1, h2⟩ | ⟨s', cs, h1, h2⟩ | ⟨s', cs, e, h1, h2⟩ | ⟨s', cs, h1, h2⟩
      · rw [SM.bind_ok h1]; exact ⟨cs, h2 _⟩
      · rw [SM.bind_ok h1]; exact ⟨cs, h2 _ _⟩
      · rw [SM.bind_ok h1]
        obtain ⟨cs', h3⟩ := ih s'
        exact ⟨cs ++ cs', h2 _ _ _ _ h3⟩
      · rw [SM.bind_err h1]; exact ⟨cs, h2 _⟩
      · rw [SM.bind_panic h1]; exact ⟨cs, h2 _⟩

end

end Tuf
