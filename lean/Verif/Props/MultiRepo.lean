import Verif.Proofs.MultiRepo
import Verif.Spec.Small

/-! # Multi-repository client: properties C68 to C73 -/

namespace Tuf
open Spec Sample

section
variable {env : Env} {h : Host} {path : Str}

/-- Every call of `GetTargetInfo` is a search over the patterns of the map file. -/
theorem C68_search (c : MultiCfg) (s : MSt) :
    ∃ cs, MultiRun env h path (agenda c.repoMap.mapping.elems) s cs (multiGetTargetInfo env h c path s).1 (multiGetTargetInfo env h c path s).2 :=
  tryMappings_run _ s

theorem asked_repos {repos : List Str} {s s' : MSt} {as : Answers} (ha : Asked env h path repos s as s') : as.map Prod.fst = repos := by
  induction ha with
  | nil => rfl
  | info _ _ ih => simp [ih]
  | error _ _ ih => simp [ih]

/-- Every consultation of a run: a pattern of the map file that matches, answers of the mapping's repositories, and their groups. -/
theorem run_consult {ag : List (Option (Str × Mapping))} {s s' : MSt} {cs : List Consult} {out : Res TargetMatch} (hr : MultiRun env h path ag s cs out s') :
    ∀ c ∈ cs, some (c.pattern, c.mapping) ∈ ag ∧ env.glob c.pattern path = some true ∧ GroupsOf c.answers c.groups ∧
      ∃ s1 s2, Asked env h path c.mapping.repositories.elems s1 c.answers s2 := by
  induction hr with
  | exhausted => simp
  | nullMapping => simp
  | badPattern => simp
  | noMatch _ _ ih =>
    intro c hc
    obtain ⟨h1, h2⟩ := ih c hc
    exact ⟨.tail _ h1, h2⟩
  | crash => simp
  | ambiguous hg ha hgr =>
    intro c hc; rw [List.mem_singleton] at hc; subst hc
    exact ⟨.head _, hg, hgr, _, _, ha⟩
  | chosen hg ha hgr =>
    intro c hc; rw [List.mem_singleton] at hc; subst hc
    exact ⟨.head _, hg, hgr, _, _, ha⟩
  | terminated hg ha hgr =>
    intro c hc; rw [List.mem_singleton] at hc; subst hc
    exact ⟨.head _, hg, hgr, _, _, ha⟩
  | next hg ha hgr _ _ _ ih =>
    intro c hc
    rcases List.mem_cons.1 hc with rfl | hc
    · exact ⟨.head _, hg, hgr, _, _, ha⟩
    · obtain ⟨h1, h2⟩ := ih c hc
      exact ⟨.tail _ h1, h2⟩

theorem run_ok {ag : List (Option (Str × Mapping))} {s s' : MSt} {cs : List Consult} {out : Res TargetMatch} {last : TargetMatch}
    (hr : MultiRun env h path ag s cs out s') (ho : out = .ok last) :
    ∃ c g, cs.getLast? = some c ∧ Consensus c.mapping.threshold c.groups (some (some g)) ∧ c.groups.getLast? = some last := by
  induction hr with
  | chosen _ _ _ hc hl => cases ho; exact ⟨_, _, rfl, hc, hl⟩
  | noMatch _ _ ih => exact ih ho
  | next _ _ _ _ _ _ ih =>
    obtain ⟨c, g, h1, h2, h3⟩ := ih ho
    exact ⟨c, g, by rw [List.getLast?_cons, h1]; rfl, h2, h3⟩
  | _ => cases ho

/-! ## C68 -/

/-- Distinct repositories that vouch for the info: their answer is the info itself or equal to it. -/
def Spec.Vouched (answers : Answers) (info : TargetFiles) (repos : List Str) : Prop :=
  repos.Nodup ∧ ∀ r ∈ repos, ∃ i, (r, some i) ∈ answers ∧ (i = info ∨ info.equal i = true)

theorem group_vouched {as : Answers} {gs : List TargetMatch} (hg : GroupsOf as gs) {g : TargetMatch} (hm : g ∈ gs) : Vouched as g.targetInfo g.repositories ∧ g.repositories ≠ [] := by
  obtain ⟨h1, before, r0, after, rfl, h2⟩ := hg.sound g hm
  refine ⟨⟨h1, ?_⟩, List.ne_nil_of_mem ((h2 r0).2 (.inl rfl))⟩
  intro r hr
  rcases (h2 r).1 hr with rfl | ⟨i, h3, h4⟩
  · exact ⟨_, List.mem_append_right _ (.head _), .inl rfl⟩
  · exact ⟨i, List.mem_append_right _ (.tail _ h3), .inr h4⟩

/-- C68 without the identity of the result: if `GetTargetInfo` succeeds, the last mapping consulted matches the path, at least `threshold` different repositories listed in it agree on some
info, and the returned info is vouched for by the returned repositories, at least one. Missing: the returned info need not be the one that reached the threshold
(`C68_false`). -/
theorem C68_consensus_partial {c : MultiCfg} {s s' : MSt} {res : TargetMatch} (hr : multiGetTargetInfo env h c path s = (.ok res, s')) :
    ∃ (m : Mapping) (p : Str) (answers : Answers) (info : TargetFiles) (repos : List Str), some m ∈ c.repoMap.mapping.elems ∧ p ∈ m.paths.elems ∧ env.glob p path = some true ∧
      answers.map Prod.fst = m.repositories.elems ∧ Vouched answers info repos ∧ m.threshold ≤ (repos.length : Int) ∧
      Vouched answers res.targetInfo res.repositories ∧ res.repositories ≠ [] := by
  obtain ⟨cs, h1⟩ := C68_search (env := env) (h := h) (path := path) c s
  rw [hr] at h1
  obtain ⟨c', g, h2, h3, h4⟩ := run_ok h1 rfl
  obtain ⟨h5, h6, h7, s1, s2, h8⟩ := run_consult h1 c' (List.mem_of_getLast? h2)
  cases h3 with
  | @one before after _ he hre =>
    have hg : g ∈ c'.groups := by rw [he]; simp
    have hl : res ∈ c'.groups := List.mem_of_getLast? h4
    unfold agenda at h5
    obtain ⟨o, h9, h10⟩ := List.mem_flatMap.1 h5
    cases o with
    | none => simp at h10
    | some m =>
      obtain ⟨p, h11, h12⟩ := List.mem_map.1 h10
      cases h12
      exact ⟨c'.mapping, c'.pattern, c'.answers, g.targetInfo, g.repositories, h9, h11, h6, asked_repos h8, (group_vouched h7 hg).1, hre,
        group_vouched h7 hl⟩

theorem multiRun_unanimous {ag : List (Option (Str × Mapping))} {s s' : MSt} {cs : List Consult} {res : TargetMatch}
    (hr : MultiRun env h path ag s cs (.ok res) s') {c : Consult} (hc : cs.getLast? = some c)
    (hu : ∀ r i r' i', (r, some i) ∈ c.answers → (r', some i') ∈ c.answers → i.equal i' = true) :
    c.mapping.threshold ≤ (res.repositories.length : Int) ∧ Vouched c.answers res.targetInfo res.repositories ∧
      ∀ r, r ∈ res.repositories ↔ ∃ i, (r, some i) ∈ c.answers := by
  obtain ⟨c', g, h2, h3, h4⟩ := run_ok hr rfl
  rw [hc] at h2; cases h2
  obtain ⟨h5, h6, h7, s1, s2, h8⟩ := run_consult hr c (List.mem_of_getLast? hc)
  have answered : ∀ g ∈ c.groups, ∃ r, (r, some g.targetInfo) ∈ c.answers := by
    intro g hg
    obtain ⟨_, before, r0, after, he, _⟩ := h7.sound g hg
    exact ⟨r0, by rw [he]; simp⟩
  have single : c.groups = [res] := by
    match hgs : c.groups with
    | [] => rw [hgs] at h4; cases h4
    | [a] => rw [hgs] at h4; cases h4; rfl
    | a :: b :: r =>
      have hd := h7.distinct
      rw [hgs] at hd
      obtain ⟨ra, ha⟩ := answered a (by rw [hgs]; simp)
      obtain ⟨rb, hb⟩ := answered b (by rw [hgs]; simp)
      have := (List.pairwise_cons.1 hd).1 b (.head _)
      rw [hu _ _ _ _ ha hb] at this
      cases this
  have hmem : res ∈ c.groups := by rw [single]; simp
  refine ⟨?_, (group_vouched h7 hmem).1, ?_⟩
  · cases h3 with
    | @one before after _ he hre =>
      have : g = res := by
        have : g ∈ [res] := by rw [← single, he]; simp
        simpa using this
      rw [← this]; exact hre
  · intro r
    constructor
    · intro hm
      obtain ⟨i, hi, _⟩ := (group_vouched h7 hmem).1.2 r hm
      exact ⟨i, hi⟩
    · rintro ⟨i, hi⟩
      obtain ⟨g', h9, h10, _⟩ := h7.complete r i hi
      rw [single, List.mem_singleton] at h9
      exact h9 ▸ h10

/-- C68 when the repositories that answer with an info all agree: then the result reached the threshold and its repositories are exactly those that answered with an info. -/
theorem C68_unanimous_partial {c : MultiCfg} {s s' : MSt} {res : TargetMatch} (hr : multiGetTargetInfo env h c path s = (.ok res, s')) :
    ∃ cs, MultiRun env h path (agenda c.repoMap.mapping.elems) s cs (.ok res) s' ∧ ∀ k, cs.getLast? = some k →
      (∀ r i r' i', (r, some i) ∈ k.answers → (r', some i') ∈ k.answers → i.equal i' = true) →
      k.mapping.threshold ≤ (res.repositories.length : Int) ∧ Vouched k.answers res.targetInfo res.repositories ∧
        ∀ r, r ∈ res.repositories ↔ ∃ i, (r, some i) ∈ k.answers := by
  obtain ⟨cs, h1⟩ := C68_search (env := env) (h := h) (path := path) c s
  rw [hr] at h1
  exact ⟨cs, h1, fun k hk hu => multiRun_unanimous h1 hk hu⟩

/-! ## C69 -/

theorem multiRun_terminating {ag : List (Option (Str × Mapping))} {s s' : MSt} {cs : List Consult} {out : Res TargetMatch} (hr : MultiRun env h path ag s cs out s') :
    (cs.map (fun c => some (c.pattern, c.mapping))).Sublist ag ∧
    ∀ pre c post, cs = pre ++ c :: post → c.mapping.terminating = true → (∀ g ∈ c.groups, ¬ Reaches c.mapping.threshold g) →
      post = [] ∧ (∃ e, out = .err e) ∧ ∃ s1, Asked env h path c.mapping.repositories.elems s1 c.answers s' := by
  have last : ∀ {α : Type} {a c : α} {pre post : List α}, [a] = pre ++ c :: post → pre = [] ∧ c = a ∧ post = [] := by
    intro α a c pre post he
    cases pre with
    | nil => cases he; exact ⟨rfl, rfl, rfl⟩
    | cons b pre => cases pre <;> cases he
  induction hr with
  | exhausted => exact ⟨.slnil, fun pre c post he => by cases pre <;> cases he⟩
  | nullMapping => exact ⟨List.nil_sublist _, fun pre c post he => by cases pre <;> cases he⟩
  | badPattern => exact ⟨List.nil_sublist _, fun pre c post he => by cases pre <;> cases he⟩
  | noMatch _ _ ih => exact ⟨.cons _ ih.1, ih.2⟩
  | crash => exact ⟨List.nil_sublist _, fun pre c post he => by cases pre <;> cases he⟩
  | ambiguous _ ha _ hc =>
    refine ⟨.cons_cons _ (List.nil_sublist _), ?_⟩
    intro pre c post he ht hn
    obtain ⟨_, rfl, rfl⟩ := last he
    exact ⟨rfl, ⟨_, rfl⟩, _, ha⟩
  | chosen _ ha _ hc =>
    refine ⟨.cons_cons _ (List.nil_sublist _), ?_⟩
    intro pre c post he ht hn
    obtain ⟨_, rfl, rfl⟩ := last he
    cases hc with
    | one he hre => exact absurd hre (hn _ (by rw [he]; simp))
  | terminated _ ha =>
    refine ⟨.cons_cons _ (List.nil_sublist _), ?_⟩
    intro pre c post he ht hn
    obtain ⟨_, rfl, rfl⟩ := last he
    exact ⟨rfl, ⟨_, rfl⟩, _, ha⟩
  | next _ ha _ hc ht' _ ih =>
    refine ⟨.cons_cons _ ih.1, ?_⟩
    intro pre c post he ht hn
    cases pre with
    | nil => cases he; rw [ht'] at ht; cases ht
    | cons a pre => cases he; exact ih.2 pre c post rfl ht hn

/-- C69: consultations follow the order of the map file; when a terminating mapping has no consensus nothing is consulted after it and the search fails. -/
theorem C69_terminating (c : MultiCfg) (s : MSt) : ∃ cs, MultiRun env h path (agenda c.repoMap.mapping.elems) s cs (multiGetTargetInfo env h c path s).1 (multiGetTargetInfo env h c path s).2 ∧
    (cs.map (fun k => some (k.pattern, k.mapping))).Sublist (agenda c.repoMap.mapping.elems) ∧
    ∀ pre k post, cs = pre ++ k :: post → k.mapping.terminating = true → (∀ g ∈ k.groups, ¬ Reaches k.mapping.threshold g) →
      post = [] ∧ (∃ e, (multiGetTargetInfo env h c path s).1 = .err e) ∧ ∃ s1, Asked env h path k.mapping.repositories.elems s1 k.answers (multiGetTargetInfo env h c path s).2 := by
  obtain ⟨cs, h1⟩ := C68_search (env := env) (h := h) (path := path) c s
  exact ⟨cs, h1, multiRun_terminating h1⟩

/-! ## C70 -/

theorem consensus_many {n : Int} {gs : List TargetMatch} {before between after : List TargetMatch} {g g' : TargetMatch} (he : gs = before ++ g :: (between ++ g' :: after))
    (h1 : Reaches n g) (h2 : Reaches n g') {o : Option (Option TargetMatch)} (hc : Consensus n gs o) : o = some none := by
  cases hc with
  | none hn => exact absurd h1 (hn g (by rw [he]; simp))
  | many => rfl
  | @one b a x he' hre hb ha =>
    rw [he'] at he
    rcases List.append_eq_append_iff.1 he with ⟨l, e1, e2⟩ | ⟨l, e1, e2⟩
    · cases l with
      | nil => cases e2; exact absurd h2 (ha g' (by simp))
      | cons y l =>
        rw [List.cons_append, List.cons.injEq] at e2
        exact absurd h1 (ha g (by rw [e2.2]; simp))
    · cases l with
      | nil => cases e2; exact absurd h2 (ha g' (by simp))
      | cons y l =>
        rw [List.cons_append, List.cons.injEq] at e2
        exact absurd h1 (hb g (by rw [e1, ← e2.1]; simp))

theorem multiRun_ambiguous {ag : List (Option (Str × Mapping))} {s s' : MSt} {cs : List Consult} {out : Res TargetMatch} (hr : MultiRun env h path ag s cs out s')
    {c : Consult} (hc : c ∈ cs) {before between after : List TargetMatch} {g g' : TargetMatch} (he : c.groups = before ++ g :: (between ++ g' :: after))
    (h1 : Reaches c.mapping.threshold g) (h2 : Reaches c.mapping.threshold g') : ∃ e, out = .err e := by
  induction hr with
  | exhausted => cases hc
  | nullMapping => cases hc
  | badPattern => cases hc
  | noMatch _ _ ih => exact ih hc
  | crash => cases hc
  | ambiguous => exact ⟨_, rfl⟩
  | chosen _ _ _ hcon =>
    rw [List.mem_singleton] at hc; subst hc
    cases consensus_many he h1 h2 hcon
  | terminated => exact ⟨_, rfl⟩
  | next _ _ _ hcon _ _ ih =>
    rcases List.mem_cons.1 hc with rfl | hc
    · cases consensus_many he h1 h2 hcon
    · exact ih hc

/-- C70 for the groups made by the code: if two of them reach the threshold of the mapping, the search fails there. Missing: infos that are not the first of a group. -/
theorem C70_ambiguous_partial (c : MultiCfg) (s : MSt) : ∃ cs, MultiRun env h path (agenda c.repoMap.mapping.elems) s cs (multiGetTargetInfo env h c path s).1 (multiGetTargetInfo env h c path s).2 ∧
    ∀ k ∈ cs, ∀ before between after g g', k.groups = before ++ g :: (between ++ g' :: after) → Reaches k.mapping.threshold g → Reaches k.mapping.threshold g' →
      ∃ e, (multiGetTargetInfo env h c path s).1 = .err e := by
  obtain ⟨cs, h1⟩ := C68_search (env := env) (h := h) (path := path) c s
  exact ⟨cs, h1, fun k hk _ _ _ _ _ he h2 h3 => multiRun_ambiguous h1 hk he h2 h3⟩

/-- On these answers `Equal` is an equivalence (it is if all infos list the same hash algorithms, at least one; in general it is not, see C62). -/
structure Spec.EqualOn (as : Answers) : Prop where
  refl : ∀ r i, (r, some i) ∈ as → i.equal i = true
  symm : ∀ r i r' j, (r, some i) ∈ as → (r', some j) ∈ as → i.equal j = true → j.equal i = true
  trans : ∀ r i r' j r'' k, (r, some i) ∈ as → (r', some j) ∈ as → (r'', some k) ∈ as → i.equal j = true → j.equal k = true → i.equal k = true

theorem group_of {as : Answers} {gs : List TargetMatch} (hg : GroupsOf as gs) (hq : EqualOn as) {r : Str} {i : TargetFiles} (hi : (r, some i) ∈ as) :
    ∃ g ∈ gs, g.targetInfo.equal i = true ∧ (∃ r0, (r0, some g.targetInfo) ∈ as) ∧ ∀ r' j, (r', some j) ∈ as → i.equal j = true → r' ∈ g.repositories := by
  have answered : ∀ g ∈ gs, ∃ r, (r, some g.targetInfo) ∈ as := by
    intro g hg'
    obtain ⟨_, before, r0, after, he, _⟩ := hg.sound g hg'
    exact ⟨r0, by rw [he]; simp⟩
  obtain ⟨g, h1, h2, h3⟩ := hg.complete r i hi
  have h3 : g.targetInfo.equal i = true := by
    rcases h3 with h3 | h3
    · rw [h3]; exact hq.refl r i hi
    · exact h3
  refine ⟨g, h1, h3, answered g h1, ?_⟩
  intro r' j hj hij
  obtain ⟨g', h4, h5, h6⟩ := hg.complete r' j hj
  obtain ⟨ra, ha⟩ := answered g h1
  obtain ⟨rb, hb⟩ := answered g' h4
  have h6 : g'.targetInfo.equal j = true := by
    rcases h6 with h6 | h6
    · rw [h6]; exact hq.refl r' j hj
    · exact h6
  have h7 : g.targetInfo.equal g'.targetInfo = true :=
    hq.trans _ _ _ _ _ _ ha hj hb (hq.trans _ _ _ _ _ _ ha hi hj h3 hij) (hq.symm _ _ _ _ hb hj h6)
  have h8 : g'.targetInfo.equal g.targetInfo = true := hq.symm _ _ _ _ ha hb h7
  have : g = g' := by
    have hd := hg.distinct
    clear h2 h3 hg answered
    induction gs with
    | nil => cases h1
    | cons a gs ih =>
      rw [List.pairwise_cons] at hd
      rcases List.mem_cons.1 h1 with e1 | m1
      · rcases List.mem_cons.1 h4 with e4 | m4
        · rw [e1, e4]
        · have := hd.1 g' m4; rw [← e1, h7] at this; cases this
      · rcases List.mem_cons.1 h4 with e4 | m4
        · have := hd.1 g m1; rw [← e4, h8] at this; cases this
        · exact ih m1 m4 hd.2
  exact this ▸ h5

theorem multiRun_conflict {ag : List (Option (Str × Mapping))} {s s' : MSt} {cs : List Consult} {out : Res TargetMatch} (hr : MultiRun env h path ag s cs out s')
    {c : Consult} (hc : c ∈ cs) (hq : EqualOn c.answers) {r r' : Str} {i j : TargetFiles} (hi : (r, some i) ∈ c.answers) (hj : (r', some j) ∈ c.answers)
    (hne : i.equal j = false) {vs ws : List Str} (hv : Vouched c.answers i vs) (hw : Vouched c.answers j ws)
    (h1 : c.mapping.threshold ≤ (vs.length : Int)) (h2 : c.mapping.threshold ≤ (ws.length : Int)) : ∃ e, out = .err e := by
  have hg := (run_consult hr c hc).2.2.1
  obtain ⟨g, g1, g2, ⟨ra, ga⟩, g3⟩ := group_of hg hq hi
  obtain ⟨g', g1', g2', ⟨rb, gb⟩, g3'⟩ := group_of hg hq hj
  have reach : ∀ {i : TargetFiles} {r : Str} {vs : List Str} {g : TargetMatch}, (r, some i) ∈ c.answers → Vouched c.answers i vs → c.mapping.threshold ≤ (vs.length : Int) →
      (∀ r' j, (r', some j) ∈ c.answers → i.equal j = true → r' ∈ g.repositories) → Reaches c.mapping.threshold g := by
    intro i r vs g hi hv hl hs
    have : vs.length ≤ g.repositories.length := by
      refine hv.1.length_le_of_subset ?_
      intro r' hr'
      obtain ⟨j, hj, h | h⟩ := hv.2 r' hr'
      · exact hs r' j hj (h ▸ hq.refl r i hi)
      · exact hs r' j hj h
    unfold Reaches; omega
  have k1 := reach hi hv h1 g3
  have k2 := reach hj hw h2 g3'
  have hgg : g ≠ g' := by
    rintro rfl
    have := hq.trans _ _ _ _ _ _ hi ga hj (hq.symm _ _ _ _ ga hi g2) g2'
    rw [hne] at this; cases this
  obtain ⟨a, b, hab⟩ := List.append_of_mem g1
  rw [hab] at g1'
  rcases List.mem_append.1 g1' with hm | hm
  · obtain ⟨a1, a2, rfl⟩ := List.append_of_mem hm
    refine multiRun_ambiguous hr hc (before := a1) (between := a2) (after := b) (g := g') (g' := g) ?_ k2 k1
    rw [hab]; simp
  · rcases List.mem_cons.1 hm with hm | hm
    · exact absurd hm.symm hgg
    · obtain ⟨b1, b2, rfl⟩ := List.append_of_mem hm
      exact multiRun_ambiguous hr hc (before := a) (between := b1) (after := b2) (g := g) (g' := g') hab k1 k2

/-- C70 in terms of the answers, provided `Equal` is an equivalence on them (`C70_false` without): if two infos that are not equal are each vouched for by `threshold` different repositories of a mapping, the search fails there. -/
theorem C70_conflict_partial (c : MultiCfg) (s : MSt) : ∃ cs, MultiRun env h path (agenda c.repoMap.mapping.elems) s cs (multiGetTargetInfo env h c path s).1 (multiGetTargetInfo env h c path s).2 ∧
    ∀ k ∈ cs, EqualOn k.answers → ∀ r r' i j, (r, some i) ∈ k.answers → (r', some j) ∈ k.answers → i.equal j = false →
      ∀ vs ws, Vouched k.answers i vs → Vouched k.answers j ws → k.mapping.threshold ≤ (vs.length : Int) → k.mapping.threshold ≤ (ws.length : Int) →
      ∃ e, (multiGetTargetInfo env h c path s).1 = .err e := by
  obtain ⟨cs, h1⟩ := C68_search (env := env) (h := h) (path := path) c s
  exact ⟨cs, h1, fun k hk hq _ _ _ _ hi hj hne _ _ hv hw h2 h3 => multiRun_conflict h1 hk hq hi hj hne hv hw h2 h3⟩

/-! ## C71 -/

theorem onClient_ok {α : Type} {repo : Str} {m : Ctx → M α} {s s' : MSt} {a : α} (ho : onClient env h repo m s = (.ok a, s')) :
    ∃ c st, s.clients.get? repo = some c ∧ m ⟨env, h, c.cfg⟩ ⟨c.trusted, s.world⟩ = (.ok a, st) ∧
      s' = { clients := s.clients.set repo { c with trusted := st.trusted }, world := st.world } := by
  unfold onClient at ho
  cases hc : s.clients.get? repo with
  | none => rw [hc] at ho; cases ho
  | some c =>
    rw [hc] at ho
    dsimp only at ho
    rcases hm : m ⟨env, h, c.cfg⟩ ⟨c.trusted, s.world⟩ with ⟨r, st⟩
    rw [hm] at ho
    cases ho
    exact ⟨c, st, rfl, hm, rfl⟩

/-- C71: bytes returned by `DownloadTarget` match the info. -/
theorem C71_verified {tf : TargetFiles} {given base : Str} {repos : List Str} {s s' : MSt} {p : Str} {data : Bytes}
    (hd : multiDownloadTarget env h tf given base repos s = (.ok (p, data), s')) : TargetMatches env tf data := by
  induction repos generalizing s with
  | nil => cases hd
  | cons repo repos ih =>
    rw [multiDownloadTarget] at hd
    obtain ⟨⟨p1, d1⟩, s1, h1, hd⟩ := SM.bind_eq_ok.1 hd
    dsimp only at hd
    split at hd
    · next hl =>
      cases hd
      obtain ⟨c, st, h2, h3, _⟩ := onClient_ok h1
      exact (C44_matching h3 (by intro he; rw [he] at hl; exact hl.1 rfl)).2.2
    · obtain ⟨o, s2, h2, hd⟩ := SM.bind_eq_ok.1 hd
      rcases SM.try_eq_ok.1 h2 with ⟨v, rfl, h3⟩ | ⟨e, rfl, h3⟩
      · cases hd
        obtain ⟨c, st, h4, h5, _⟩ := onClient_ok h3
        exact (C43_matching h5).1
      · exact ih hd

/-! ## C72 -/

/-- C72: `NewConfig` succeeds only if every repository of the map file has a root. -/
theorem C72_roots {repoMap : Bytes} {roots : Entries Bytes} {c : MultiCfg} (hc : newMultiConfig env repoMap roots = .ok c) :
    c.trustedRoots = roots ∧ ∀ repo, (c.repoMap.repositories.get? repo).isSome → (roots.get? repo).isSome := by
  unfold newMultiConfig at hc
  split at hc
  · cases hc
  · obtain ⟨j, _, hc⟩ := Res.bind_eq_ok.1 hc
    obtain ⟨p, _, hc⟩ := Res.bind_eq_ok.1 hc
    obtain ⟨m, _, hc⟩ := Res.bind_eq_ok.1 hc
    split at hc
    · next ha =>
      cases hc
      refine ⟨rfl, ?_⟩
      intro repo hr
      obtain ⟨urls, hr⟩ := Option.isSome_iff_exists.1 hr
      exact List.all_eq_true.1 ha repo (List.mem_map.2 ⟨(repo, urls), Entries.mem_of_get? hr, rfl⟩)
    · cases hc

/-- The client of a repository: its first URL and its own root. -/
structure Spec.OwnRoot (env : Env) (c : MultiCfg) (repo : Str) (cl : Client) : Prop where
  listed : ∃ url urls, c.repoMap.repositories.get? repo = some (some (url :: urls)) ∧ cl.cfg.remoteMetadataURL = url
  root : ∃ bytes, c.trustedRoots.get? repo = some bytes ∧ cl.cfg.localTrustedRoot = bytes ∧ ∃ now, Trusted.new env now bytes = .ok cl.trusted

theorem mWorld_ok {α : Type} {m : W α} {s s' : MSt} {a : α} (hm : mWorld m s = (.ok a, s')) : ∃ w, m s.world = (.ok a, w) ∧ s' = { s with world := w } := by
  unfold mWorld at hm
  rcases h1 : m s.world with ⟨r, w⟩
  rw [h1] at hm
  cases hm
  exact ⟨w, rfl, rfl⟩

theorem newUpdater_ok {x : Ctx} {w w' : World} {t : Trusted} (hn : newUpdater x w = (.ok t, w')) : ∃ now, Trusted.new x.env now x.cfg.localTrustedRoot = .ok t := by
  unfold newUpdater at hn
  split at hn
  · cases hn
  · rcases h1 : Trusted.new x.env (x.host.now w.trace) x.cfg.localTrustedRoot with t' | e | _
    · rw [h1] at hn
      dsimp only at hn
      obtain ⟨_, _, _, hn⟩ := SM.bind_eq_ok.1 hn
      obtain ⟨_, _, _, hn⟩ := SM.bind_eq_ok.1 hn
      cases hn
      exact ⟨_, h1⟩
    · rw [h1] at hn; cases hn
    · rw [h1] at hn; cases hn

theorem initClients_ok {c : MultiCfg} (hu : UniqueKeys c.repoMap.repositories) {repos : List (Str × Slice Str)} (hsub : ∀ e ∈ repos, e ∈ c.repoMap.repositories.entries)
    {s s' : MSt} (hs : ∀ repo cl, s.clients.get? repo = some cl → OwnRoot env c repo cl) (hi : initClients env h c repos s = (.ok (), s')) :
    (∀ repo cl, s'.clients.get? repo = some cl → OwnRoot env c repo cl) ∧
    ∀ repo, (s'.clients.get? repo).isSome ↔ (s.clients.get? repo).isSome ∨ repo ∈ repos.map Prod.fst := by
  induction repos generalizing s with
  | nil => cases hi; exact ⟨hs, by simp⟩
  | cons e repos ih =>
    obtain ⟨repo, urls⟩ := e
    rw [initClients] at hi
    cases hurl : urls.elems with
    | nil => rw [hurl] at hi; cases hi
    | cons url rest =>
      rw [hurl] at hi
      dsimp only at hi
      cases hroot : c.trustedRoots.get? repo with
      | none => rw [hroot] at hi; cases hi
      | some bytes =>
        rw [hroot] at hi
        dsimp only at hi
        obtain ⟨_, s1, h1, hi⟩ := SM.bind_eq_ok.1 hi
        obtain ⟨w1, _, rfl⟩ := mWorld_ok h1
        obtain ⟨cfg, s2, h2, hi⟩ := SM.bind_eq_ok.1 hi
        obtain ⟨h2, h2s⟩ := lift_ok h2
        obtain ⟨o, s3, h3, hi⟩ := SM.bind_eq_ok.1 hi
        rcases SM.try_eq_ok.1 h3 with ⟨t, rfl, h4⟩ | ⟨e, rfl, h4⟩
        · dsimp only at hi
          obtain ⟨w3, h5, h6⟩ := mWorld_ok h4
          obtain ⟨_, s4, h7, hi⟩ := SM.bind_eq_ok.1 hi
          cases h7
          have hmem : (repo, urls) ∈ c.repoMap.repositories.entries := hsub _ (.head _)
          have hurls : urls = some (url :: rest) := by
            cases urls with
            | none => cases hurl
            | some l => exact congrArg some hurl
          have hcfg : cfg.remoteMetadataURL = url ∧ cfg.localTrustedRoot = bytes := by
            unfold clientCfg at h2
            dsimp only at h2
            obtain ⟨cfg0, h8, h9⟩ := Res.bind_eq_ok.1 h2
            cases h9
            unfold Cfg.new at h8
            split at h8
            · cases h8
            · cases h8; exact ⟨rfl, rfl⟩
          have own : OwnRoot env c repo ⟨cfg, t⟩ := by
            refine ⟨⟨url, rest, ?_, hcfg.1⟩, bytes, hroot, hcfg.2, ?_⟩
            · rw [← hurls]; exact Entries.get?_of_mem hu hmem
            · obtain ⟨now, hn⟩ := newUpdater_ok h5
              exact ⟨now, by rw [← hcfg.2]; exact hn⟩
          have hcl : s3.clients = s.clients := by rw [h6, h2s]
          obtain ⟨i1, i2⟩ := ih (fun e he => hsub e (.tail _ he)) (s := { s3 with clients := s3.clients.set repo ⟨cfg, t⟩ }) (by
            intro r cl hr
            dsimp only at hr
            rw [Entries.get?_set] at hr
            split at hr
            · next he => cases hr; exact he ▸ own
            · rw [hcl] at hr; exact hs r cl hr) hi
          refine ⟨i1, ?_⟩
          intro r
          rw [i2]
          dsimp only
          rw [Entries.get?_set, hcl, List.map_cons, List.mem_cons]
          split
          · next he => simp [he]
          · next he => simp [Ne.symm he]
        · cases hi

theorem decEntries_nodup {α : Type} {dec : Json → Res α} {es : List (Str × Json)} {acc res : Entries α} (hd : decEntries dec es acc = .ok res) (hn : acc.keys.Nodup) : res.keys.Nodup := by
  induction es generalizing acc with
  | nil => cases hd; exact hn
  | cons e es ih =>
    obtain ⟨a, _, hd⟩ := Res.bind_eq_ok.1 hd
    exact ih hd (Entries.nodup_set hn _ _)

theorem decMap_nodup {α : Type} {dec : Json → Res α} {j : Json} {old res : GoMap α} (hd : decMap dec j old = .ok res) (hn : old.entries.keys.Nodup) : res.entries.keys.Nodup := by
  unfold decMap at hd
  split at hd
  · cases hd; exact List.nodup_nil
  · next m =>
    rcases h1 : decEntries dec m old.entries with r | e | _
    · rw [h1] at hd; cases hd; exact decEntries_nodup h1 hn
    · rw [h1] at hd; cases hd
    · rw [h1] at hd; cases hd
  · cases hd

theorem decFields_keeps {α : Type} {names : List Str} {setField : Str → Json → α → Res α} {P : α → Prop} (hf : ∀ f j a a', setField f j a = .ok a' → P a → P a')
    {es : List (Str × Json)} {a a' : α} (hd : decFields names setField es a = .ok a') (ha : P a) : P a' := by
  induction es generalizing a with
  | nil => cases hd; exact ha
  | cons e es ih =>
    rw [decFields] at hd
    split at hd
    · exact ih hd ha
    · obtain ⟨a1, h1, hd⟩ := Res.bind_eq_ok.1 hd
      exact ih hd (hf _ _ _ _ h1 ha)

theorem repoMap_unique {j : Json} {m : RepoMap} (hd : RepoMap.decode j = .ok m) : UniqueKeys m.repositories := by
  unfold RepoMap.decode at hd
  split at hd
  · obtain ⟨b, hb, rfl⟩ := Res.map_eq_ok.1 hd
    refine decFields_keeps (P := fun m : RepoMapBuf => UniqueKeys m.repositories) ?_ hb List.nodup_nil
    intro f j a a' hs ha
    unfold RepoMap.setField at hs
    split at hs
    · obtain ⟨v, h1, h2⟩ := Res.bind_eq_ok.1 hs
      cases h2
      exact decMap_nodup h1 ha
    · obtain ⟨v, h1, h2⟩ := Res.bind_eq_ok.1 hs
      cases h2
      exact ha
  · cases hd

/-- The configuration made by `NewConfig` meets the hypothesis of `C72_clients`. -/
theorem C72_unique {repoMap : Bytes} {roots : Entries Bytes} {c : MultiCfg} (hc : newMultiConfig env repoMap roots = .ok c) : UniqueKeys c.repoMap.repositories := by
  unfold newMultiConfig at hc
  split at hc
  · cases hc
  · obtain ⟨j, _, hc⟩ := Res.bind_eq_ok.1 hc
    obtain ⟨p, hp, hc⟩ := Res.bind_eq_ok.1 hc
    obtain ⟨m, hm, hc⟩ := Res.bind_eq_ok.1 hc
    split at hc
    · cases hc
      unfold Res.deref at hm
      unfold decPtr at hp
      split at hp
      · cases hp; cases hm
      · rcases h1 : RepoMap.decode j with r | e | _
        · rw [h1] at hp; cases hp; cases hm; exact repoMap_unique h1
        · rw [h1] at hp; cases hp
        · rw [h1] at hp; cases hp
    · cases hc

/-- C72: `New` creates a client for exactly the repositories of the map file, each from its own root and its first URL. -/
theorem C72_clients {c : MultiCfg} (hu : UniqueKeys c.repoMap.repositories) {w : World} {s' : MSt} (hn : newMultiRepo env h c { world := w } = (.ok (), s')) :
    (∀ repo, (s'.clients.get? repo).isSome ↔ (c.repoMap.repositories.get? repo).isSome) ∧
    ∀ repo cl, s'.clients.get? repo = some cl → OwnRoot env c repo cl := by
  unfold newMultiRepo at hn
  obtain ⟨repos, s1, h1, hn⟩ := SM.bind_eq_ok.1 hn
  obtain ⟨w1, h2, rfl⟩ := mWorld_ok h1
  obtain ⟨o, l, h3, h4, h5⟩ := iterateMap_apply h c.repoMap.repositories.entries w
  rw [h5] at h2
  cases h2
  have hperm := perm_iterate (es := c.repoMap.repositories.entries) h3
  rw [← h4] at hperm
  obtain ⟨i1, i2⟩ := initClients_ok hu (fun e he => hperm.mem_iff.1 he) (by intro r cl hr; cases hr) hn
  refine ⟨?_, i1⟩
  intro repo
  rw [i2]
  constructor
  · rintro (hr | hr)
    · cases hr
    · obtain ⟨e, he, rfl⟩ := List.mem_map.1 hr
      have := Entries.get?_of_mem hu (hperm.mem_iff.1 he)
      show (Entries.get? c.repoMap.repositories.entries e.1).isSome = true
      rw [this]; rfl
  · intro hr
    obtain ⟨urls, hr⟩ := Option.isSome_iff_exists.1 hr
    exact .inr (List.mem_map.2 ⟨(repo, urls), hperm.mem_iff.2 (Entries.mem_of_get? hr), rfl⟩)

/-! ## C73 -/

theorem onClient_unknown {α : Type} {repo : Str} {m : Ctx → M α} {s : MSt} (hn : s.clients.get? repo = none) : onClient env h repo m s = (.panic, s) := by
  unfold onClient; rw [hn]

theorem onClient_clients {α : Type} {repo : Str} {m : Ctx → M α} {s s' : MSt} {r : Res α} (ho : onClient env h repo m s = (r, s')) (name : Str) :
    (s'.clients.get? name).isSome = (s.clients.get? name).isSome := by
  unfold onClient at ho
  cases hc : s.clients.get? repo with
  | none => rw [hc] at ho; cases ho; rfl
  | some c =>
    rw [hc] at ho
    dsimp only at ho
    rcases hm : m ⟨env, h, c.cfg⟩ ⟨c.trusted, s.world⟩ with ⟨r', st⟩
    rw [hm] at ho
    cases ho
    dsimp only
    rw [Entries.get?_set]
    split
    · next he => rw [← he, hc]; rfl
    · rfl

theorem asked_known {repos : List Str} {s s' : MSt} {as : Answers} (ha : Asked env h path repos s as s') :
    (∀ r ∈ repos, (s.clients.get? r).isSome) ∧ ∀ name, (s'.clients.get? name).isSome = (s.clients.get? name).isSome := by
  induction ha with
  | nil => exact ⟨by simp, fun _ => rfl⟩
  | @info repo repos s s1 s' info as ho _ ih =>
    have hk := onClient_clients ho
    refine ⟨?_, fun name => (ih.2 name).trans (hk name)⟩
    intro r hr
    rcases List.mem_cons.1 hr with rfl | hr
    · obtain ⟨c, _, hc, _⟩ := onClient_ok ho; rw [hc]; rfl
    · rw [← hk]; exact ih.1 r hr
  | @error repo repos s s1 s' e as ho _ ih =>
    have hk := onClient_clients ho
    refine ⟨?_, fun name => (ih.2 name).trans (hk name)⟩
    intro r hr
    rcases List.mem_cons.1 hr with rfl | hr
    · cases hc : s.clients.get? r with
      | some c => rfl
      | none => rw [onClient_unknown hc] at ho; cases ho
    · rw [← hk]; exact ih.1 r hr

theorem multiRun_known {ag : List (Option (Str × Mapping))} {s s' : MSt} {cs : List Consult} {out : Res TargetMatch} (hr : MultiRun env h path ag s cs out s') :
    (∀ c ∈ cs, ∀ r ∈ c.mapping.repositories.elems, (s.clients.get? r).isSome) := by
  induction hr with
  | exhausted => simp
  | nullMapping => simp
  | badPattern => simp
  | noMatch _ _ ih => exact ih
  | crash => simp
  | ambiguous _ ha => intro c hc; rw [List.mem_singleton] at hc; subst hc; exact (asked_known ha).1
  | chosen _ ha => intro c hc; rw [List.mem_singleton] at hc; subst hc; exact (asked_known ha).1
  | terminated _ ha => intro c hc; rw [List.mem_singleton] at hc; subst hc; exact (asked_known ha).1
  | next _ ha _ _ _ _ ih =>
    intro c hc r hr
    rcases List.mem_cons.1 hc with rfl | hc
    · exact (asked_known ha).1 r hr
    · rw [← (asked_known ha).2]; exact ih c hc r hr

/-- C73 without the promise of an error value: a mapping that is consulted to the end names only repositories with clients; so `GetTargetInfo` never returns an info, nor passes on to another
mapping, on account of a mapping with an unknown repository. Missing: the failure is a crash (`C73_false`). -/
theorem C73_known_partial (c : MultiCfg) (s : MSt) : ∃ cs, MultiRun env h path (agenda c.repoMap.mapping.elems) s cs (multiGetTargetInfo env h c path s).1 (multiGetTargetInfo env h c path s).2 ∧
    ∀ k ∈ cs, ∀ r ∈ k.mapping.repositories.elems, (s.clients.get? r).isSome := by
  obtain ⟨cs, h1⟩ := C68_search (env := env) (h := h) (path := path) c s
  exact ⟨cs, h1, multiRun_known h1⟩

/-- Every client has the configuration that it had, and its trusted metadata changed by calls of the trusted set only. -/
def Spec.ClientsGoOn (env : Env) (s s' : MSt) : Prop :=
  ∀ repo cl', s'.clients.get? repo = some cl' → ∃ cl, s.clients.get? repo = some cl ∧ cl'.cfg = cl.cfg ∧ ClientHistory env cl.trusted cl'.trusted

theorem clientsGoOn_refl (s : MSt) : ClientsGoOn env s s := fun _ cl h => ⟨cl, h, rfl, .refl⟩

theorem clientsGoOn_trans {a b c : MSt} (h1 : ClientsGoOn env a b) (h2 : ClientsGoOn env b c) : ClientsGoOn env a c := by
  intro repo cl hc
  obtain ⟨cl1, e1, e2, e3⟩ := h2 repo cl hc
  obtain ⟨cl2, f1, f2, f3⟩ := h1 repo cl1 e1
  exact ⟨cl2, f1, e2.trans f2, f3.trans e3⟩

theorem clientsGoOn_ask {repo : Str} {s s' : MSt} {r : Res (Option TargetFiles)} (ho : onClient env h repo (fun x => getTargetInfo x path) s = (r, s')) : ClientsGoOn env s s' := by
  unfold onClient at ho
  cases hc : s.clients.get? repo with
  | none => rw [hc] at ho; cases ho; exact clientsGoOn_refl _
  | some c =>
    rw [hc] at ho
    dsimp only at ho
    have he := (exec_getTargetInfo (x := ⟨env, h, c.cfg⟩) (ex := Extra.none) (path := path) trivial (T := c.trusted) (s := ⟨c.trusted, s.world⟩) .refl).history
    rcases hm : getTargetInfo ⟨env, h, c.cfg⟩ path ⟨c.trusted, s.world⟩ with ⟨r', st⟩
    rw [hm] at ho he
    cases ho
    intro name cl hn
    dsimp only at hn
    rw [Entries.get?_set] at hn
    split at hn
    · next e => cases hn; subst e; exact ⟨c, hc, rfl, he⟩
    · exact ⟨cl, hn, rfl, .refl⟩

theorem clientsGoOn_asked {repos : List Str} {s s' : MSt} {as : Answers} (ha : Asked env h path repos s as s') : ClientsGoOn env s s' := by
  induction ha with
  | nil => exact clientsGoOn_refl _
  | info ho _ ih => exact clientsGoOn_trans (clientsGoOn_ask ho) ih
  | error ho _ ih => exact clientsGoOn_trans (clientsGoOn_ask ho) ih

theorem multiRun_crash {ag : List (Option (Str × Mapping))} {s s' : MSt} {cs : List Consult} {out : Res TargetMatch} (hr : MultiRun env h path ag s cs out s')
    (hag : ∀ o ∈ ag, ∃ p m, o = some (p, m) ∧ ∀ r ∈ m.repositories.elems, (s.clients.get? r).isSome) (ho : out = .panic) :
    ∃ (repo : Str) (cl : Client) (st : St) (p : Str) (m : Mapping), s.clients.get? repo = some cl ∧ some (p, m) ∈ ag ∧ env.glob p path = some true ∧ repo ∈ m.repositories.elems ∧
      ClientHistory env cl.trusted st.trusted ∧ ((getTargetInfo ⟨env, h, cl.cfg⟩ path st).1 = .panic ∨ (getTargetInfo ⟨env, h, cl.cfg⟩ path st).1 = .ok none) := by
  induction hr with
  | exhausted => cases ho
  | nullMapping => obtain ⟨_, _, h1, _⟩ := hag none (.head _); cases h1
  | badPattern => cases ho
  | noMatch _ _ ih =>
    obtain ⟨repo, cl, st, p, m, i1, i2, i3⟩ := ih (fun o h => hag o (.tail _ h)) ho
    exact ⟨repo, cl, st, p, m, i1, .tail _ i2, i3⟩
  | @crash p m rest s s' hg hc =>
    obtain ⟨before, repo, after, as, s1, r, h1, h2, h3, h4⟩ := hc
    obtain ⟨_, _, h5, h6⟩ := hag _ (.head _)
    cases h5
    have hk := h6 repo (by rw [h1]; simp)
    rw [← (asked_known h2).2] at hk
    obtain ⟨c, hc⟩ := Option.isSome_iff_exists.1 hk
    obtain ⟨cl, e1, e2, e3⟩ := clientsGoOn_asked h2 repo c hc
    unfold onClient at h3
    rw [hc] at h3
    dsimp only at h3
    refine ⟨repo, cl, ⟨c.trusted, s1.world⟩, p, m, e1, .head _, hg, by rw [h1]; simp, e3, ?_⟩
    rw [← e2]
    rcases hm : getTargetInfo ⟨env, h, c.cfg⟩ path ⟨c.trusted, s1.world⟩ with ⟨r', st⟩
    rw [hm] at h3
    cases h3
    exact h4
  | ambiguous => cases ho
  | chosen => cases ho
  | terminated => cases ho
  | next _ ha _ _ _ _ ih =>
    obtain ⟨repo, cl, st, p, m, i1, i2, i3, i4, i5, i6⟩ := ih (by
      intro o hm
      obtain ⟨p, m, h1, h2⟩ := hag o (.tail _ hm)
      exact ⟨p, m, h1, fun r hr => by rw [(asked_known ha).2]; exact h2 r hr⟩) ho
    obtain ⟨cl', e1, e2, e3⟩ := clientsGoOn_asked ha repo cl i1
    exact ⟨repo, cl', st, p, m, e1, .tail _ i2, i3, i4, e3.trans i5, by rw [← e2]; exact i6⟩

/-- C73: with a map file all of whose mappings name only known repositories, `GetTargetInfo` crashes only if the lookup of the path at a repository of a mapping that matches it does, with the
configuration of its client and with metadata that came from those it trusts now. -/
theorem C73_crash_partial (c : MultiCfg) (s : MSt)
    (hc : ∀ o ∈ agenda c.repoMap.mapping.elems, ∃ p m, o = some (p, m) ∧ ∀ r ∈ m.repositories.elems, (s.clients.get? r).isSome) (ho : (multiGetTargetInfo env h c path s).1 = .panic) :
    ∃ (repo : Str) (cl : Client) (st : St) (p : Str) (m : Mapping), s.clients.get? repo = some cl ∧ some (p, m) ∈ agenda c.repoMap.mapping.elems ∧ env.glob p path = some true ∧
      repo ∈ m.repositories.elems ∧ ClientHistory env cl.trusted st.trusted ∧
      ((getTargetInfo ⟨env, h, cl.cfg⟩ path st).1 = .panic ∨ (getTargetInfo ⟨env, h, cl.cfg⟩ path st).1 = .ok none) := by
  obtain ⟨cs, h1⟩ := C68_search (env := env) (h := h) (path := path) c s
  exact multiRun_crash h1 hc ho

end

/-! ## Examples -/

namespace Sample

def mappingJ (repos : List Str) (threshold : Int) (terminating : Bool) (pattern : Str) : Json :=
  .obj [(b!"paths", .arr [.str pattern]), (b!"repositories", .arr (repos.map .str)), (b!"threshold", .num threshold), (b!"terminating", .bool terminating)]

/-- A target of length 2 with a SHA-256 hash, with both hashes, and with a SHA-512 hash. -/
def hashedJ (n : UInt8) : Json :=
  .obj [(b!"length", .num 2), (b!"hashes", .obj ((if n ≤ 102 then [(b!"sha256", .str b!"aa")] else []) ++ if 102 ≤ n then [(b!"sha512", .str b!"bb")] else []))]
def hashedInfo (n : UInt8) : TargetFiles :=
  { length := 2, path := b!"f", hashes := some ((if n ≤ 102 then [(b!"sha256", [170])] else []) ++ if 102 ≤ n then [(b!"sha512", [187])] else []) }

/-- Bytes `[10]` are the map file with repositories `1`, `2`, `3`; bytes `[9, n]` are top-level targets with a target `f` of length `n`; for `n` 101, 102 and 103 see `hashedJ`;
for 104 there is a second target `g`. -/
def multiEnv (mappings : List Json) : Env :=
  { repoEnv with
    parse := fun b => match b with
      | [10] => some (.obj [(b!"repositories", .obj [(b!"1", .arr [.str b!"1"]), (b!"2", .arr [.str b!"2"]), (b!"3", .arr [.str b!"3"])]), (b!"mapping", .arr mappings)])
      | [9, 104] => some (delegatingDoc [(b!"f", targetJ 2), (b!"g", targetJ 2)] [])
      | [9, n] => some (delegatingDoc [(b!"f", if n ≤ 100 then targetJ n.toNat else hashedJ n)] [])
      | b => repoEnv.parse b }

/-- The servers of the three repositories; each lists `f` with its own length. -/
def multiServer (lengths : List UInt8) (url : Str) : Except Err Bytes :=
  match url with
  | r :: rest =>
    if rest = b!"/timestamp.json" then .ok [2, 4]
    else if rest = b!"/4.snapshot.json" then .ok [3, 4]
    else if rest = b!"/4.targets.json" then
      match lengths[r.toNat - 49]? with
      | some n => .ok [9, n]
      | none => .error (.downloadHTTP 404 url)
    else if rest = b!"/targets/" ++ hexEncode (digest [7, 7]) ++ b!".f" then .ok [7, 7]
    else .error (.downloadHTTP 404 url)
  | [] => .error (.downloadHTTP 404 url)

/-- Set up the client, then run. -/
def multiSession {α : Type} (mappings : List Json) (lengths : List UInt8) (m : Env → Host → MultiCfg → MM α) : Res α × List Event :=
  let env := multiEnv mappings
  let h := hostOf (multiServer lengths)
  match newMultiConfig env [10] [(b!"1", [1, 1]), (b!"2", [1, 1]), (b!"3", [1, 1])] with
  | .ok c =>
    let c := { c with localMetadataDir := b!"m", localTargetsDir := b!"t" }
    let r := (newMultiRepo env h c >>= fun _ => m env h c) { world := { fs := disk [] } }
    (r.1, r.2.world.trace)
  | .err e => (.err e, [])
  | .panic => (.panic, [])

/-- Length and repositories of the target `f`. -/
def multiLookup (mappings : List Json) (lengths : List UInt8) : Res (Int × List Str) :=
  (multiSession mappings lengths (fun env h c => multiGetTargetInfo env h c b!"f")).1.map (fun g => (g.targetInfo.length, g.repositories))

/-- URLs fetched for targets metadata. -/
def multiAsked (mappings : List Json) (lengths : List UInt8) : List Str :=
  ((multiSession mappings lengths (fun env h c => multiGetTargetInfo env h c b!"f")).2.filterMap (fun e => match e with
    | .fetch u _ _ => some u
    | _ => none)).filter (fun u => (b!"/4.targets.json").isSuffixOf u)

/-- Three repositories, threshold 2, all patterns. -/
def two : List Json := [mappingJ [b!"1", b!"2", b!"3"] 2 true b!"*"]

end Sample

/-- Consensus of two of two, and of three; no consensus; a conflict; duplicate names count once. -/
example : multiLookup [mappingJ [b!"1", b!"2"] 2 true b!"*"] [2, 2, 3] = .ok (2, [b!"1", b!"2"]) ∧ multiLookup two [2, 2, 2] = .ok (2, [b!"1", b!"2", b!"3"]) ∧
    isErr (multiLookup two [2, 3, 4]) = true ∧ isErr (multiLookup [mappingJ [b!"1", b!"2", b!"3"] 1 true b!"*"] [2, 2, 3]) = true ∧
    isErr (multiLookup [mappingJ [b!"1", b!"1"] 2 true b!"*"] [2, 2, 3]) = true := by decide +kernel

/-- A terminating mapping without consensus ends the search, others do not (C69). -/
example : isErr (multiLookup [mappingJ [b!"1", b!"2"] 2 true b!"*", mappingJ [b!"3"] 1 true b!"*"] [2, 3, 2]) = true ∧
    multiAsked [mappingJ [b!"1", b!"2"] 2 true b!"*", mappingJ [b!"3"] 1 true b!"*"] [2, 3, 2] = [b!"1/4.targets.json", b!"2/4.targets.json"] ∧
    multiLookup [mappingJ [b!"1", b!"2"] 2 false b!"*", mappingJ [b!"3"] 1 true b!"*"] [2, 3, 2] = .ok (2, [b!"3"]) ∧
    multiLookup [mappingJ [b!"1", b!"2"] 2 true b!"g", mappingJ [b!"3"] 1 true b!"f"] [2, 3, 2] = .ok (2, [b!"3"]) := by decide +kernel

/-- A download after a lookup (C71). -/
example : (multiSession two [2, 2, 2] (fun env h c => multiGetTargetInfo env h c b!"f" >>= fun g => multiDownloadTarget env h g.targetInfo [] [] g.repositories)).1 =
    .ok (b!"t/f", [7, 7]) := by decide +kernel

/-- The negation of C68: repositories 1 and 2 agree on length 2, repository 3 alone says length 3; with threshold 2 the result is the info of repository 3. -/
theorem C68_false : multiLookup two [2, 2, 3] = .ok (3, [b!"3"]) := by decide +kernel

/-- The negation of C70: repository 1 lists the target with a SHA-256 hash, 2 with both hashes, 3 with a SHA-512 hash only. Two repositories vouch for the info of 1 and two for the
different info of 3, but there is no error, as `Equal` is not transitive. -/
theorem C70_false : multiLookup two [101, 102, 103] = .ok (2, [b!"3"]) ∧
    (∀ n ∈ [101, 102, 103], (multiSession [mappingJ [b!"1"] 1 true b!"*"] [n, 2, 2] (fun env h c => multiGetTargetInfo env h c b!"f")).1.map
      (fun g => (g.targetInfo.length, g.targetInfo.hashes.get? b!"sha256", g.targetInfo.hashes.get? b!"sha512")) =
        .ok (2, (hashedInfo n).hashes.get? b!"sha256", (hashedInfo n).hashes.get? b!"sha512")) ∧
    (hashedInfo 101).equal (hashedInfo 102) = true ∧ (hashedInfo 103).equal (hashedInfo 102) = true ∧ (hashedInfo 101).equal (hashedInfo 103) = false := by decide +kernel

/-- The negation of C73: a mapping that names an unknown repository crashes the lookup. -/
theorem C73_false : multiLookup [mappingJ [b!"1", b!"4"] 1 true b!"*"] [2, 2, 2] = .panic := by decide +kernel

end Tuf
