import Verif.Model.Std.Env
import Verif.Proofs.Std.Glob
import Verif.Props.Paths
import Verif.Props.MultiRepo

/-! # C102: path patterns are shell patterns -/

namespace Tuf
open Tuf.Spec Tuf.Std

theorem std_glob (env : Env) (p s : Str) : (std env).glob p s = globMatch p s := rfl

theorem glob_true {p s : Str} (h : globMatch p s = some true) : GlobMatches p s := glob_sound _ h

theorem glob_ascii {p s : Str} (hs : Ascii s) (h47 : (47 : UInt8) ∉ s) : globMatch p s = some true ↔ GlobMatches p s := by
  refine ⟨glob_true, ?_⟩
  rintro ⟨is, h1, h2⟩
  exact glob_complete _ h1 (Nat.le_refl _) h2 hs fun h => absurd h h47

theorem mem_part {path : Str} {ts : List Str} (h : Parts path ts) {t : Str} (ht : t ∈ ts) {c : UInt8} (hc : c ∈ t) : c ∈ path := by
  replace h := h.2.2
  rw [← h]
  clear h
  induction ts with
  | nil => cases ht
  | cons a r ih =>
    cases r with
    | nil =>
      rw [List.mem_singleton] at ht
      subst ht
      simpa [List.intercalate] using hc
    | cons b r =>
      have hcons : List.intercalate [47] (a :: b :: r) = a ++ 47 :: List.intercalate [47] (b :: r) := by
        simp [List.intercalate, List.intersperse]
      rw [hcons]
      rcases List.mem_cons.1 ht with rfl | ht
      · exact List.mem_append_left _ hc
      · exact List.mem_append_right _ (List.mem_cons_of_mem _ (ih ht))

/-- C102: a path covered by a pattern is covered part by part in the sense of the documentation. -/
theorem C102_sound {env : Env} {path pattern : Str} (h : isTargetInPathPattern (std env) path pattern = true) : ShellCovers pattern path := by
  obtain ⟨ps, ts, h1, h2, h3, h4⟩ := (C51_pattern_exact _ _ _).1 h
  exact ⟨ps, ts, h1, h2, h3, fun i hp ht => glob_true (h4 i hp ht)⟩

/-- C102: for paths in ASCII the converse holds as well. -/
theorem C102_ascii {env : Env} {path pattern : Str} (ha : ∀ c ∈ path, c.toNat < 128) : isTargetInPathPattern (std env) path pattern = true ↔ ShellCovers pattern path := by
  refine ⟨C102_sound, ?_⟩
  rintro ⟨ps, ts, h1, h2, h3, h4⟩
  refine (C51_pattern_exact _ _ _).2 ⟨ps, ts, h1, h2, h3, fun i hp ht => ?_⟩
  exact (glob_ascii (fun c hc => ha c (mem_part h2 (List.getElem_mem ht) hc)) (h2.2.1 _ (List.getElem_mem ht))).2 (h4 i hp ht)

/-- C102: a role with patterns is asked for an ASCII path exactly if one of its patterns covers the path. -/
theorem C102_role {env : Env} {role : DelegatedRole} {path : Str} (hp : role.paths.elems ≠ []) (ha : ∀ c ∈ path, c.toNat < 128) :
    role.isDelegatedPath (std env) path = true ↔ ∃ p ∈ role.paths.elems, ShellCovers p path := by
  unfold DelegatedRole.isDelegatedPath
  rw [if_pos (List.length_pos_iff.2 hp), List.any_eq_true]
  constructor
  · rintro ⟨p, h1, h2⟩; exact ⟨p, h1, C102_sound h2⟩
  · rintro ⟨p, h1, h2⟩; exact ⟨p, h1, (C102_ascii ha).2 h2⟩

/-- C102: a pattern with a part that is not well-formed covers nothing. -/
theorem C102_malformed {env : Env} {path pattern : Str} {ps : List Str} {q : Str} (h : Parts pattern ps) (hq : q ∈ ps) (hbad : ¬ ∃ is, Pattern q is) :
    isTargetInPathPattern (std env) path pattern = false := by
  cases hc : isTargetInPathPattern (std env) path pattern with
  | false => rfl
  | true =>
    exfalso
    obtain ⟨ps', ts, h1, h2, h3, h4⟩ := C102_sound hc
    cases (parts_unique h1).trans (parts_unique h).symm
    obtain ⟨i, hi, rfl⟩ := List.getElem_of_mem hq
    obtain ⟨is, h5, _⟩ := h4 i hi (h3 ▸ hi)
    exact hbad ⟨is, h5⟩

/-- C102: a plain path, without the characters `*`, `?`, `[` and the backslash, covers itself and nothing else. -/
theorem C102_plain {env : Env} {path pattern : Str} (hp : ∀ c ∈ pattern, c ≠ 42 ∧ c ≠ 63 ∧ c ≠ 91 ∧ c ≠ 92) (ha : ∀ c ∈ pattern, c.toNat < 128) :
    isTargetInPathPattern (std env) path pattern = true ↔ path = pattern := by
  have lits : ∀ q : Str, (∀ c ∈ q, c ≠ 42 ∧ c ≠ 63 ∧ c ≠ 91 ∧ c ≠ 92) → Pattern q (q.map .lit) ∧ ∀ is, Pattern q is → is = q.map .lit := by
    intro q
    induction q with
    | nil =>
      intro _
      exact ⟨.nil, fun is h => pattern_nil h⟩
    | cons c q ih =>
      intro hq
      obtain ⟨c1, c2, c3, c4⟩ := hq c (.head _)
      obtain ⟨h1, h2⟩ := ih fun d hd => hq d (List.mem_cons_of_mem _ hd)
      refine ⟨.lit c1 c2 c3 c4 h1, fun is h => ?_⟩
      cases h with
      | star => exact absurd rfl c1
      | any => exact absurd rfl c2
      | escaped => exact absurd rfl c4
      | lit _ _ _ _ h => rw [h2 _ h]; rfl
      | cls => exact absurd rfl c3
      | notCls => exact absurd rfl c3
  have mlits : ∀ q s : Str, Matches (q.map .lit) s ↔ s = q := by
    intro q
    induction q with
    | nil =>
      intro s
      constructor
      · intro h; cases h; rfl
      · rintro rfl; exact .nil
    | cons c q ih =>
      intro s
      constructor
      · intro h
        cases h with
        | lit h => rw [(ih _).1 h]
      · rintro rfl
        exact .lit ((ih _).2 rfl)
  constructor
  · intro h
    obtain ⟨ps, ts, h1, h2, h3, h4⟩ := C102_sound h
    have : ps = ts := by
      refine List.ext_getElem h3 fun i hp' ht => ?_
      obtain ⟨is, h5, h6⟩ := h4 i hp' ht
      have hq := lits ps[i] fun c hc => hp c (mem_part h1 (List.getElem_mem hp') hc)
      rw [hq.2 is h5] at h6
      exact ((mlits _ _).1 h6).symm
    rw [← h1.2.2, ← h2.2.2, this]
  · rintro rfl
    refine (C102_ascii ha).2 ?_
    refine ⟨_, _, parts_splitOn path, parts_splitOn path, rfl, fun i hi _ => ?_⟩
    have hq := lits (splitOn 47 path)[i] fun c hc => hp c (mem_part (parts_splitOn path) (List.getElem_mem hi) hc)
    exact ⟨_, hq.1, (mlits _ _).2 rfl⟩

/-- C102: the pattern `*` covers exactly the paths without a slash, in a delegation. -/
theorem C102_star {env : Env} (path : Str) : isTargetInPathPattern (std env) path b!"*" = true ↔ (47 : UInt8) ∉ path := by
  have hg : ∀ s : Str, globMatch b!"*" s = some (!s.contains 47) := fun s => rfl
  constructor
  · intro h
    have := (C51_pattern_exact _ _ _).1 h
    obtain ⟨ps, ts, h1, h2, h3, h4⟩ := this
    have hps : ps = [b!"*"] := parts_unique h1
    subst hps
    match ts, h2, h3 with
    | [t], h2, _ =>
      have : path = t := by rw [← h2.2.2]; simp [List.intercalate]
      rw [this]
      exact h2.2.1 t (.head _)
  · intro h
    refine (C51_pattern_exact _ _ _).2 ⟨[b!"*"], [path], ⟨by simp, by decide, by simp [List.intercalate]⟩, ⟨by simp, by simpa using h, by simp [List.intercalate]⟩, rfl, ?_⟩
    intro i hp ht
    match i with
    | 0 =>
      show globMatch b!"*" path = some true
      rw [hg]
      simpa using h

/-- C102 is false beyond ASCII: the pattern `*??` asks for two characters, and covers a path of one (U+65E5, three bytes). -/
theorem C102_false : ∃ (pattern path : Str), Pattern pattern [.star, .any, .any] ∧ (∃ n, Scalar n ∧ path = encodeRune n) ∧
    ∀ env, isTargetInPathPattern (std env) path pattern = true :=
  ⟨b!"*??", encodeRune 0x65E5, .star (.any (.any .nil)), ⟨0x65E5, by unfold Scalar; decide, rfl⟩, fun env =>
    show (isTargetInPathPattern { env with glob := globMatch } (encodeRune 0x65E5) b!"*??") = true from by
      rfl⟩

variable {h : Host}

/-- C102: a target found through a map file is matched by a pattern of the file. -/
theorem C102_map {env : Env} {path : Str} {c : MultiCfg} {s s' : MSt} {res : TargetMatch} (hr : multiGetTargetInfo (std env) h c path s = (.ok res, s')) :
    ∃ m p, some m ∈ c.repoMap.mapping.elems ∧ p ∈ m.paths.elems ∧ GlobMatches p path := by
  obtain ⟨m, p, _, _, _, h1, h2, h3, _⟩ := C68_consensus_partial hr
  exact ⟨m, p, h1, h2, glob_true h3⟩

/-- C102: with the map file of one mapping with the pattern `*`, no target in a directory is ever found. -/
theorem C102_map_star {env : Env} {path : Str} {c : MultiCfg} {s : MSt} {m : Mapping} (hm : c.repoMap.mapping.elems = [some m]) (hp : m.paths.elems = [b!"*"])
    (hs : (47 : UInt8) ∈ path) : ∀ res s', multiGetTargetInfo (std env) h c path s ≠ (.ok res, s') := by
  intro res s' hr
  obtain ⟨m', p, _, _, _, h1, h2, h3, _⟩ := C68_consensus_partial hr
  rw [hm] at h1
  simp only [List.mem_singleton, Option.some.injEq] at h1
  subst h1
  rw [hp, List.mem_singleton] at h2
  subst h2
  have : globMatch b!"*" path = some (!path.contains 47) := rfl
  rw [std_glob, this] at h3
  simp [hs] at h3

/-- C102: a mapping of a map file whose patterns are well-formed and do not match is passed over; it does not end the search. -/
theorem C102_map_skips {env : Env} {path : Str} {c c' : MultiCfg} {m : Mapping} (hm : c.repoMap.mapping.elems = some m :: c'.repoMap.mapping.elems)
    (hp : ∀ p ∈ m.paths.elems, (∃ is, Pattern p is) ∧ ¬ GlobMatches p path) (s : MSt) : multiGetTargetInfo (std env) h c path s = multiGetTargetInfo (std env) h c' path s := by
  have key : ∀ ps : List Str, (∀ p ∈ ps, (∃ is, Pattern p is) ∧ ¬ GlobMatches p path) → tryPatterns (std env) h path m ps s = (.ok (none, false), s) := by
    intro ps
    induction ps with
    | nil => intro _; rfl
    | cons p ps ih =>
      intro hps
      obtain ⟨h1, h2⟩ := hps p (.head _)
      have hg : (std env).glob p path = some false := by
        rw [std_glob]
        cases hc : globMatch p path with
        | none => exact absurd h1 ((glob_malformed p path).1 hc)
        | some b =>
          cases b with
          | false => rfl
          | true => exact absurd (glob_true hc) h2
      rw [tryPatterns, hg]
      exact ih (fun q hq => hps q (.tail _ hq))
  unfold multiGetTargetInfo
  rw [hm, tryMappings, SM.bind_ok (key _ hp)]

/-- C102: a malformed pattern ends the search with an error, for every path. -/
theorem C102_map_malformed {env : Env} {path : Str} {c : MultiCfg} {m : Mapping} {rest : List (Option Mapping)} {p : Str} {ps : List Str} (hm : c.repoMap.mapping.elems = some m :: rest)
    (hp : m.paths.elems = p :: ps) (hbad : ¬ ∃ is, Pattern p is) (s : MSt) : ∃ e, multiGetTargetInfo (std env) h c path s = (.err e, s) := by
  have hg : (std env).glob p path = none := by rw [std_glob]; exact (glob_malformed p path).2 hbad
  refine ⟨.other "bad pattern", ?_⟩
  unfold multiGetTargetInfo
  rw [hm, tryMappings, hp, SM.bind_apply, tryPatterns, hg]
  rfl

/-- A case of `C102_map_skips`: the pattern `*x` and a path with a slash; and of `C102_map_malformed`. -/
example : (∃ is, Pattern b!"*x" is) ∧ ¬ GlobMatches b!"*x" b!"a/x" ∧ ¬ ∃ is, Pattern b!"[" is := by
  refine ⟨⟨[.star, .lit 120], .star (.lit (by decide) (by decide) (by decide) (by decide) .nil)⟩, fun hg => ?_, (glob_malformed b!"[" []).1 (by decide +kernel)⟩
  obtain ⟨is, h1, h2⟩ := hg
  have := glob_complete 2 h1 (Nat.le_refl _) h2 (fun c hc => by simp at hc; rcases hc with rfl | rfl | rfl <;> decide) (fun _ => ?_)
  · revert this; decide +kernel
  · obtain ⟨is', rfl⟩ := pattern_star_head h1 rfl
    intro neg rs hm
    cases h1 with
    | star h3 =>
      cases h3 with
      | lit _ _ _ _ h4 => cases h4; simp at hm

/-- C102 is false for map files with classes: `*[^a]*c` matches `b/c` (as `b`, `/`, nothing, `c`), and the search does not find it. -/
theorem C102_map_false : ∃ (pattern path : Str), GlobMatches pattern path ∧ ∀ env, (std env).glob pattern path = some false := by
  refine ⟨b!"*[^a]*c", b!"b/c", ⟨[.star, .cls true [(97, 97)], .star, .lit 99], ?_, ?_⟩, fun env => by rw [std_glob]; decide +kernel⟩
  · refine .star (.notCls (b := b!"a") (p := b!"*c") (by decide) (.one (t := b!"a") (s := []) (.plain (n := 97) (by unfold Scalar; decide) (by decide) (by decide) (by decide)) .nil) ?_)
    exact .star (.lit (by decide) (by decide) (by decide) (by decide) .nil)
  · refine .star (a := b!"b") (b := b!"/c") (by decide) (.cls (n := 47) (s := b!"/c") (r := b!"c") (.char (n := 47) (by unfold Scalar; decide)) ?_ (.star (a := []) (b := b!"c") (by decide) (.lit .nil)))
    simp [InClass]

/-! Cases. -/

example : ∀ env, isTargetInPathPattern (std env) b!"pkg/a1.tgz" b!"pkg/[a-c]?.t*z" = true := fun env =>
  show isTargetInPathPattern { env with glob := globMatch } _ _ = true from by rfl
example : ∀ env, isTargetInPathPattern (std env) b!"pkg/x/a1.tgz" b!"pkg/*.tgz" = false := fun env =>
  show isTargetInPathPattern { env with glob := globMatch } _ _ = false from by rfl
example : (¬ ∃ is, Pattern b!"[a" is) ∧ ∃ is, Pattern b!"[a]" is :=
  ⟨(glob_malformed b!"[a" []).1 (by decide +kernel), Classical.not_not.1 fun h => absurd ((glob_malformed b!"[a]" []).2 h) (by decide +kernel)⟩

end Tuf
