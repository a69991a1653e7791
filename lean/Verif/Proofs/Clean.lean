import Verif.Proofs.Files

/-! # `filepath.Clean` is idempotent -/

namespace Tuf
open Spec

/-- Components of a clean path, last first: plain names after some `..`, of which there are none if the path is rooted. -/
def CleanStack (rooted : Bool) (st : List Str) : Prop :=
  ∃ (k : Nat) (names : List Str), st = names ++ List.replicate k b!".." ∧ (rooted = true → k = 0) ∧ ∀ n ∈ names, PlainName n

theorem cleanStack_step {rooted : Bool} {st : List Str} (h : CleanStack rooted st) {p : Str} (hp : (47 : UInt8) ∉ p) : CleanStack rooted (cleanStep rooted st p) := by
  obtain ⟨k, names, rfl, hk, hn⟩ := h
  unfold cleanStep
  split
  · exact ⟨k, names, rfl, hk, hn⟩
  · next h1 =>
    split
    · next h2 =>
      cases names with
      | nil =>
        cases k with
        | zero =>
          simp only [List.replicate_zero, List.append_nil]
          cases rooted with
          | true => exact ⟨0, [], rfl, fun _ => rfl, by simp⟩
          | false => exact ⟨1, [], by subst h2; rfl, by simp, by simp⟩
        | succ k =>
          have hr : rooted ≠ true := fun h => by cases hk h
          simp only [List.nil_append, List.replicate_succ]
          rw [if_pos trivial, h2]
          exact ⟨k + 2, [], rfl, fun h => absurd h hr, by simp⟩
      | cons n names =>
        simp only [List.cons_append]
        rw [if_neg (hn n (by simp)).notDotDot]
        exact ⟨k, names, rfl, hk, fun m hm => hn m (by simp [hm])⟩
    · next h2 =>
      refine ⟨k, p :: names, rfl, hk, ?_⟩
      intro n h
      rcases List.mem_cons.1 h with rfl | h
      · exact ⟨fun h => h1 (.inl h), hp, fun h => h1 (.inr h), h2⟩
      · exact hn n h

theorem cleanStack_foldl {rooted : Bool} (l : List Str) (hl : ∀ p ∈ l, (47 : UInt8) ∉ p) {st : List Str} (h : CleanStack rooted st) :
    CleanStack rooted (l.foldl (cleanStep rooted) st) := by
  induction l generalizing st with
  | nil => exact h
  | cons p l ih => exact ih (fun q hq => hl q (by simp [hq])) (cleanStack_step h (hl p (by simp)))

theorem foldl_plain {rooted : Bool} (names : List Str) (hn : ∀ n ∈ names, PlainName n) (st : List Str) : names.foldl (cleanStep rooted) st = names.reverse ++ st := by
  induction names generalizing st with
  | nil => rfl
  | cons n names ih =>
    rw [List.foldl_cons, cleanStep_plain (hn n (by simp)), ih (fun m hm => hn m (by simp [hm]))]
    simp

theorem foldl_dots (k j : Nat) : (List.replicate k b!"..").foldl (cleanStep false) (List.replicate j b!"..") = List.replicate (k + j) b!".." := by
  induction k generalizing j with
  | zero => simp
  | succ k ih =>
    rw [List.replicate_succ, List.foldl_cons]
    have : cleanStep false (List.replicate j b!"..") b!".." = List.replicate (j + 1) b!".." := by
      cases j with
      | zero => rfl
      | succ j => rfl
    rw [this, ih]
    congr 1
    omega

/-- Cleaning the components of a clean path changes nothing. -/
theorem foldl_clean {rooted : Bool} {st : List Str} (h : CleanStack rooted st) : st.reverse.foldl (cleanStep rooted) [] = st := by
  obtain ⟨k, names, rfl, hk, hn⟩ := h
  rw [List.reverse_append, List.foldl_append, List.reverse_replicate]
  have h1 : (List.replicate k b!"..").foldl (cleanStep rooted) [] = List.replicate k b!".." := by
    cases rooted with
    | true => rw [hk rfl]; rfl
    | false => exact foldl_dots k 0
  rw [h1, foldl_plain _ (by simpa using hn), List.reverse_reverse]

theorem joinWith_eq (l : List Str) : joinWith 47 l = List.intercalate [47] l := by
  induction l with
  | nil => rfl
  | cons p ps ih =>
    cases ps with
    | nil => simp [joinWith, List.intercalate]
    | cons q qs =>
      rw [joinWith, ih]
      simp [List.intercalate, List.intersperse]

theorem splitOn_joinWith {l : List Str} (hne : l ≠ []) (h : ∀ p ∈ l, (47 : UInt8) ∉ p) : splitOn 47 (joinWith 47 l) = l := by
  rw [joinWith_eq]
  exact splitOn_intercalate hne h

theorem CleanStack.noSlash {rooted : Bool} {st : List Str} (h : CleanStack rooted st) : ∀ p ∈ st, (47 : UInt8) ∉ p := by
  obtain ⟨k, names, rfl, _, hn⟩ := h
  intro p hp
  rcases List.mem_append.1 hp with hp | hp
  · exact (hn p hp).noSlash
  · rw [(List.mem_replicate.1 hp).2]; decide

theorem CleanStack.nonempty {rooted : Bool} {st : List Str} (h : CleanStack rooted st) : ∀ p ∈ st, p ≠ [] := by
  obtain ⟨k, names, rfl, _, hn⟩ := h
  intro p hp
  rcases List.mem_append.1 hp with hp | hp
  · exact (hn p hp).nonempty
  · rw [(List.mem_replicate.1 hp).2]; decide

theorem joinWith_head {l : List Str} (hne : l ≠ []) (h1 : ∀ p ∈ l, p ≠ []) (h2 : ∀ p ∈ l, (47 : UInt8) ∉ p) : ∃ c r, joinWith 47 l = c :: r ∧ c ≠ 47 := by
  cases l with
  | nil => exact absurd rfl hne
  | cons p ps =>
    cases p with
    | nil => exact absurd rfl (h1 [] (by simp))
    | cons c r =>
      have hc : c ≠ 47 := fun hc => h2 (c :: r) (by simp) (by simp [hc])
      cases ps with
      | nil => exact ⟨c, r, rfl, hc⟩
      | cons q qs => exact ⟨c, _, rfl, hc⟩

/-- `filepath.Clean` of a clean path. -/
theorem cleanPath_idem (path : Str) : cleanPath (cleanPath path) = cleanPath path := by
  cases path with
  | nil => decide
  | cons c path =>
    have hst : CleanStack (decide (c = 47)) ((splitOn 47 (c :: path)).foldl (cleanStep (decide (c = 47))) []) :=
      cleanStack_foldl _ (splitOn_no_sep 47 _) ⟨0, [], rfl, fun _ => rfl, by simp⟩
    have e : cleanPath (c :: path) = if c = 47 then 47 :: joinWith 47 ((splitOn 47 (c :: path)).foldl (cleanStep (decide (c = 47))) []).reverse
        else if ((splitOn 47 (c :: path)).foldl (cleanStep (decide (c = 47))) []).reverse = [] then b!"."
        else joinWith 47 ((splitOn 47 (c :: path)).foldl (cleanStep (decide (c = 47))) []).reverse := rfl
    rw [e]
    generalize (splitOn 47 (c :: path)).foldl (cleanStep (decide (c = 47))) [] = st at hst
    have hns := hst.noSlash
    have hne := hst.nonempty
    by_cases hc : c = 47
    · rw [if_pos hc]
      have hc' : decide (c = 47) = true := by simp [hc]
      rw [hc'] at hst
      have h2 : (splitOn 47 (47 :: joinWith 47 st.reverse)).foldl (cleanStep true) [] = st := by
        have h3 : splitOn 47 (47 :: joinWith 47 st.reverse) = [] :: splitOn 47 (joinWith 47 st.reverse) := rfl
        rw [h3, List.foldl_cons]
        have h4 : cleanStep true [] [] = [] := rfl
        rw [h4]
        by_cases hs : st = []
        · subst hs; rfl
        · rw [splitOn_joinWith (by simpa using hs) (by simpa using hns), foldl_clean hst]
      have h3 : cleanPath (47 :: joinWith 47 st.reverse) = 47 :: joinWith 47 ((splitOn 47 (47 :: joinWith 47 st.reverse)).foldl (cleanStep true) []).reverse := rfl
      rw [h3, h2]
    · rw [if_neg hc]
      have hc' : decide (c = 47) = false := by simp [hc]
      rw [hc'] at hst
      by_cases hs : st.reverse = []
      · rw [if_pos hs]; decide
      · rw [if_neg hs]
        obtain ⟨c1, r1, h1, h2⟩ := joinWith_head hs (by simpa using hne) (by simpa using hns)
        have h3 : cleanPath (joinWith 47 st.reverse) = if ((splitOn 47 (joinWith 47 st.reverse)).foldl (cleanStep false) []).reverse = [] then b!"."
            else joinWith 47 ((splitOn 47 (joinWith 47 st.reverse)).foldl (cleanStep false) []).reverse := by
          rw [h1]
          unfold cleanPath
          simp [h2]
        rw [h3, splitOn_joinWith hs (by simpa using hns), foldl_clean hst, if_neg hs]

theorem joinPath_clean {a b : Str} (hb : b ≠ []) : cleanPath (joinPath a b) = joinPath a b := by
  unfold joinPath
  split
  · exact cleanPath_idem _
  · exact cleanPath_idem _

/-- A file in a folder that was itself joined: a slash between the two. -/
theorem joinPath_join {a n m : Str} (hn : PlainName n) (hm : PlainName m) : joinPath (joinPath a n) m = joinPath a n ++ b!"/" ++ m := by
  obtain ⟨D, hD, hj⟩ := joinPath_plain (joinPath a n)
  rw [hj m hm]
  rw [DirPrefix, joinPath_clean hn.nonempty] at hD
  obtain ⟨D', hD', hj'⟩ := joinPath_plain a
  have hplain := hj' n hn
  rcases hD with ⟨_, h⟩ | ⟨_, h⟩ | h
  · exfalso
    rw [hplain] at h
    rcases hD' with ⟨h1, _⟩ | ⟨h1, _⟩ | h1
    · rw [h1] at h; exact hn.notDot h
    · rw [h1] at h; exact absurd (congrArg List.head? h) (by simp)
    · have := congrArg List.length h
      rw [h1] at this
      have hl := List.length_pos_iff.2 hn.nonempty
      simp at this
      omega
  · exfalso
    rw [hplain] at h
    rcases hD' with ⟨h1, _⟩ | ⟨h1, _⟩ | h1
    · rw [h1] at h; exact hn.noSlash (by rw [show n = b!"/" from h]; decide)
    · rw [h1] at h
      exact hn.nonempty (List.append_cancel_left (show b!"/" ++ n = b!"/" ++ [] from h))
    · have := congrArg List.length h
      rw [h1] at this
      have hl := List.length_pos_iff.2 hn.nonempty
      simp at this
      omega
  · rw [h]

end Tuf
