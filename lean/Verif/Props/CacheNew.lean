import Verif.Props.Cache
import Verif.Props.MultiDirs
import Verif.Props.Cli

/-!
# What `New` and `persistMetadata` leave for later sessions (C48, C79)
-/

namespace Tuf
open Spec Sample

/-! ## C79 -/

/-- C79 from the beginning: after `New` and a successful online `Refresh` with caching on, the four files in the cache parse to exactly the trusted metadata. -/
theorem C79_from_new {x : Ctx} (hu : x.cfg.unsafeLocalMode = false) (hd : x.cfg.disableLocalCache = false) {w w1 : World} {t0 : Trusted} {s' : St}
    (hn : newUpdater x w = (.ok t0, w1)) (h : refresh x ⟨t0, w1⟩ = (.ok (), s')) :
    (∃ d, s'.world.fs (joinPath x.cfg.localMetadataDir b!"root.json") = some d ∧ ParsesTo x.env d s'.trusted.root) ∧
    (∃ d ts, s'.world.fs (joinPath x.cfg.localMetadataDir b!"timestamp.json") = some d ∧ s'.trusted.timestamp = some ts ∧ ParsesTo x.env d ts) ∧
    (∃ d sn, s'.world.fs (joinPath x.cfg.localMetadataDir b!"snapshot.json") = some d ∧ s'.trusted.snapshot = some sn ∧ ParsesTo x.env d sn) ∧
    (∃ d tg, s'.world.fs (joinPath x.cfg.localMetadataDir b!"targets.json") = some d ∧ s'.trusted.targets.get? b!"targets" = some tg ∧ ParsesTo x.env d tg) := by
  obtain ⟨root, hp, _, _, ht⟩ := C78_new.1 (newUpdater_root hn)
  obtain ⟨h1, h2, h3, h4⟩ := C79_cache_mirrors hu hd (s := ⟨t0, w1⟩) (by rw [ht]) h
  refine ⟨h4 ⟨x.cfg.localTrustedRoot, ?_, by rw [ht]; exact hp⟩, h1, h2, h3⟩
  have := (newUpdater_files hn).1 hd
  rw [← (cacheFile x).2.2.2, C48_top_level x ROOT (by decide)]
  exact this

/-! ## C48 -/

/-- C48: what `persistMetadata` stored for a role with a safe name (letters, digits, `-_.~`, other than `.` and `..`) is what a later session with the same directory reads for that role,
as long as the file is not touched. Missing: other names (`C48_false`). -/
theorem C48_read_back_partial {x y : Ctx} (hdir : y.cfg.localMetadataDir = x.cfg.localMetadataDir) (hd : x.cfg.disableLocalCache = false) {role : Str}
    (hr : ∀ c ∈ role, unreserved c = true) (hn : PlainName role) {data : Bytes} {w w1 w2 : World} (hp : persistMetadata x role data w = (.ok (), w1))
    (hf : ∀ file, file = joinPath x.cfg.localMetadataDir (role ++ b!".json") → w2.fs file = w1.fs file ∧ y.host.readFails w2.trace file = false) :
    ∃ w3, loadLocalMetadata y role w2 = (.ok data, w3) ∧ w3.fs = w2.fs := by
  have e1 : persistPath x.cfg role = joinPath x.cfg.localMetadataDir (role ++ b!".json") := by unfold persistPath; rw [queryEscape_unreserved hr]
  have e2 : localPath y.cfg role = persistPath x.cfg role := by
    rw [← C48_found_again_partial x hr hn]; unfold localPath; rw [hdir]
  obtain ⟨f1, f2⟩ := hf _ e1
  unfold loadLocalMetadata
  rw [e2]
  refine ⟨w2.emit (.read (persistPath x.cfg role) (some data)), ?_, rfl⟩
  have f3 := f1.trans (persist_ok hd hp)
  unfold readFile
  simp [f2, f3]

/-- The cases of `C48_read_back_partial`: a delegated role is stored and read back in a later session. -/
example : ((do persistMetadata ctx b!"role-1" [5, 6]; loadLocalMetadata ctx b!"role-1") { fs := disk [] }).1 = .ok [5, 6] := by decide +kernel

/-- C48 is false for other names: what was stored for the role `a/b` is not found for it, but for another role, `a%2Fb`. -/
theorem C48_false_confused : ((do persistMetadata ctx b!"a/b" [5, 6]; loadLocalMetadata ctx b!"a/b") { fs := disk [] }).1 = .err ioErr ∧
    ((do persistMetadata ctx b!"a/b" [5, 6]; loadLocalMetadata ctx b!"a%2Fb") { fs := disk [] }).1 = .ok [5, 6] := by decide +kernel

/-- The length of the components with a slash each. -/
def weight (st : List Str) : Nat := (st.map (fun p => p.length + 1)).sum

theorem weight_cons (p : Str) (st : List Str) : weight (p :: st) = p.length + 1 + weight st := by simp [weight]

theorem weight_splitOn (s : Str) : weight (splitOn 47 s) = s.length + 1 := by
  induction s with
  | nil => rfl
  | cons c r ih =>
    unfold splitOn
    split
    · rw [weight_cons, ih]; simp; omega
    · cases h : splitOn 47 r with
      | nil => exact absurd h (splitOn_ne_nil 47 r)
      | cons p ps =>
        rw [h, weight_cons] at ih
        dsimp only
        rw [weight_cons, List.length_cons, List.length_cons]
        omega

theorem weight_step (rooted : Bool) (st : List Str) (p : Str) : weight (cleanStep rooted st p) ≤ weight st + (p.length + 1) := by
  unfold cleanStep
  split
  · omega
  · split
    · cases st with
      | nil =>
        dsimp only
        split
        · simp [weight]
        · rw [weight_cons]; omega
      | cons q rest =>
        dsimp only
        split
        · rw [weight_cons]; omega
        · rw [weight_cons]; omega
    · rw [weight_cons]; omega

theorem weight_foldl (rooted : Bool) (l st : List Str) : weight (l.foldl (cleanStep rooted) st) ≤ weight st + weight l := by
  induction l generalizing st with
  | nil => simp [weight]
  | cons p l ih =>
    rw [List.foldl_cons, weight_cons]
    have := ih (cleanStep rooted st p)
    have := weight_step rooted st p
    omega

theorem length_joinWith (st : List Str) : (joinWith 47 st).length = weight st - 1 := by
  induction st with
  | nil => rfl
  | cons p ps ih =>
    cases ps with
    | nil => simp [joinWith, weight]
    | cons q qs =>
      rw [joinWith, weight_cons, List.length_append, List.length_cons, ih, weight_cons]
      omega

theorem weight_reverse (st : List Str) : weight st.reverse = weight st := by
  unfold weight
  rw [List.map_reverse, List.sum_reverse]

/-- Joining a path to a directory does not add more than its length to what stands before the names of files. -/
theorem length_joinPath {dir D role : Str} (hD : ∀ name, PlainName name → joinPath dir name = D ++ name) (hr : role ≠ []) : (joinPath dir role).length ≤ D.length + role.length := by
  have ha := hD b!"a" ⟨by decide, by decide, by decide, by decide⟩
  have ha := congrArg List.length ha
  cases dir with
  | nil =>
    have : D.length = 0 := by
      have e : (joinPath [] b!"a").length = 1 := by decide
      rw [e] at ha
      simpa using ha
    unfold joinPath
    rw [if_neg (by simp), if_pos hr]
    cases role with
    | nil => exact absurd rfl hr
    | cons c r =>
      unfold cleanPath
      dsimp only
      by_cases hc : c = 47
      · have w := weight_foldl true (splitOn 47 r) []
        rw [weight_splitOn] at w
        have e : (splitOn 47 (c :: r)).foldl (cleanStep (decide (c = 47))) [] = (splitOn 47 r).foldl (cleanStep true) [] := by
          rw [show splitOn 47 (c :: r) = [] :: splitOn 47 r by rw [splitOn, if_pos hc]]
          rw [List.foldl_cons, show decide (c = 47) = true by simpa using hc]
          rfl
        rw [e, if_pos (by simpa using hc), List.length_cons, length_joinWith, weight_reverse, List.length_cons]
        simp [weight] at w ⊢
        omega
      · have w := weight_foldl (decide (c = 47)) (splitOn 47 (c :: r)) []
        rw [weight_splitOn] at w
        rw [if_neg (by simpa using hc)]
        split
        · simp only [List.length_cons, List.length_nil]; omega
        · rw [length_joinWith, weight_reverse]
          simp [weight] at w ⊢
          omega
  | cons c d =>
    unfold joinPath at ha ⊢
    rw [if_pos (by simp)] at ha ⊢
    rw [List.cons_append] at ha ⊢
    unfold cleanPath at ha ⊢
    dsimp only at ha ⊢
    rw [← List.cons_append, splitOn_append_sep, List.foldl_append] at ha ⊢
    generalize hst : (splitOn 47 (c :: d)).foldl (cleanStep (decide (c = 47))) [] = st at ha ⊢
    have w := weight_foldl (decide (c = 47)) (splitOn 47 role) st
    rw [weight_splitOn] at w
    have e : (splitOn 47 b!"a").foldl (cleanStep (decide (c = 47))) st = b!"a" :: st := rfl
    rw [e] at ha
    have hl : 0 < role.length := List.length_pos_iff.2 hr
    by_cases hc : c = 47
    · rw [if_pos (by simpa using hc), List.length_cons, length_joinWith, weight_reverse] at ha ⊢
      rw [weight_cons] at ha
      simp at ha
      omega
    · rw [if_neg (by simpa using hc), if_neg (by simp), length_joinWith, weight_reverse, weight_cons] at ha
      rw [if_neg (by simpa using hc)]
      simp at ha
      split
      · simp; omega
      · rw [length_joinWith, weight_reverse]; omega

theorem length_queryEscape (s : Str) : s.length ≤ (queryEscape s).length ∧ ((47 : UInt8) ∈ s → s.length < (queryEscape s).length) := by
  induction s with
  | nil => simp
  | cons c r ih =>
    unfold queryEscape
    split
    · next hc =>
      refine ⟨by simpa using ih.1, ?_⟩
      intro h
      rcases List.mem_cons.1 h with h | h
      · rw [← h] at hc; exact absurd hc (by decide)
      · simpa using ih.2 h
    · split
      · next hc =>
        refine ⟨by simpa using ih.1, ?_⟩
        intro h
        rcases List.mem_cons.1 h with h | h
        · rw [← h] at hc; exact absurd hc (by decide)
        · simpa using ih.2 h
      · have := ih.1
        simp only [List.length_cons]
        exact ⟨by omega, fun _ => by omega⟩

theorem queryEscape_fixed {s : Str} (h : queryEscape s = s) : ∀ c ∈ s, unreserved c = true := by
  induction s with
  | nil => simp
  | cons c r ih =>
    unfold queryEscape at h
    split at h
    · next hc =>
      cases hr : r with
      | _ =>
        have hh := (List.cons.inj h).2
        intro d hd
        rw [← hr] at hd
        rcases List.mem_cons.1 hd with rfl | hd
        · exact hc
        · exact ih hh d hd
    · split at h
      · next h1 hc => exact absurd (List.cons.inj h).1 (by rw [hc]; decide)
      · have := congrArg List.length h
        have := (length_queryEscape r).1
        simp only [List.length_cons] at *
        omega

/-- C48 is false for all other names, in every directory: a role whose name has a character that is escaped is read from another file than it is written to. -/
theorem C48_false_always (cfg : Cfg) {role : Str} {c : UInt8} (hc : c ∈ role) (hu : unreserved c = false) : localPath cfg role ≠ persistPath cfg role := by
  intro he
  obtain ⟨D, _, h2⟩ := joinPath_plain cfg.localMetadataDir
  have hne : role ≠ [] := List.ne_nil_of_mem hc
  have hp : persistPath cfg role = D ++ (queryEscape role ++ b!".json") := h2 _ (plainName_json role)
  unfold localPath at he
  rw [hp, ← List.append_assoc] at he
  have he := List.append_cancel_right he
  by_cases hs : (47 : UInt8) ∈ role
  · have l1 := length_joinPath h2 hne
    have l2 := (length_queryEscape role).2 hs
    rw [he, List.length_append] at l1
    omega
  · have hpl : PlainName role := ⟨hne, hs, by rintro rfl; simp at hc; rw [hc] at hu; exact absurd hu (by decide), by rintro rfl; simp at hc; rw [hc] at hu; exact absurd hu (by decide)⟩
    rw [h2 _ hpl] at he
    have := queryEscape_fixed (List.append_cancel_left he).symm c hc
    rw [hu] at this
    cases this

/-- A name that is read from another file. -/
example : (32 : UInt8) ∈ b!"a b" ∧ unreserved 32 = false := by decide

end Tuf
