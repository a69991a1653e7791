import Verif.Spec.TestSetup
import Verif.Props.SimulatorDump

/-! # Setting up tests (C147, C148) -/

namespace Tuf
open Tuf.Spec Tuf.Std

/-! ## C147: the root that clients of the simulator start with -/

section
variable {q : SimEnv} {h : Host}

theorem try_mkdir (path : Str) (w : World) : ∃ r w1, SM.try' (mkdirAll h path) w = (.ok r, w1) ∧ w1.fs = w.fs := by
  unfold SM.try' mkdirAll
  dsimp only
  split
  · next hx =>
    split at hx
    · cases hx; exact ⟨_, _, rfl, rfl⟩
    · cases hx
  · next hx =>
    split at hx
    · cases hx
    · cases hx; exact ⟨_, _, rfl, rfl⟩
  · next hx =>
    split at hx <;> cases hx

/-- C147: whatever goes wrong on the disk, if `InitMetadataDir` returns no error, then the root file has the first root of the simulator, all of it; so this is what `GetRootBytes` gives, if anything. -/
theorem C147_root {temp : Option Str} {e : Time} {w w' : World} {sim : Sim} {md tg : Str} (hi : initMetadataDir q h temp e w = (.ok (sim, md, tg, none), w')) :
    ∃ s d tmp, temp = some tmp ∧ Sim.new q e = .ok s ∧ sim = { s with localDir := tmp } ∧ md = tmp ++ b!"/metadata" ∧ tg = tmp ++ b!"/targets" ∧ sim.signedRoots[0]? = some d ∧
      w'.fs (md ++ b!"/root.json") = some d ∧ ∀ data w2, getRootBytes h md w' = (.ok data, w2) → data = d := by
  unfold initMetadataDir at hi
  cases temp with
  | none => cases hi
  | some tmp =>
    dsimp only at hi
    obtain ⟨r1, w1, a1, _⟩ := try_mkdir (h := h) (tmp ++ b!"/metadata") w
    obtain ⟨r2, w2, a2, _⟩ := try_mkdir (h := h) (tmp ++ b!"/targets") w1
    rw [SM.bind_ok a1, SM.bind_ok a2] at hi
    obtain ⟨s, w3, a3, hj⟩ := SM.bind_eq_ok.1 hi
    obtain ⟨a4, rfl⟩ : Sim.new q e = .ok s ∧ w3 = w2 := by
      unfold SM.lift at a3
      cases hx : Sim.new q e with
      | ok s' => rw [hx] at a3; cases a3; exact ⟨rfl, rfl⟩
      | err e' => rw [hx] at a3; cases a3
      | panic => rw [hx] at a3; cases a3
    obtain ⟨opened, w4, a5, hk⟩ := SM.bind_eq_ok.1 hj
    cases opened with
    | false => cases hk
    | true =>
      obtain ⟨d, w5, a6, hm⟩ := SM.bind_eq_ok.1 hk
      obtain ⟨a7, rfl⟩ : s.signedRoots[0]? = some d ∧ w5 = w4 := by
        unfold SM.lift at a6
        cases hx : s.signedRoots[0]? with
        | some d' => rw [hx] at a6; cases a6; exact ⟨rfl, rfl⟩
        | none => rw [hx] at a6; cases a6
      have a8 : w5 = w3.emit (.truncate (tmp ++ b!"/metadata" ++ b!"/root.json")) := by
        unfold createFile at a5
        split at a5 <;> cases a5
        rfl
      obtain ⟨r3, w6, a9, hl⟩ := SM.bind_eq_ok.1 hm
      have a10 : w6.fs (tmp ++ b!"/metadata" ++ b!"/root.json") = some d ∨ ∃ er, r3 = .error er := by
        unfold SM.try' writeCreated at a9
        dsimp only [if_true] at a9
        rw [if_pos rfl] at a9
        by_cases hn : h.writeCount w5.trace d.length < d.length
        · rw [if_pos hn] at a9
          cases a9
          exact .inr ⟨_, rfl⟩
        · rw [if_neg hn] at a9
          cases a9
          refine .inl ?_
          rw [List.take_of_length_le (by omega)]
          exact if_pos rfl
      cases r3 with
      | error er => cases hl
      | ok u =>
        rcases a10 with a10 | ⟨er, a10⟩
        · cases hl
          refine ⟨s, d, tmp, rfl, a4, rfl, rfl, rfl, a7, a10, fun data w2 hg => ?_⟩
          unfold getRootBytes readFile at hg
          dsimp only at hg
          by_cases hr : h.readFails w'.trace (tmp ++ b!"/metadata" ++ b!"/root.json") = true
          · rw [if_pos hr] at hg; cases hg
          · rw [if_neg hr, a10] at hg; cases hg; rfl
        · cases a10

/-- C147: with a disk that works, `InitMetadataDir` succeeds, and what `GetRootBytes` gives is accepted as the root to start with. -/
theorem C147_new {env : Env} (he : q.env = std env) (hq : FreshKeys q) {e : Time} (hc : CalendarTime e) (hd : GoodDisk h) (hread : ∀ tr p, h.readFails tr p = false) (tmp : Str) (w : World) :
    ∃ sim w' d w2, initMetadataDir q h (some tmp) e w = (.ok (sim, tmp ++ b!"/metadata", tmp ++ b!"/targets", none), w') ∧ sim.localDir = tmp ∧ sim.signedRoots = [d] ∧
      getRootBytes h (tmp ++ b!"/metadata") w' = (.ok d, w2) ∧ ∀ now, ∃ t, Trusted.new q.env now d = .ok t ∧ t.root.signed = readRoot sim.root.signed := by
  obtain ⟨mat, hk⟩ := simKeys he hq
  obtain ⟨s, h1, h2, h3, _⟩ := new_settled hk hc
  obtain ⟨l, l1, l2⟩ := h2.roots
  obtain ⟨p, hp1, hp2⟩ := l1.last
  obtain ⟨rfl⟩ : l = [p] := by
    match l, l2, hp1 with
    | [p'], _, hp1 => cases hp1; rfl
    | _ :: _ :: _, l2, _ => simp only [List.length_cons] at l2; omega
  obtain ⟨c1, c2, c3, c4⟩ := l1.chain.each 0 p rfl
  have hroots : s.signedRoots = [p.data] := l1.data
  obtain ⟨r1, w1, a1, _⟩ := try_mkdir (h := h) (tmp ++ b!"/metadata") w
  obtain ⟨r2, w2, a2, _⟩ := try_mkdir (h := h) (tmp ++ b!"/targets") w1
  have a3 : SM.lift (Sim.new q e) w2 = (.ok s, w2) := by unfold SM.lift; rw [h1]
  have a4 : createFile h (tmp ++ b!"/metadata" ++ b!"/root.json") w2 = (.ok true, w2.emit (.truncate (tmp ++ b!"/metadata" ++ b!"/root.json"))) := by
    unfold createFile
    rw [hd.open']
    rfl
  have a5 : ∀ w : World, SM.lift (Res.deref s.signedRoots[0]?) w = (.ok p.data, w) := by intro w; rw [hroots]; rfl
  have a6 : ∀ w : World, writeCreated h (tmp ++ b!"/metadata" ++ b!"/root.json") true p.data w = (.ok (), w.emit (.write (tmp ++ b!"/metadata" ++ b!"/root.json") p.data)) := by
    intro w
    unfold writeCreated
    have hn := hd.write w.trace p.data.length
    simp only [if_true]
    rw [List.take_of_length_le hn, if_neg (by omega)]
  let w3 := (w2.emit (.truncate (tmp ++ b!"/metadata" ++ b!"/root.json"))).emit (.write (tmp ++ b!"/metadata" ++ b!"/root.json") p.data)
  refine ⟨{ s with localDir := tmp }, w3, p.data, w3.emit (.read (tmp ++ b!"/metadata" ++ b!"/root.json") (some p.data)), ?_, rfl, hroots, ?_, fun now => ?_⟩
  · unfold initMetadataDir
    dsimp only
    rw [SM.bind_ok a1, SM.bind_ok a2, SM.bind_ok a3, SM.bind_ok a4, if_pos rfl, SM.bind_ok (a5 _), SM.bind_ok (SM.try_ok (a6 _))]
    rfl
  · unfold getRootBytes readFile
    dsimp only
    rw [hread, if_neg (by simp)]
    have : w3.fs (tmp ++ b!"/metadata" ++ b!"/root.json") = some p.data := if_pos rfl
    rw [this]
  · obtain ⟨t0, r1, r2, _⟩ := C86_root (std_laws env) c1 c2 c3 now
    rw [hp2] at r2
    exact ⟨t0, by rw [he]; exact r1, r2⟩

end

/-! ## C148: copies of repository files -/

section
variable {h : Host} {readDir : List Event → Str → Option (List Str)}

theorem slash_split {a b n m : Str} (hn : (47 : UInt8) ∉ n) (hm : (47 : UInt8) ∉ m) (he : a ++ b!"/" ++ n = b ++ b!"/" ++ m) : a = b ∧ n = m := by
  have h1 : n.reverse ++ (47 :: a.reverse) = m.reverse ++ (47 :: b.reverse) := by
    have := congrArg List.reverse he
    simpa using this
  have hs : ∀ (x y : Str) (c d : Str), (47 : UInt8) ∉ x → (47 : UInt8) ∉ y → x ++ 47 :: c = y ++ 47 :: d → x = y ∧ c = d := by
    intro x
    induction x with
    | nil =>
      intro y c d _ hy he
      cases y with
      | nil => exact ⟨rfl, by simpa using he⟩
      | cons z y =>
        injection he with h1 h2
        exact absurd (by rw [h1]; exact .head _) hy
    | cons z x ih =>
      intro y c d hx hy he
      cases y with
      | nil =>
        injection he with h1 h2
        exact absurd (by rw [h1]; exact .head _) hx
      | cons z' y =>
        injection he with h1 h2
        obtain ⟨h3, h4⟩ := ih y c d (fun h => hx (.tail _ h)) (fun h => hy (.tail _ h)) h2
        exact ⟨by rw [h1, h3], h4⟩
  obtain ⟨h2, h3⟩ := hs _ _ _ _ (by simpa using hn) (by simpa using hm) h1
  exact ⟨List.reverse_inj.1 h3, List.reverse_inj.1 h2⟩

/-- After the copying of files that have no slashes in their names, they are there; nothing else has changed. -/
theorem copyFiles_ok {a b : Str} : ∀ {names : List Str} {w w' : World}, (∀ n ∈ names, (47 : UInt8) ∉ n) → copyFiles h a b names w = (.ok (), w') →
    (∀ n ∈ names, ∃ d, w.fs (a ++ b!"/" ++ n) = some d ∧ w'.fs (b ++ b!"/" ++ n) = some d) ∧ ∀ p, (∀ n ∈ names, p ≠ b ++ b!"/" ++ n) ∨ (∃ n, (47 : UInt8) ∉ n ∧ p = a ++ b!"/" ++ n ∧ a = b) → w'.fs p = w.fs p
  | [], w, w', _, hc => by cases hc; exact ⟨by simp, fun _ _ => rfl⟩
  | name :: rest, w, w', hn, hc => by
    unfold copyFiles at hc
    obtain ⟨d, w1, h1, hc⟩ := SM.bind_eq_ok.1 hc
    obtain ⟨_, w2, h2, hc⟩ := SM.bind_eq_ok.1 hc
    obtain ⟨i1, i2⟩ := copyFiles_ok (fun n hm => hn n (.tail _ hm)) hc
    have f1 : w.fs (a ++ b!"/" ++ name) = some d ∧ w1.fs = w.fs := by
      unfold readFile at h1
      dsimp only at h1
      by_cases hr : h.readFails w.trace (a ++ b!"/" ++ name) = true
      · rw [if_pos hr] at h1; cases h1
      · rw [if_neg hr] at h1
        cases hx : w.fs (a ++ b!"/" ++ name) with
        | none => rw [hx] at h1; cases h1
        | some d' => rw [hx] at h1; cases h1; exact ⟨rfl, rfl⟩
    have f2 : w2.fs = w1.fs.put (b ++ b!"/" ++ name) (some d) := by
      unfold writeFile at h2
      split at h2
      · cases h2
      · dsimp only at h2
        split at h2
        · cases h2
        · next hle =>
          cases h2
          rw [List.take_of_length_le (by omega)]
          funext p
          show FS.put (FS.put _ _ _) _ _ p = _
          unfold FS.put
          split <;> rfl
    have f3 : ∀ p, w2.fs p = if p = b ++ b!"/" ++ name then some d else w.fs p := fun p => by rw [f2, f1.2]; rfl
    -- files to be copied are as before
    have f4 : ∀ n, (47 : UInt8) ∉ n → w2.fs (a ++ b!"/" ++ n) = w.fs (a ++ b!"/" ++ n) := by
      intro n hs
      rw [f3]
      split
      · next he =>
        obtain ⟨_, rfl⟩ := slash_split hs (hn name (.head _)) he
        exact f1.1.symm
      · rfl
    constructor
    · intro n hm
      by_cases hx : n ∈ rest
      · obtain ⟨d', j1, j2⟩ := i1 n hx
        rw [f4 n (hn n hm)] at j1
        exact ⟨d', j1, j2⟩
      · rcases List.mem_cons.1 hm with rfl | hm
        · refine ⟨d, f1.1, ?_⟩
          rw [i2 _ (.inl (fun n' hn' he => hx ((slash_split (hn n (.head _)) (hn n' (.tail _ hn')) he).2 ▸ hn'))), f3, if_pos rfl]
        · exact absurd hm hx
    · rintro p (hp | ⟨n, hs, rfl, hab⟩)
      · rw [i2 p (.inl fun n hm => hp n (.tail _ hm)), f3, if_neg (hp name (.head _))]
      · rw [i2 _ (.inr ⟨n, hs, rfl, hab⟩), f4 n hs]

/-- C148: after `Copy` every entry of the folder is in the other one, with the same content; all other files are as before. So, if there is an entry that cannot be read, say a folder, `Copy` fails. -/
theorem C148_copy (hdir : ∀ tr p names, readDir tr p = some names → ∀ n ∈ names, (47 : UInt8) ∉ n) {a b : Str} {w w' : World} (hc : copyDir h readDir a b w = (.ok (), w')) :
    ∃ names, readDir (w.emit (.mkdir b true)).trace a = some names ∧ (∀ n ∈ names, ∃ d, w.fs (a ++ b!"/" ++ n) = some d ∧ w'.fs (b ++ b!"/" ++ n) = some d) ∧
      ∀ p, (∀ n ∈ names, p ≠ b ++ b!"/" ++ n) → w'.fs p = w.fs p := by
  unfold copyDir at hc
  obtain ⟨_, w1, h1, hc⟩ := SM.bind_eq_ok.1 hc
  obtain ⟨names, w2, h2, hc⟩ := SM.bind_eq_ok.1 hc
  obtain rfl : w1 = w.emit (.mkdir b true) := by
    unfold mkdirAll at h1
    dsimp only at h1
    split at h1
    · next ho => cases h1; rw [ho]
    · cases h1
  obtain ⟨h3, rfl⟩ : readDir (w.emit (.mkdir b true)).trace a = some names ∧ w2 = w.emit (.mkdir b true) := by
    cases hx : readDir (w.emit (.mkdir b true)).trace a with
    | none => rw [hx] at h2; cases h2
    | some l => rw [hx] at h2; cases h2; exact ⟨rfl, rfl⟩
  obtain ⟨i1, i2⟩ := copyFiles_ok (hdir _ _ _ h3) hc
  exact ⟨names, h3, i1, fun p hp => i2 p (.inl hp)⟩

theorem absPath_fs {p a : Str} {w w' : World} (ha : absPath h p w = (.ok a, w')) : w' = w ∧ (p.head? = some 47 ∧ a = cleanPath p ∨ ∃ cwd, h.cwd w.trace = some cwd ∧ a = joinPath cwd p) := by
  unfold absPath at ha
  split at ha
  · next hp => cases ha; exact ⟨rfl, .inl ⟨hp, rfl⟩⟩
  · split at ha
    · next cwd hcwd => cases ha; exact ⟨rfl, .inr ⟨cwd, hcwd, rfl⟩⟩
    · cases ha

theorem below_append {t x n : Str} : Below t (t ++ (47 :: x) ++ b!"/" ++ n) := ⟨x ++ b!"/" ++ n, by simp⟩

/-- C148: after `SetupTestDirs` the folders have what is in the folders that were given, if those are not in the new temporary folder; outside of it no file has changed. -/
theorem C148_setup (hdir : ∀ tr p names, readDir tr p = some names → ∀ n ∈ names, (47 : UInt8) ∉ n) {temp : Option Str} {repo targets keys : Str} {w w' : World} {t rd td kd : Str}
    (hs : setupTestDirs h readDir temp repo targets keys w = (.ok (t, rd, td, kd), w')) :
    temp = some t ∧ rd = t ++ b!"/repository_data/repository" ∧ td = rd ++ b!"/targets" ∧ kd = t ++ b!"/keystore" ∧ (∀ p, ¬ Below t p → w'.fs p = w.fs p) ∧
      ∃ a1 a2 a3, AbsoluteOf h repo a1 ∧ AbsoluteOf h targets a2 ∧ AbsoluteOf h keys a3 ∧
        ((∀ a ∈ [a1, a2, a3], ∀ n, (47 : UInt8) ∉ n → ¬ Below t (a ++ b!"/" ++ n)) → Copied readDir w.fs w'.fs a1 rd ∧ Copied readDir w.fs w'.fs a2 td ∧ Copied readDir w.fs w'.fs a3 kd) := by
  unfold setupTestDirs at hs
  cases temp with
  | none => cases hs
  | some tmp =>
    dsimp only at hs
    obtain ⟨a1, x1, b1, hs⟩ := SM.bind_eq_ok.1 hs
    obtain ⟨_, w1, c1, hs⟩ := SM.bind_eq_ok.1 hs
    obtain ⟨a2, x2, b2, hs⟩ := SM.bind_eq_ok.1 hs
    obtain ⟨_, w2, c2, hs⟩ := SM.bind_eq_ok.1 hs
    obtain ⟨_, w3, c3, hs⟩ := SM.bind_eq_ok.1 hs
    obtain ⟨a3, x3, b3, hs⟩ := SM.bind_eq_ok.1 hs
    obtain ⟨_, w4, c4, hs⟩ := SM.bind_eq_ok.1 hs
    cases hs
    obtain ⟨q1, p1⟩ := absPath_fs b1
    obtain ⟨q2, p2⟩ := absPath_fs b2
    obtain ⟨q3, p3⟩ := absPath_fs b3
    rw [q1] at c1
    rw [q2] at c2
    rw [q3] at c4
    obtain ⟨n1, l1, i1, k1⟩ := C148_copy hdir c1
    obtain ⟨n2, l2, i2, k2⟩ := C148_copy hdir c2
    obtain ⟨n3, l3, i3, k3⟩ := C148_copy hdir c4
    have f3 : w3.fs = w2.fs := by
      unfold mkdirAll at c3
      dsimp only at c3
      split at c3
      · cases c3; rfl
      · cases c3
    have d1 : ∀ p, ¬ Below t p → w1.fs p = w.fs p := fun p hp => k1 p (fun n _ he => hp (he ▸ below_append))
    have d2 : ∀ p, ¬ Below t p → w2.fs p = w.fs p := fun p hp => (k2 p (fun n _ he => hp (he ▸ below_append))).trans (d1 p hp)
    have d3 : ∀ p, ¬ Below t p → w3.fs p = w.fs p := fun p hp => by rw [f3]; exact d2 p hp
    have d4 : ∀ p, ¬ Below t p → w'.fs p = w.fs p := fun p hp => (k3 p (fun n _ he => hp (he ▸ below_append))).trans (d3 p hp)
    refine ⟨rfl, rfl, by simp, rfl, d4, a1, a2, a3, p1.imp_right (fun ⟨c, h1, h2⟩ => ⟨_, c, h1, h2⟩), p2.imp_right (fun ⟨c, h1, h2⟩ => ⟨_, c, h1, h2⟩), p3.imp_right (fun ⟨c, h1, h2⟩ => ⟨_, c, h1, h2⟩), ?_⟩
    intro hout
    have ne : ∀ {x y n m : Str}, (47 : UInt8) ∉ n → (47 : UInt8) ∉ m → x ≠ y → t ++ x ++ b!"/" ++ n ≠ t ++ y ++ b!"/" ++ m := fun hn hm hxy he =>
      hxy (List.append_cancel_left (slash_split hn hm he).1)
    refine ⟨⟨_, n1, l1, fun n hn => ?_⟩, ⟨_, n2, l2, fun n hn => ?_⟩, ⟨_, n3, l3, fun n hn => ?_⟩⟩
    · obtain ⟨d, e1, e2⟩ := i1 n hn
      refine ⟨d, e1, ?_⟩
      rw [k3 _ (fun m hm => ne (hdir _ _ _ l1 n hn) (hdir _ _ _ l3 m hm) (by decide)), f3, k2 _ (fun m hm => ne (hdir _ _ _ l1 n hn) (hdir _ _ _ l2 m hm) (by decide))]
      exact e2
    · obtain ⟨d, e1, e2⟩ := i2 n hn
      rw [d1 _ (hout a2 (by simp) n (hdir _ _ _ l2 n hn))] at e1
      refine ⟨d, e1, ?_⟩
      rw [k3 _ (fun m hm => ne (x := b!"/repository_data/repository/targets") (hdir _ _ _ l2 n hn) (hdir _ _ _ l3 m hm) (by decide)), f3]
      exact e2
    · obtain ⟨d, e1, e2⟩ := i3 n hn
      rw [d3 _ (hout a3 (by simp) n (hdir _ _ _ l3 n hn))] at e1
      exact ⟨d, e1, e2⟩

end

end Tuf
