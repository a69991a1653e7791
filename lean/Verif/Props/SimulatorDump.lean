import Verif.Spec.SimulatorDump
import Verif.Props.Simulator
import Verif.Props.Offline
import Verif.Props.MultiDirs
import Verif.Props.Cli

/-! # The dump of the repository simulator (C146) -/

namespace Tuf
open Tuf.Spec Tuf.Std

section
variable {q : SimEnv} {h : Host}

theorem afterFetches_same {s s1 : Sim} (ha : AfterFetches q s s1) : Same s s1 := by
  induction ha with
  | start => exact .refl s
  | fetch role v _ ih => exact ih.trans (fetch_same q role v _)
  | iterated n _ ih => exact ih.trans ⟨rfl, rfl, rfl, rfl, rfl, rfl, rfl, rfl, ⟨rfl, rfl⟩, ⟨rfl, rfl⟩, ⟨rfl, rfl⟩, rfl⟩

theorem _root_.Tuf.Spec.AfterFetches.trans {a b c : Sim} (h1 : AfterFetches q a b) (h2 : AfterFetches q b c) : AfterFetches q a c := by
  induction h2 with
  | start => exact h1
  | fetch role v _ ih => exact .fetch role v ih
  | iterated n _ ih => exact .iterated n ih

theorem _root_.Tuf.Spec.Fetched.earlier {a b : Sim} (h1 : AfterFetches q a b) {role : Str} {v : Int} {data : Bytes} (h2 : Fetched q b role v data) : Fetched q a role v data := by
  obtain ⟨s1, h3, h4⟩ := h2
  exact ⟨s1, h1.trans h3, h4⟩

/-! ## Names of files -/

theorem pathEscape_cons (c : UInt8) (r : Str) : pathEscape (c :: r) = pathEscape [c] ++ pathEscape r := escapeBy_append _ [c] r

theorem pathEscape_byte : ∀ c : Fin 256, (47 : UInt8) ∉ pathEscape [UInt8.ofNat c] ∧ pathEscape [UInt8.ofNat c] ≠ [] ∧
    (pathEscape [UInt8.ofNat c]).length = (if (pathEscape [UInt8.ofNat c]).head? = some 37 then 3 else 1) ∧
    (match pathEscape [UInt8.ofNat c] with | [d] => d | [_, a, b] => UInt8.ofNat ((hexVal a).getD 0 * 16 + (hexVal b).getD 0) | _ => 0) = UInt8.ofNat c := by
  decide +kernel

theorem pathEscape_noSlash (s : Str) : (47 : UInt8) ∉ pathEscape s := by
  induction s with
  | nil => simp [pathEscape, escapeBy]
  | cons c r ih =>
    rw [pathEscape_cons]
    intro hm
    rcases List.mem_append.1 hm with hm | hm
    · have := (pathEscape_byte ⟨c.toNat, c.toNat_lt⟩).1
      rw [ofNat_toNat'] at this
      exact this hm
    · exact ih hm

theorem pathEscape_prefix {c d : UInt8} (hp : pathEscape [c] <+: pathEscape [d]) : c = d := by
  have hc := pathEscape_byte ⟨c.toNat, c.toNat_lt⟩
  have hd := pathEscape_byte ⟨d.toNat, d.toNat_lt⟩
  rw [ofNat_toNat'] at hc hd
  have hh : (pathEscape [c]).head? = (pathEscape [d]).head? := by
    obtain ⟨l, hl⟩ := hp
    rw [← hl]
    cases hx : pathEscape [c] with
    | nil => exact absurd hx hc.2.1
    | cons a b => rfl
  have hlen : (pathEscape [c]).length = (pathEscape [d]).length := by rw [hc.2.2.1, hd.2.2.1, hh]
  have heq : pathEscape [c] = pathEscape [d] := List.IsPrefix.eq_of_length hp hlen
  rw [← hc.2.2.2, ← hd.2.2.2, heq]

theorem pathEscape_inj {a b : Str} (he : pathEscape a = pathEscape b) : a = b := by
  induction a generalizing b with
  | nil => exact (escapeBy_nil he.symm).symm
  | cons c r ih =>
    cases b with
    | nil => exact escapeBy_nil he
    | cons d s =>
      rw [pathEscape_cons c, pathEscape_cons d] at he
      have hcd : c = d := by
        rcases List.append_eq_append_iff.1 he with ⟨l, h1, _⟩ | ⟨l, h1, _⟩
        · exact pathEscape_prefix ⟨l, h1.symm⟩
        · exact (pathEscape_prefix ⟨l, h1.symm⟩).symm
      subst hcd
      rw [ih (List.append_cancel_left he)]

theorem pathEscape_plain {s : Str} (hs : ∀ c ∈ s, unreserved c = true) : pathEscape s = s :=
  escapeBy_kept fun c hc => by rw [hs c hc]; rfl

theorem plain_json {name : Str} (hn : (47 : UInt8) ∉ name) : PlainName (name ++ b!".json") where
  nonempty := by simp
  noSlash := by
    intro hm
    rcases List.mem_append.1 hm with hm | hm
    · exact hn hm
    · exact absurd hm (by decide)
  notDot := by
    intro he
    have := congrArg List.length he
    simp at this
  notDotDot := by
    intro he
    have := congrArg List.length he
    simp at this

theorem joinPath_json {dir a b : Str} (ha : (47 : UInt8) ∉ a) (hb : (47 : UInt8) ∉ b) (he : joinPath dir (a ++ b!".json") = joinPath dir (b ++ b!".json")) : a = b := by
  obtain ⟨D, _, h2⟩ := joinPath_plain dir
  rw [h2 _ (plain_json ha), h2 _ (plain_json hb)] at he
  exact json_inj (List.append_cancel_left he)

/-! ## The loops -/

theorem dumpFile_run (hd : GoodDisk h) {path role : Str} {v : Int} {st : DumpSt} (hp : (Sim.fetchMetadata q role v st.sim).1 ≠ .panic) :
    ∃ data st', Sim.dumpFile q h path role v st = (.ok (), st') ∧ st'.sim = (Sim.fetchMetadata q role v st.sim).2 ∧
      ((Sim.fetchMetadata q role v st.sim).1 = .ok data ∨ ((∃ e, (Sim.fetchMetadata q role v st.sim).1 = .err e) ∧ data = [])) ∧ st'.world.fs = st.world.fs.put path (some data) := by
  have hc : onDumpWorld (createFile h path) st = (.ok true, { st with world := st.world.emit (.truncate path) }) := by
    unfold onDumpWorld createFile
    rw [hd.open']
    rfl
  have hw : ∀ (st1 : DumpSt) (data : Bytes), onDumpWorld (writeCreated h path true data) st1 = (.ok (), { st1 with world := st1.world.emit (.write path data) }) := by
    intro st1 data
    unfold onDumpWorld writeCreated
    have hn := hd.write st1.world.trace data.length
    simp only [if_true]
    rw [List.take_of_length_le hn, if_neg (by omega)]
  have hf : ∀ (st1 : DumpSt) (data : Bytes), st1.world = st.world.emit (.truncate path) → (st1.world.emit (.write path data)).fs = st.world.fs.put path (some data) := by
    intro st1 data h1
    rw [h1]
    funext p
    show FS.put (FS.put _ _ _) _ _ p = _
    unfold FS.put
    split <;> rfl
  unfold Sim.dumpFile
  rw [SM.bind_ok hc]
  rcases hr : Sim.fetchMetadata q role v st.sim with ⟨r, sim'⟩
  rw [hr] at hp
  cases r with
  | panic => exact absurd rfl hp
  | ok data =>
    have h1 : SM.try' (onSim (Sim.fetchMetadata q role v)) { st with world := st.world.emit (.truncate path) } = (.ok (.ok data), { st with sim := sim', world := st.world.emit (.truncate path) }) := by
      unfold SM.try' onSim
      rw [hr]
    rw [SM.bind_ok h1, SM.bind_ok (SM.try_ok (hw _ data))]
    exact ⟨data, _, rfl, rfl, .inl rfl, hf _ _ rfl⟩
  | err e =>
    have h1 : SM.try' (onSim (Sim.fetchMetadata q role v)) { st with world := st.world.emit (.truncate path) } = (.ok (.error e), { st with sim := sim', world := st.world.emit (.truncate path) }) := by
      unfold SM.try' onSim
      rw [hr]
    rw [SM.bind_ok h1, SM.bind_ok (SM.try_ok (hw _ []))]
    exact ⟨[], _, rfl, rfl, .inr ⟨⟨e, rfl⟩, rfl⟩, hf _ _ rfl⟩

/-- After a loop every file that it made has what was fetched for a role with this file; other files are as before. -/
theorem dumpFiles_run (hd : GoodDisk h) (dir : Str) : ∀ (jobs : List (Str × Str × Int)) (st : DumpSt),
    (∀ j ∈ jobs, ∀ s1, AfterFetches q st.sim s1 → (Sim.fetchMetadata q j.2.1 j.2.2 s1).1 ≠ .panic) →
    ∃ st', Sim.dumpFiles q h dir jobs st = (.ok (), st') ∧ AfterFetches q st.sim st'.sim ∧ (∀ p, (∀ j ∈ jobs, joinPath dir j.1 ≠ p) → st'.world.fs p = st.world.fs p) ∧
      ∀ j ∈ jobs, ∃ j' ∈ jobs, joinPath dir j'.1 = joinPath dir j.1 ∧ ∃ data, Fetched q st.sim j'.2.1 j'.2.2 data ∧ st'.world.fs (joinPath dir j.1) = some data
  | [], st, _ => ⟨st, rfl, .start, fun _ _ => rfl, fun j hj => by cases hj⟩
  | (name, role, v) :: rest, st, hp => by
    obtain ⟨data, st1, r1, r2, r3, r4⟩ := dumpFile_run (path := joinPath dir name) hd (hp _ (.head _) _ .start)
    have ha : AfterFetches q st.sim st1.sim := by rw [r2]; exact .fetch _ _ .start
    obtain ⟨st2, i1, i2, i3, i4⟩ := dumpFiles_run hd dir rest st1 (fun j hj s1 hs => hp j (.tail _ hj) s1 (ha.trans hs))
    refine ⟨st2, by unfold Sim.dumpFiles; rw [SM.bind_ok r1]; exact i1, ha.trans i2, ?_, ?_⟩
    · intro p hpp
      rw [i3 p (fun j hj => hpp j (.tail _ hj)), r4]
      exact if_neg (hpp _ (.head _)).symm
    · have later : ∀ j ∈ rest, ∃ j' ∈ (name, role, v) :: rest, joinPath dir j'.1 = joinPath dir j.1 ∧ ∃ data, Fetched q st.sim j'.2.1 j'.2.2 data ∧ st2.world.fs (joinPath dir j.1) = some data := by
        intro j hj
        obtain ⟨j', k1, k2, d, k3, k4⟩ := i4 j hj
        exact ⟨j', .tail _ k1, k2, d, k3.earlier ha, k4⟩
      intro j hj
      rcases List.mem_cons.1 hj with rfl | hj
      · by_cases hx : ∃ j ∈ rest, joinPath dir j.1 = joinPath dir name
        · obtain ⟨j, hj, hx⟩ := hx
          have := later j hj
          rw [hx] at this
          exact this
        · refine ⟨_, .head _, rfl, data, ⟨_, .start, r3⟩, ?_⟩
          rw [i3 _ (fun j hj he => hx ⟨j, hj, he⟩), r4]
          exact if_pos rfl
      · exact later j hj

/-- The folder of the next dump. -/
def dumpDirOf (temp : Str) (st : DumpSt) : Str := joinPath (if st.dumpDir = [] then temp else st.dumpDir) (formatInt 10 (wrap64 (st.dumpVersion + 1)))

theorem root_noSlash (v : Int) : (47 : UInt8) ∉ formatInt 10 v ++ b!".root" := by
  intro hm
  rcases List.mem_append.1 hm with hm | hm
  · rcases formatInt_mem hm with h1 | h1
    · exact absurd h1 (by decide)
    · exact absurd h1.1 (by decide)
  · exact absurd hm (by decide)

theorem root_plain (v : Int) : pathEscape (formatInt 10 v ++ b!".root") = formatInt 10 v ++ b!".root" := by
  refine pathEscape_plain fun c hc => ?_
  rcases List.mem_append.1 hc with hm | hm
  · unfold unreserved
    rcases formatInt_mem hm with h1 | h1
    · rw [h1]; rfl
    · simp [h1.1, h1.2]
  · clear hc
    revert hm
    revert c
    decide

theorem root_not_top {v : Int} {role : Str} (hr : role ∈ [TIMESTAMP, SNAPSHOT, TARGETS]) : role ≠ formatInt 10 v ++ b!".root" := by
  intro he
  have hm : (46 : UInt8) ∈ role := by rw [he]; simp
  clear he
  revert role
  decide

theorem top_noSlash {role : Str} (hr : role ∈ [TIMESTAMP, SNAPSHOT, TARGETS]) : (47 : UInt8) ∉ role ∧ pathEscape role = role := by
  revert role
  decide +kernel

/-- What a dump leaves. -/
theorem dump_run (hd : GoodDisk h) {temp : Str} {st : DumpSt} (hnr : ∀ role ∈ st.sim.delegates.map Prod.fst, role ∉ [ROOT, TIMESTAMP, SNAPSHOT, TARGETS])
    (hp : ∀ role ∈ [TIMESTAMP, SNAPSHOT, TARGETS] ++ st.sim.delegates.map Prod.fst, ∀ s1, AfterFetches q st.sim s1 → (Sim.fetchMetadata q role (-1) s1).1 ≠ .panic) :
    ∃ st', Sim.dump q h temp st = (.ok (), st') ∧ AfterFetches q st.sim st'.sim ∧
      (∀ (i : Nat) data, st.sim.signedRoots[i]? = some data → formatInt 10 ((i : Int) + 1) ++ b!".root" ∉ st.sim.delegates.map Prod.fst →
        st'.world.fs (joinPath (dumpDirOf temp st) (formatInt 10 ((i : Int) + 1) ++ b!".root.json")) = some data) ∧
      (∀ role ∈ [TIMESTAMP, SNAPSHOT, TARGETS], ∃ data, Fetched q st.sim role (-1) data ∧ st'.world.fs (joinPath (dumpDirOf temp st) (role ++ b!".json")) = some data) ∧
      (∀ role ∈ st.sim.delegates.map Prod.fst, ∃ data, Fetched q st.sim role (-1) data ∧ st'.world.fs (joinPath (dumpDirOf temp st) (pathEscape role ++ b!".json")) = some data) := by
  let st1 : DumpSt := { st with dumpDir := if st.dumpDir = [] then temp else st.dumpDir, dumpVersion := wrap64 (st.dumpVersion + 1) }
  have h1 : Sim.dumpFolder temp st = (.ok (dumpDirOf temp st), st1) := rfl
  obtain ⟨r2, st2, h2, e2, f2⟩ : ∃ r st2, SM.try' (onDumpWorld (mkdirAll h (dumpDirOf temp st))) st1 = (.ok r, st2) ∧ st2.sim = st.sim ∧ st2.world.fs = st.world.fs := by
    unfold SM.try' onDumpWorld mkdirAll
    dsimp only
    split
    · next hx =>
      split at hx
      · cases hx; exact ⟨_, _, rfl, rfl, rfl⟩
      · cases hx
    · next hx =>
      split at hx
      · cases hx
      · cases hx; exact ⟨_, _, rfl, rfl, rfl⟩
    · next hx =>
      split at hx <;> cases hx
  have h3 : onSim (Sim.get (fun s => s.signedRoots.length)) st2 = (.ok st.sim.signedRoots.length, st2) := by
    show (Res.ok st2.sim.signedRoots.length, st2) = _
    rw [e2]
  have rootFetch : ∀ {i : Nat} {s1 : Sim}, i < st.sim.signedRoots.length → Same st.sim s1 → (Sim.fetchMetadata q ROOT ((i : Int) + 1) s1).1 = Res.ofOption (.other "") st.sim.signedRoots[i]? := by
    intro i s1 hi hs
    rw [List.getElem?_eq_getElem hi]
    exact fetch_root (by rw [hs.signedRoots]; exact List.getElem?_eq_getElem hi)
  obtain ⟨st3, h4, a3, k3, w3⟩ := dumpFiles_run (q := q) hd (dumpDirOf temp st) ((List.range st.sim.signedRoots.length).map (fun (i : Nat) => (formatInt 10 ((i : Int) + 1) ++ b!".root.json", ROOT, (i : Int) + 1))) st2 (by
    intro j hj s1 hs
    obtain ⟨i, hi, rfl⟩ := List.mem_map.1 hj
    rw [e2] at hs
    rw [rootFetch (List.mem_range.1 hi) (afterFetches_same hs), List.getElem?_eq_getElem (List.mem_range.1 hi)]
    intro hx
    cases hx)
  rw [e2] at a3 w3
  obtain ⟨st4, h5, a4, k4, w4⟩ := dumpFiles_run (q := q) hd (dumpDirOf temp st) ([TIMESTAMP, SNAPSHOT, TARGETS].map (fun role => (role ++ b!".json", role, -1))) st3 (by
    intro j hj s1 hs
    obtain ⟨role, hr, rfl⟩ := List.mem_map.1 hj
    exact hp role (List.mem_append_left _ hr) s1 (a3.trans hs))
  have a4' := a3.trans a4
  have hdel : st4.sim.delegates = st.sim.delegates := (afterFetches_same a4').delegates
  obtain ⟨roles, p5, i5⟩ := iterate_eq q (st4.sim.delegates.map Prod.fst) st4.sim
  have h6 : onSim (do Sim.iterate q (← Sim.get (fun s => s.delegates.map Prod.fst))) st4 = (.ok roles, { st4 with sim := { st4.sim with iterations := st4.sim.iterations + 1 } }) := by
    unfold onSim
    rw [get_bind, i5]
  have mem5 : ∀ role, role ∈ roles ↔ role ∈ st.sim.delegates.map Prod.fst := fun role => by rw [p5.mem_iff, hdel]
  have a5 : AfterFetches q st.sim { st4.sim with iterations := st4.sim.iterations + 1 } := .iterated _ a4'
  obtain ⟨st5, h7, a6, k6, w6⟩ := dumpFiles_run (q := q) hd (dumpDirOf temp st) (roles.map (fun role => (pathEscape role ++ b!".json", role, -1)))
    { st4 with sim := { st4.sim with iterations := st4.sim.iterations + 1 } } (by
    intro j hj s1 hs
    obtain ⟨role, hr, rfl⟩ := List.mem_map.1 hj
    exact hp role (List.mem_append_right _ ((mem5 role).1 hr)) s1 (a5.trans hs))
  have hroot : ∀ v : Int, formatInt 10 v ++ b!".root.json" = (formatInt 10 v ++ b!".root") ++ b!".json" := fun v => by simp
  refine ⟨st5, ?_, a5.trans a6, ?_, ?_, ?_⟩
  · unfold Sim.dump
    rw [SM.bind_ok h1, SM.bind_ok h2, SM.bind_ok h3, SM.bind_ok h4, SM.bind_ok h5, SM.bind_ok h6]
    exact h7
  · intro i data hi hno
    have hlt := (List.getElem?_eq_some_iff.1 hi).1
    rw [k6, k4]
    · obtain ⟨j', m1, m2, d, m3, m4⟩ := w3 (formatInt 10 ((i : Int) + 1) ++ b!".root.json", ROOT, (i : Int) + 1) (List.mem_map.2 ⟨i, List.mem_range.2 hlt, rfl⟩)
      obtain ⟨i', hi', rfl⟩ := List.mem_map.1 m1
      dsimp only at m2 m3
      rw [hroot, hroot] at m2
      have := formatInt_inj (List.append_cancel_right (joinPath_json (root_noSlash _) (root_noSlash _) m2))
      obtain rfl : i' = i := by omega
      obtain ⟨s1, m5, m6⟩ := m3
      rw [rootFetch hlt (afterFetches_same m5), hi] at m6
      rcases m6 with m6 | ⟨⟨e, m6⟩, _⟩
      · cases m6; exact m4
      · cases m6
    · intro j hj he
      obtain ⟨role, hr, rfl⟩ := List.mem_map.1 hj
      dsimp only at he
      rw [hroot] at he
      exact root_not_top hr (joinPath_json (top_noSlash hr).1 (root_noSlash _) he)
    · intro j hj he
      obtain ⟨role, hr, rfl⟩ := List.mem_map.1 hj
      dsimp only at he
      rw [hroot] at he
      have := joinPath_json (pathEscape_noSlash _) (root_noSlash _) he
      rw [← root_plain] at this
      exact hno (pathEscape_inj this ▸ (mem5 role).1 hr)
  · intro role hr
    rw [k6]
    · obtain ⟨j', m1, m2, d, m3, m4⟩ := w4 (role ++ b!".json", role, -1) (List.mem_map.2 ⟨role, hr, rfl⟩)
      obtain ⟨role', hr', rfl⟩ := List.mem_map.1 m1
      obtain rfl := joinPath_json (top_noSlash hr').1 (top_noSlash hr).1 m2
      exact ⟨d, m3.earlier a3, m4⟩
    · intro j hj he
      obtain ⟨role', hr', rfl⟩ := List.mem_map.1 hj
      have := joinPath_json (pathEscape_noSlash _) (top_noSlash hr).1 he
      rw [← (top_noSlash hr).2] at this
      rw [pathEscape_inj this] at hr'
      exact hnr role ((mem5 role).1 hr') (List.mem_cons_of_mem _ hr)
  · intro role hr
    obtain ⟨j', m1, m2, d, m3, m4⟩ := w6 (pathEscape role ++ b!".json", role, -1) (List.mem_map.2 ⟨role, (mem5 role).2 hr, rfl⟩)
    obtain ⟨role', hr', rfl⟩ := List.mem_map.1 m1
    obtain rfl := pathEscape_inj (joinPath_json (pathEscape_noSlash _) (pathEscape_noSlash _) m2)
    exact ⟨d, m3.earlier a5, m4⟩

end

/-! ## Dumps of a settled simulator -/

section
variable {env : Env} {q : SimEnv} {mat : Nat → Bytes} {e : Time} {N : Int}

/-- The release that a settled simulator serves. -/
theorem settled_release (hk : SimKeys env q mat) {s : Sim} (h : Settled env q mat e N s) (hl : ShortFiles s) :
    ∃ dt ds dg, (∀ s', Same s s' → (Sim.fetchMetadata q TIMESTAMP (-1) s').1 = .ok dt ∧ (Sim.fetchMetadata q SNAPSHOT (-1) s').1 = .ok ds ∧ (Sim.fetchMetadata q TARGETS (-1) s').1 = .ok dg) ∧
      ∀ now, ¬ Expired e now → ∃ fsn ftg, Release (std env) now s.root.signed s.timestamp.signed s.snapshot.signed s.targets.signed dt ds dg fsn ftg := by
  have hb := h.base
  have isn := full_snapshot hb (fun name f hf => hl name f (.inl hf))
  have its := full_timestamp hb (fun name f hf => hl name f (.inr hf))
  obtain ⟨xt, t1, t2, t3, t4⟩ := role_signer hk hb (role := TIMESTAMP) (by simp)
  obtain ⟨xs, s1, s2, s3, s4⟩ := role_signer hk hb (role := SNAPSHOT) (by simp)
  obtain ⟨xg, g1, g2, g3, g4⟩ := role_signer hk hb (role := TARGETS) (by simp)
  obtain ⟨mt, dt, t5, t6, t7⟩ := docBytes_ok (env := std env) (ss := [xt.2]) (by simpa using t3) ((timestamp_payload (timestampInv_good its)).2 (timestampInv_whole its))
  obtain ⟨ms, ds, s5, s6, s7⟩ := docBytes_ok (env := std env) (ss := [xs.2]) (by simpa using s3) ((snapshot_payload (snapshotInv_good isn)).2 (snapshotInv_whole isn))
  obtain ⟨mg, dg, g5, g6, g7⟩ := docBytes_ok (env := std env) (ss := [xg.2]) (by simpa using g3) ((targets_payload (targetsInv_good hb.targets)).2 (targetsInv_whole hb.targets))
  have pt : Publishes (std env) s.timestamp.signed [xt.2] dt := C99_publish_timestamp (m0 := { signed := s.timestamp.signed, signatures := some [] }) (one_signer _) rfl rfl rfl (timestampInv_text its) t6 t7
  have ps : Publishes (std env) s.snapshot.signed [xs.2] ds := C99_publish_snapshot (m0 := { signed := s.snapshot.signed, signatures := some [] }) (one_signer _) rfl rfl rfl (snapshotInv_text isn) s6 s7
  have pg : Publishes (std env) s.targets.signed [xg.2] dg := C99_publish_targets (m0 := { signed := s.targets.signed, signatures := some [] }) (one_signer _) rfl rfl rfl (targetsInv_text hb.targets) g6 g7
  obtain ⟨y, fsn, e1, e2, e3, e4⟩ := h.snapshotListed
  rw [s1] at e1
  cases e1
  rw [hk.same, s5] at e4
  obtain ⟨y, ftg, a1, a2, a3, a4⟩ := h.targetsListed
  rw [g1] at a1
  cases a1
  rw [hk.same, g5] at a4
  refine ⟨dt, ds, dg, fun s' hs => ⟨?_, ?_, ?_⟩, fun now fr => ⟨fsn, ftg, {
      goodTimestamp := timestampInv_good its
      goodSnapshot := snapshotInv_good isn
      goodTargets := targetsInv_good hb.targets
      timestamp := ⟨_, pt, t4⟩
      snapshot := ⟨_, ps, s4⟩
      targets := ⟨_, pg, g4⟩
      rootFresh := by rw [hb.rootExpires]; exact fr
      timestampFresh := by rw [hb.timestampExpires]; exact fr
      snapshotFresh := by rw [hb.snapshotExpires]; exact fr
      targetsFresh := by rw [hb.targetsExpires]; exact fr
      snapshotListed := ⟨e2, e3, entry_matches e4⟩
      targetsListed := ⟨a2, a3, entry_matches a4⟩ }⟩⟩
  · rw [fetch_timestamp (by rw [hs.signers]; exact t1) (by rw [hs.timestamp.2]; exact hb.timestampFields), hs.timestamp.1, hk.same]
    exact t5
  · exact (fetch_snapshot (by rw [hs.signers]; exact s1) (by rw [hs.snapshot.2]; exact hb.snapshotFields) _).trans (by rw [hs.snapshot.1, hk.same]; exact s5)
  · exact (fetch_targets (by rw [hs.signers]; exact g1) (by rw [hs.targets.2]; exact hb.targetsFields) _).trans (by rw [hs.targets.1, hk.same]; exact g5)

/-- The file that a client in local mode reads for a role that is not delegated. -/
theorem localPath_top (cfg : Cfg) {role : Str} (hr : role ∈ [TIMESTAMP, SNAPSHOT, TARGETS]) : localPath cfg role = joinPath cfg.localMetadataDir (role ++ b!".json") := by
  obtain ⟨D, _, h2⟩ := joinPath_plain cfg.localMetadataDir
  unfold localPath
  have hp : PlainName role := by
    simp only [List.mem_cons, List.not_mem_nil, or_false] at hr
    rcases hr with rfl | rfl | rfl <;> exact ⟨by decide, by decide, by decide, by decide⟩
  rw [h2 _ hp, h2 _ (plain_json (top_noSlash hr).1), List.append_assoc]

theorem localPath_ne_root (cfg : Cfg) {role : Str} (hr : role ∈ [TIMESTAMP, SNAPSHOT, TARGETS]) : localPath cfg role ≠ persistPath cfg ROOT := by
  rw [localPath_top cfg hr]
  intro he
  have : role = queryEscape ROOT := joinPath_json (top_noSlash hr).1 (by decide +kernel) he
  rw [this] at hr
  exact absurd hr (by decide +kernel)

/-- A client in local mode that has the newest root, and the files of a settled simulator. -/
theorem local_client (hk : SimKeys env q mat) {s : Sim} (h : Settled env q mat e N s) {dt ds dg : Bytes} {fsn ftg : MetaFiles} {y : Ctx} {w : World}
    (hr : Release (std env) (y.host.now w.trace) s.root.signed s.timestamp.signed s.snapshot.signed s.targets.signed dt ds dg fsn ftg) (hy : y.env = q.env)
    (hroot : s.signedRoots.getLast? = some y.cfg.localTrustedRoot) (hurl : y.cfg.remoteMetadataURL ≠ []) (hu : y.cfg.unsafeLocalMode = true) (hread : ∀ tr p, y.host.readFails tr p = false)
    (hn : y.cfg.disableLocalCache = true ∨ ∃ t0 w1, newUpdater y w = (.ok t0, w1)) (f1 : w.fs (localPath y.cfg TIMESTAMP) = some dt) (f2 : w.fs (localPath y.cfg SNAPSHOT) = some ds)
    (f3 : w.fs (localPath y.cfg TARGETS) = some dg) : ∃ t0 w1 c, newUpdater y w = (.ok t0, w1) ∧ refresh y ⟨t0, w1⟩ = (.ok (), c) ∧ TrustsSim s c.trusted := by
  obtain ⟨l, l1, l2⟩ := h.roots
  obtain ⟨p, hp1, hp2⟩ := l1.last
  have hd : p.data = y.cfg.localTrustedRoot := by
    rw [l1.data, List.getLast?_map, hp1] at hroot
    exact Option.some.inj hroot
  obtain ⟨i, hi⟩ := List.getElem?_of_mem (List.mem_of_getLast? hp1)
  obtain ⟨c1, c2, c3, c4⟩ := l1.chain.each i p hi
  obtain ⟨t0, r1, r2, r3, r4, r5, r6⟩ := C86_root (std_laws env) c1 c2 c3 (y.host.now w.trace)
  rw [hp2] at r2
  rw [hd] at r1
  obtain ⟨mts, msn, mtg, u1, u2, u3, v1, v2, v3⟩ := C86_release (std_laws env) hr r2 r3 r4 r5 r6
  have hye : y.env = std env := by rw [hy, hk.same]
  rw [← hye] at r1 u1 u2 u3
  have hnew : ∃ w1, newUpdater y w = (.ok t0, w1) := by
    rcases hn with hc | ⟨t1, w1, hn⟩
    · refine ⟨w, ?_⟩
      unfold newUpdater
      rw [if_neg, r1]
      · dsimp only
        unfold ensurePathsExist persistMetadata
        rw [if_pos hc, if_pos hc]
        rfl
      · rintro (h1 | h1)
        · rw [h1, hye] at r1
          exact new_nonempty r1
        · exact hurl h1
    · have := newUpdater_root hn
      rw [r1] at this
      cases this
      exact ⟨w1, hn⟩
  obtain ⟨w1, hn⟩ := hnew
  have keep : ∀ role ∈ [TIMESTAMP, SNAPSHOT, TARGETS], w1.fs (localPath y.cfg role) = w.fs (localPath y.cfg role) := fun role hr =>
    (newUpdater_files hn).2 _ (localPath_not_temp _ _) (localPath_ne_root _ hr)
  obtain ⟨t3, u4⟩ : ∃ t3, ({ t0 with timestamp := some mts, snapshot := some msn } : Trusted).updateDelegatedTargets y.env dg TARGETS ROOT = (.ok mtg, t3) := by
    rcases hx : ({ t0 with timestamp := some mts, snapshot := some msn } : Trusted).updateDelegatedTargets y.env dg TARGETS ROOT with ⟨a, b⟩
    exact ⟨b, congrArg (·, b) ((congrArg Prod.fst hx).symm.trans u3)⟩
  obtain ⟨c, w2, w3⟩ := localRefresh_ok (r := ⟨t0, w1⟩) hu hread ((keep _ (by simp)).trans f1) ((keep _ (by simp)).trans f2) ((keep _ (by simp)).trans f3) u1 u2 u4
  obtain ⟨_, x2⟩ := updateTargets_ok u4
  refine ⟨t0, w1, c, hn, w2, ?_⟩
  rw [w3, x2]
  exact ⟨r2, ⟨mts, rfl, v1⟩, ⟨msn, rfl, v2⟩, ⟨mtg, by show Entries.set t0.targets _ _ = _; rw [r5]; rfl, v3⟩⟩

end

/-! ## The property -/

/-- C146, except that a delegated role that is named like a dumped root replaces it: a test makes a simulator, changes the repository, and has it written out. This succeeds, into a folder named by the
next number; every root that was published is there under its version; for every role that is delegated there is what `FetchMetadata` answers, under the escaped name; and a client in local mode that
is given the newest root and this folder ends up with what the simulator has. -/
theorem C146_dump_partial {env : Env} {q : SimEnv} (he : q.env = std env) (hq : FreshKeys q) {e : Time} (hc : CalendarTime e) {s0 : Sim} (hs : Sim.new q e = .ok s0) {loc : Str}
    {steps : List SimStep} (hlen : steps.length < 2 ^ 61) (hf : ∀ st ∈ steps, st.Fine q.env) :
    ∃ s, inTurn (SimStep.run q) steps { s0 with localDir := loc } = (.ok (), s) ∧ (ShortFiles s → ∀ (h : Host) (temp dumpDir : Str) (dumpVersion : Int) (w : World), GoodDisk h →
      ∃ st', Sim.dump q h temp ⟨s, dumpDir, dumpVersion, w⟩ = (.ok (), st') ∧ ∀ dir, dir = joinPath (if dumpDir = [] then temp else dumpDir) (formatInt 10 (wrap64 (dumpVersion + 1))) →
        (∀ (i : Nat) data, s.signedRoots[i]? = some data → s.delegates.get? (formatInt 10 ((i : Int) + 1) ++ b!".root") = none →
          st'.world.fs (joinPath dir (formatInt 10 ((i : Int) + 1) ++ b!".root.json")) = some data) ∧
        (∀ role md, s.delegates.get? role = some md → ∃ data, Fetched q s role (-1) data ∧ st'.world.fs (joinPath dir (pathEscape role ++ b!".json")) = some data) ∧
        ∀ (y : Ctx) (w' : World), y.env = q.env → s.signedRoots.getLast? = some y.cfg.localTrustedRoot → y.cfg.remoteMetadataURL ≠ [] → y.cfg.unsafeLocalMode = true →
          y.cfg.localMetadataDir = dir → (∀ tr p, y.host.readFails tr p = false) → w'.fs = st'.world.fs → ¬ Expired e (y.host.now w'.trace) →
          (y.cfg.disableLocalCache = true ∨ ∃ t0 w1, newUpdater y w' = (.ok t0, w1)) →
          ∃ t0 w1 c, newUpdater y w' = (.ok t0, w1) ∧ refresh y ⟨t0, w1⟩ = (.ok (), c) ∧ TrustsSim s c.trusted) := by
  obtain ⟨mat, hk⟩ := simKeys he hq
  obtain ⟨s', h1, h2, _, _⟩ := new_settled hk hc
  rw [hs] at h1
  cases h1
  have h3 : Settled env q mat e 1 { s0 with localDir := loc } := by
    obtain ⟨l, l1, l2⟩ := h2.roots
    exact ⟨{ h2.base with }, ⟨l, ⟨l1.chain, l1.data, l1.last⟩, l2⟩, h2.targetsListed, h2.snapshotListed, h2.timestamp, h2.snapshot, h2.targets⟩
  obtain ⟨s, i1, i2, _⟩ := steps_settled hk (by omega) h3 hf
  refine ⟨s, i1, fun hl h temp dumpDir dumpVersion w hd => ?_⟩
  obtain ⟨dt, ds, dg, k1, k2⟩ := settled_release hk i2 hl
  have mem : ∀ role, role ∈ s.delegates.map Prod.fst ↔ ∃ md, s.delegates.get? role = some md := fun role => by
    constructor
    · intro hm
      obtain ⟨x, hx, rfl⟩ := List.mem_map.1 hm
      exact ⟨x.2, Entries.get?_of_mem i2.base.delegatesSorted.nodup hx⟩
    · rintro ⟨md, hm⟩
      exact List.mem_map.2 ⟨_, Entries.mem_of_get? hm, rfl⟩
  obtain ⟨st', d1, d2, d3, d4, d5⟩ := dump_run (q := q) (st := ⟨s, dumpDir, dumpVersion, w⟩) (temp := temp) hd (fun role hr => by
      obtain ⟨md, hm⟩ := (mem role).1 hr
      exact (i2.base.delegates role md hm).1) (fun role hr s1 ha => by
      have hsame := afterFetches_same ha
      obtain ⟨a1, a2, a3⟩ := k1 s1 hsame
      rcases List.mem_append.1 hr with hr | hr
      · simp only [List.mem_cons, List.not_mem_nil, or_false] at hr
        rcases hr with rfl | rfl | rfl
        · rw [a1]; intro hx; cases hx
        · rw [a2]; intro hx; cases hx
        · rw [a3]; intro hx; cases hx
      · obtain ⟨md, hm⟩ := (mem role).1 hr
        refine fetch_np hk (i2.base.same hsame) (.inr (.inr ⟨md, ?_⟩))
        rw [hsame.delegates]
        exact hm)
  refine ⟨st', d1, ?_⟩
  rintro dir rfl
  have exact' : ∀ role ∈ [TIMESTAMP, SNAPSHOT, TARGETS], ∀ d, (∀ s1, Same s s1 → (Sim.fetchMetadata q role (-1) s1).1 = .ok d) →
      st'.world.fs (joinPath (dumpDirOf temp ⟨s, dumpDir, dumpVersion, w⟩) (role ++ b!".json")) = some d := by
    intro role hr d hfd
    obtain ⟨data, ⟨s1, m1, m2⟩, m3⟩ := d4 role hr
    rw [hfd s1 (afterFetches_same m1)] at m2
    rcases m2 with m2 | ⟨⟨_, m2⟩, _⟩
    · cases m2; exact m3
    · cases m2
  refine ⟨fun i data hi hno => d3 i data hi (fun hm => ?_), fun role md hm => d5 role ((mem role).2 ⟨md, hm⟩), ?_⟩
  · obtain ⟨md, hm⟩ := (mem _).1 hm
    rw [hm] at hno
    cases hno
  · intro y w' y1 y2 y3 y4 y5 y6 y7 y8 y9
    obtain ⟨fsn, ftg, hr⟩ := k2 _ y8
    refine local_client hk i2 hr y1 y2 y3 y4 y6 y9 ?_ ?_ ?_
    · rw [localPath_top _ (by simp), y5, y7]
      exact exact' TIMESTAMP (by simp) dt (fun s1 hs => (k1 s1 hs).1)
    · rw [localPath_top _ (by simp), y5, y7]
      exact exact' SNAPSHOT (by simp) ds (fun s1 hs => (k1 s1 hs).2.1)
    · rw [localPath_top _ (by simp), y5, y7]
      exact exact' TARGETS (by simp) dg (fun s1 hs => (k1 s1 hs).2.2)

end Tuf
