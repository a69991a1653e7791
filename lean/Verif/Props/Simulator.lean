import Verif.Props.SimulatorServer

/-! # C131: clients of the repository simulator -/

namespace Tuf
open Tuf.Spec Tuf.Std

section
variable {env : Env} {q : SimEnv} {mat : Nat → Bytes} {e : Time} {N : Int}

/-! ## The release -/

def signersOf (s : Sim) (role : Str) : List Signer := ((s.signers.get? role).getD []).map Prod.snd

/-- The release that the simulator has. -/
def filesOf (env : Env) (s : Sim) : Files where
  ts := s.timestamp.signed
  sn := s.snapshot.signed
  tg := s.targets.signed
  dts := dataOf (docBytes env (signersOf s TIMESTAMP) s.timestamp.signed)
  dsn := dataOf (docBytes env (signersOf s SNAPSHOT) s.snapshot.signed)
  dtg := dataOf (docBytes env (signersOf s TARGETS) s.targets.signed)
  fsn := ((s.timestamp.signed.metas.get? b!"snapshot.json").bind id).getD { version := 0 }
  ftg := ((s.snapshot.signed.metas.get? b!"targets.json").bind id).getD { version := 0 }

theorem full_metas {ms : GoMap (Option MetaFiles)} (h : FineMap LooseMeta ms) (hl : ∀ name f, ms.get? name = some (some f) → f.length < 2 ^ 63) : FineMap (StoredMeta (std env)) ms := by
  refine ⟨h.sorted, fun x hx => ?_⟩
  obtain ⟨h1, a, h2, h3⟩ := h.values x hx
  have hg : ms.get? x.1 = some (some a) := by
    rw [← h2]
    exact Entries.get?_of_mem h.sorted.nodup hx
  exact ⟨h1, a, h2, loose_stored h3 (hl _ _ hg)⟩

theorem full_snapshot {s : Sim} (h : Base env q mat e s) (hl : ∀ name f, s.snapshot.signed.metas.get? name = some (some f) → f.length < 2 ^ 63) : SnapshotInv env s.snapshot.signed :=
  ⟨h.snapshot.fields, h.snapshot.type, h.snapshot.spec, h.snapshot.version, h.snapshot.expires, full_metas h.snapshotMetas hl⟩

theorem full_timestamp {s : Sim} (h : Base env q mat e s) (hl : ∀ name f, s.timestamp.signed.metas.get? name = some (some f) → f.length < 2 ^ 63) : TimestampInv env s.timestamp.signed :=
  ⟨h.timestamp.fields, h.timestamp.type, h.timestamp.spec, h.timestamp.version, h.timestamp.expires, full_metas h.timestampMetas hl⟩

theorem entry_matches {env : Env} {d : Bytes} {f : MetaFiles} (h : IsEntry env (.ok d) f) : MetaMatches env f d := by
  rcases h with ⟨h1, h2⟩ | ⟨h1, h2⟩
  · refine ⟨fun h => absurd h1 h, fun alg v hv => ?_⟩
    rw [h2] at hv
    cases hv
  · refine ⟨fun _ => h1, fun alg v hv => ?_⟩
    rw [h2] at hv
    simp only [GoMap.entries, Option.getD_some, List.mem_singleton, Prod.mk.injEq] at hv
    obtain ⟨rfl, rfl⟩ := hv
    exact .sha256

theorem entry_limit {env : Env} {d : Bytes} {f : MetaFiles} (h : IsEntry env (.ok d) f) {max : Int} (hm : (d.length : Int) ≤ max) : ∃ n, LengthLimit f.length max n ∧ (d.length : Int) ≤ n := by
  by_cases h0 : f.length = 0
  · exact ⟨max, .inr ⟨h0, rfl⟩, hm⟩
  · refine ⟨f.length, .inl ⟨h0, rfl⟩, ?_⟩
    rcases h with ⟨h1, _⟩ | ⟨h1, _⟩
    · exact absurd h1 h0
    · rw [h1]
      exact Int.le_refl _

/-- The signer of a role, and that it suffices. -/
theorem role_signer (hk : SimKeys env q mat) {s : Sim} (h : Base env q mat e s) {role : Str} (hr : role ∈ [TIMESTAMP, SNAPSHOT, TARGETS]) :
    ∃ x : Str × Signer, s.signers.get? role = some [x] ∧ signersOf s role = [x.2] ∧ Works (std env) x.2 ∧ Suffice (std env) (.root { signed := s.root.signed }) role [x.2] := by
  obtain ⟨n, _, h2, h3⟩ := h.roleKey role hr
  refine ⟨_, h3, by unfold signersOf; rw [h3]; rfl, ed_works (hk.ed n), suffice_key hk h2 (List.mem_singleton.2 rfl) (fun y hy => ⟨n, List.mem_singleton.1 hy⟩) rfl⟩

theorem files_mayFollow {N' : Int} {s s' : Sim} (h : Settled env q mat e N s) (h' : Settled env q mat e N' s') (hl : Later s s') : MayFollow (filesOf q.env s) (filesOf q.env s') := by
  have hsig : ∀ {role : Str}, s'.signers.get? role = s.signers.get? role → signersOf s' role = signersOf s role := by
    intro role h
    unfold signersOf
    rw [h]
  have hver : ∀ {N : Int} {s : Sim}, Settled env q mat e N s → (filesOf q.env s).fsn.version = s.snapshot.signed.version := by
    intro N s h
    obtain ⟨x, f, _, h2, h3, _⟩ := h.snapshotListed
    show (((s.timestamp.signed.metas.get? b!"snapshot.json").bind id).getD { version := 0 } : MetaFiles).version = _
    rw [h2]
    exact h3
  refine ⟨?_, ?_, ?_, hl.listed, ?_⟩
  · rcases hl.timestamp with h1 | ⟨h1, h2⟩
    · exact .inl h1
    · refine .inr ?_
      show dataOf (docBytes q.env (signersOf s TIMESTAMP) s.timestamp.signed) = dataOf (docBytes q.env (signersOf s' TIMESTAMP) s'.timestamp.signed)
      rw [hsig h2, h1]
  · rw [hver h, hver h']
    rcases hl.snapshot with h1 | ⟨h1, _⟩
    · omega
    · rw [h1]; exact Int.le_refl _
  · rcases hl.snapshot with h1 | ⟨h1, h2⟩
    · exact .inl (by show s.snapshot.signed.version ≠ s'.snapshot.signed.version; omega)
    · refine .inr ?_
      show dataOf (docBytes q.env (signersOf s SNAPSHOT) s.snapshot.signed) = dataOf (docBytes q.env (signersOf s' SNAPSHOT) s'.snapshot.signed)
      rw [hsig h2, h1]
  · rcases hl.targets with h1 | ⟨h1, h2⟩
    · exact .inl (by show s.targets.signed.version ≠ s'.targets.signed.version; omega)
    · refine .inr ?_
      show dataOf (docBytes q.env (signersOf s TARGETS) s.targets.signed) = dataOf (docBytes q.env (signersOf s' TARGETS) s'.targets.signed)
      rw [hsig h2, h1]

theorem dir_same {s s' : Sim} (h : Same s s') (hd : SimDir s.localDir) : SimDir s'.localDir := by rw [h.localDir]; exact hd

/-- A visit happens under good conditions. -/
theorem visit_good (hk : SimKeys env q mat) (hn : N < 2 ^ 62) {s : Sim} (h : Settled env q mat e N s) (hd : SimDir s.localDir) {dir : Str} {x : Ctx} {now : Time} (hx : SimClient q dir s x now) :
    ∃ srv, (ClientRun.mk x srv now s.root.signed (filesOf (std env) s)).Good (std env) dir := by
  obtain ⟨srv, n1, n2⟩ := hx.network
  have hb := h.base
  have hcs := hb.consistent
  obtain ⟨l, l1, l2⟩ := h.roots
  have isn := full_snapshot hb (fun name f hf => hx.lengths name f (.inl hf))
  have its := full_timestamp hb (fun name f hf => hx.lengths name f (.inr hf))
  obtain ⟨xt, t1, t2, t3, t4⟩ := role_signer hk hb (role := TIMESTAMP) (by simp)
  obtain ⟨xs, s1, s2, s3, s4⟩ := role_signer hk hb (role := SNAPSHOT) (by simp)
  obtain ⟨xg, g1, g2, g3, g4⟩ := role_signer hk hb (role := TARGETS) (by simp)
  obtain ⟨mt, dt, t5, t6, t7⟩ := docBytes_ok (env := std env) (ss := [xt.2]) (by simpa using t3) ((timestamp_payload (timestampInv_good its)).2 (timestampInv_whole its))
  obtain ⟨ms, ds, s5, s6, s7⟩ := docBytes_ok (env := std env) (ss := [xs.2]) (by simpa using s3) ((snapshot_payload (snapshotInv_good isn)).2 (snapshotInv_whole isn))
  obtain ⟨mg, dg, g5, g6, g7⟩ := docBytes_ok (env := std env) (ss := [xg.2]) (by simpa using g3) ((targets_payload (targetsInv_good hb.targets)).2 (targetsInv_whole hb.targets))
  have pt : Publishes (std env) s.timestamp.signed [xt.2] dt := C99_publish_timestamp (m0 := { signed := s.timestamp.signed, signatures := some [] }) (one_signer _) rfl rfl rfl (timestampInv_text its) t6 t7
  have ps : Publishes (std env) s.snapshot.signed [xs.2] ds := C99_publish_snapshot (m0 := { signed := s.snapshot.signed, signatures := some [] }) (one_signer _) rfl rfl rfl (snapshotInv_text isn) s6 s7
  have pg : Publishes (std env) s.targets.signed [xg.2] dg := C99_publish_targets (m0 := { signed := s.targets.signed, signatures := some [] }) (one_signer _) rfl rfl rfl (targetsInv_text hb.targets) g6 g7
  have ft : (filesOf (std env) s).dts = dt := by show dataOf (docBytes (std env) (signersOf s TIMESTAMP) s.timestamp.signed) = _; rw [t2, t5]; rfl
  have fs : (filesOf (std env) s).dsn = ds := by show dataOf (docBytes (std env) (signersOf s SNAPSHOT) s.snapshot.signed) = _; rw [s2, s5]; rfl
  have fg : (filesOf (std env) s).dtg = dg := by show dataOf (docBytes (std env) (signersOf s TARGETS) s.targets.signed) = _; rw [g2, g5]; rfl
  obtain ⟨y, fsn, e1, e2, e3, e4⟩ := h.snapshotListed
  rw [s1] at e1
  cases e1
  rw [hk.same, s5] at e4
  have e5 : (filesOf (std env) s).fsn = fsn := by
    show ((s.timestamp.signed.metas.get? b!"snapshot.json").bind id).getD { version := 0 } = fsn
    rw [e2]; rfl
  obtain ⟨y, ftg, a1, a2, a3, a4⟩ := h.targetsListed
  rw [g1] at a1
  cases a1
  rw [hk.same, g5] at a4
  have a5 : (filesOf (std env) s).ftg = ftg := by
    show ((s.snapshot.signed.metas.get? b!"targets.json").bind id).getD { version := 0 } = ftg
    rw [show s.snapshot.signed.metas.get? b!"targets.json" = some (some ftg) from a2]; rfl
  -- what the server has
  have slash : SlashBase x.cfg.remoteMetadataURL (s.localDir ++ b!"/metadata/") := by
    refine .inr ⟨by rw [hx.url]; simp, ?_⟩
    rw [hx.url]
    rintro ⟨a, ha⟩
    have h1 := congrArg List.reverse ha
    simp at h1
  have served : ∀ url n d, (∀ s', Same s s' → (Sim.fetch q url s').1 = .ok d) → (d.length : Int) ≤ n → srv url n = .ok d := by
    intro url n d hf hl
    obtain ⟨ds, h1⟩ := n2 url n
    rw [h1, download_eq (hf _ (after_same q ds s)) hl]
    rfl
  have vlt : ∀ {v : Int}, 1 ≤ v → v ≤ N → 0 ≤ v ∧ v < 2 ^ 63 := fun h1 h2 => ⟨by omega, by omega⟩
  have servedTimestamp : ∀ n, (dt.length : Int) ≤ n → srv (s.localDir ++ b!"/metadata/" ++ b!"timestamp" ++ b!".json") n = .ok dt := fun n => served _ n dt fun s' hs => by
    rw [← hs.localDir, fetch_timestamp_url (dir_same hs hd) (by rw [hs.root]; exact hcs), fetch_timestamp (by rw [hs.signers]; exact t1) (by rw [hs.timestamp.2]; exact hb.timestampFields), hs.timestamp.1, hk.same]
    exact t5
  have servedSnapshot : ∀ n, (ds.length : Int) ≤ n → srv (s.localDir ++ b!"/metadata/" ++ (formatInt 10 s.snapshot.signed.version ++ b!"." ++ b!"snapshot") ++ b!".json") n = .ok ds := fun n => served _ n ds fun s' hs => by
    obtain ⟨v1, v2⟩ := vlt h.snapshot.1 h.snapshot.2
    rw [← hs.localDir, fetch_versioned_url (dir_same hs hd) (by rw [hs.root]; exact hcs) v1 v2 (by simp)]
    exact (fetch_snapshot (by rw [hs.signers]; exact s1) (by rw [hs.snapshot.2]; exact hb.snapshotFields) _).trans (by rw [hs.snapshot.1, hk.same]; exact s5)
  have servedTargets : ∀ n, (dg.length : Int) ≤ n → srv (s.localDir ++ b!"/metadata/" ++ (formatInt 10 s.targets.signed.version ++ b!"." ++ b!"targets") ++ b!".json") n = .ok dg := fun n => served _ n dg fun s' hs => by
    obtain ⟨v1, v2⟩ := vlt h.targets.1 h.targets.2
    rw [← hs.localDir, fetch_versioned_url (dir_same hs hd) (by rw [hs.root]; exact hcs) v1 v2 (by simp)]
    exact (fetch_targets (by rw [hs.signers]; exact g1) (by rw [hs.targets.2]; exact hb.targetsFields) _).trans (by rw [hs.targets.1, hk.same]; exact g5)
  have hlen : l.length = s.signedRoots.length := by rw [l1.data, List.length_map]
  have servedRoot : ∀ (i : Nat) (p : PubRoot), l[i]? = some p → srv (s.localDir ++ b!"/metadata/" ++ formatInt 10 ((i : Int) + 1) ++ b!".root.json") x.cfg.rootMaxLength = .ok p.data := by
    intro i p hi
    have hi' : s.signedRoots[i]? = some p.data := by rw [l1.data, List.getElem?_map, hi]; rfl
    have hlt := (List.getElem?_eq_some_iff.1 hi).1
    have hu : s.localDir ++ b!"/metadata/" ++ formatInt 10 ((i : Int) + 1) ++ b!".root.json" = s.localDir ++ b!"/metadata/" ++ (formatInt 10 ((i : Int) + 1) ++ b!"." ++ b!"root") ++ b!".json" := by
      simp only [List.append_assoc, List.cons_append, List.nil_append]
    rw [hu]
    refine served _ _ _ (fun s' hs => ?_) (hx.rootLimit _ (List.mem_of_getElem? hi'))
    rw [← hs.localDir, fetch_versioned_url (dir_same hs hd) (by rw [hs.root]; exact hcs) (by omega) (by omega) (by simp)]
    exact fetch_root (by rw [hs.signedRoots]; exact hi')
  have servedNone : srv (s.localDir ++ b!"/metadata/" ++ formatInt 10 ((l.length : Int) + 1) ++ b!".root.json") x.cfg.rootMaxLength = .error (.downloadHTTP 404 []) := by
    have hu : s.localDir ++ b!"/metadata/" ++ formatInt 10 ((l.length : Int) + 1) ++ b!".root.json" = s.localDir ++ b!"/metadata/" ++ (formatInt 10 ((l.length : Int) + 1) ++ b!"." ++ b!"root") ++ b!".json" := by
      simp only [List.append_assoc, List.cons_append, List.nil_append]
    rw [hu]
    obtain ⟨ds, h1⟩ := n2 (s.localDir ++ b!"/metadata/" ++ (formatInt 10 ((l.length : Int) + 1) ++ b!"." ++ b!"root") ++ b!".json") x.cfg.rootMaxLength
    have hs := after_same q ds s
    rw [h1, download_err (e := .downloadHTTP 404 [])]
    · rfl
    · rw [← hs.localDir, fetch_versioned_url (dir_same hs hd) (by rw [hs.root]; exact hcs) (by omega) (by omega) (by simp), hlen, ← hs.signedRoots]
      exact fetch_root_none
  -- limits
  have lt : (dt.length : Int) ≤ x.cfg.timestampMaxLength := hx.limits b!"timestamp" _ (by simp) dt (by rw [show b!"timestamp" = TIMESTAMP from rfl, fetch_timestamp t1 hb.timestampFields, hk.same]; exact t5)
  have ls : (ds.length : Int) ≤ x.cfg.snapshotMaxLength := hx.limits b!"snapshot" _ (by simp) ds (by rw [show b!"snapshot" = SNAPSHOT from rfl, fetch_snapshot s1 hb.snapshotFields, hk.same]; exact s5)
  have lg : (dg.length : Int) ≤ x.cfg.targetsMaxLength := hx.limits b!"targets" _ (by simp) dg (by rw [show b!"targets" = TARGETS from rfl, fetch_targets g1 hb.targetsFields, hk.same]; exact g5)
  obtain ⟨ns, ns1, ns2⟩ := entry_limit e4 ls
  obtain ⟨ng, ng1, ng2⟩ := entry_limit a4 lg
  -- the initial root
  obtain ⟨p, hp1, hp2⟩ := List.mem_map.1 (by rw [← l1.data]; exact hx.root)
  obtain ⟨i, hi⟩ := List.getElem?_of_mem hp1
  have hlt := (List.getElem?_eq_some_iff.1 hi).1
  obtain ⟨c1, c2, c3, c4⟩ := l1.chain.each i p hi
  obtain ⟨t0, r1, r2, r3, _⟩ := C86_root (std_laws env) c1 c2 c3 now
  obtain ⟨last, hl1, hl2⟩ := l1.last
  have hrot := hx.rotations
  obtain ⟨t, lead1, lead2⟩ := chain_leads (x := x) (by rw [hx.sameEnv, hk.same]) l1.chain slash servedRoot servedNone (by omega) hl1 (l.length - (i + 1)) i p (by omega) hi x.cfg.maxRootRotations.toNat (by omega) t0 r3 r2
  refine ⟨srv, {
    sameEnv := by rw [← hk.same]; exact hx.sameEnv
    sameDir := hx.sameDir
    online := hx.online
    caching := hx.caching
    url := by show x.cfg.remoteMetadataURL ≠ []; rw [hx.url]; simp
    dirs := hx.dirs
    disk := hx.disk
    mkdir := hx.mkdir
    network := n1
    clock := hx.clock
    released := ?_
    served := ?_
    roots := ⟨t0, t, ?_, by rw [← r1]; show Trusted.new _ _ x.cfg.localTrustedRoot = _; rw [← hp2], (by omega : 0 ≤ x.cfg.maxRootRotations), ?_, lead1, by rw [lead2, hl2]⟩ }⟩
  · have fr := hx.fresh
    rw [hb.safe] at fr
    show Release (std env) now s.root.signed s.timestamp.signed s.snapshot.signed s.targets.signed (filesOf (std env) s).dts (filesOf (std env) s).dsn (filesOf (std env) s).dtg (filesOf (std env) s).fsn (filesOf (std env) s).ftg
    rw [ft, fs, fg, e5, a5]
    exact {
      goodTimestamp := timestampInv_good its
      goodSnapshot := snapshotInv_good isn
      goodTargets := targetsInv_good hb.targets
      timestamp := ⟨_, pt, t4⟩
      snapshot := ⟨_, ps, s4⟩
      targets := ⟨_, pg, g4⟩
      rootFresh := by rw [hb.rootExpires]; exact fr
      timestampFresh := by rw [hb.timestampExpires]; exact fr
      snapshotFresh := by rw [hb.snapshotExpires]; exact fr
      targetsFresh := by rw [hb.targetsExpires]; exact fr
      snapshotListed := ⟨e2, e3, entry_matches e4⟩
      targetsListed := ⟨a2, a3, entry_matches a4⟩ }
  · show Serving x srv s.root.signed (filesOf (std env) s).dts (filesOf (std env) s).dsn (filesOf (std env) s).dtg (filesOf (std env) s).fsn (filesOf (std env) s).ftg
    rw [ft, fs, fg, e5, a5]
    exact {
      timestamp := ⟨_, ⟨_, slash, rfl⟩, servedTimestamp _ lt⟩
      snapshot := ⟨_, ns, .inl ⟨hcs, _, slash, rfl⟩, ns1, by
        rw [e3]
        have := servedSnapshot ns ns2
        simp only [List.append_assoc] at this ⊢
        exact this⟩
      targets := ⟨_, ng, .inl ⟨hcs, _, slash, rfl⟩, ng1, by
        rw [a3]
        have := servedTargets ng ng2
        simp only [List.append_assoc] at this ⊢
        exact this⟩ }
  · show x.cfg.localTrustedRoot ≠ []
    rw [← hp2]
    intro h0
    rw [h0] at r1
    exact new_nonempty r1
  · show wrap64 (t0.root.signed.version + 1) + x.cfg.maxRootRotations < 2 ^ 63
    rw [r2, readRoot_version, c4, wrap64_of_range (by unfold inInt64; simp only [Bool.and_eq_true, decide_eq_true_eq]; omega)]
    omega

/-! ## Visits -/

/-- The visits, as visits of clients to a repository. -/
theorem visits_runs (hk : SimKeys env q mat) {dir : Str} : ∀ {vs : List SimVisit} {N : Int} {s : Sim}, N + (vs.flatMap SimVisit.steps).length < 2 ^ 62 → Settled env q mat e N s → SimDir s.localDir →
    GoodVisits q dir s vs → ∃ runs : List ClientRun, (∀ r ∈ runs, r.Good (std env) dir) ∧
      (∀ r ∈ runs, ∃ N' s', Settled env q mat e N' s' ∧ Later s s' ∧ r.R = filesOf q.env s') ∧ runs.Pairwise (fun a b => MayFollow a.R b.R) ∧ ∀ w, AllSucceed w runs → VisitsSucceed q s w vs
  | [], _, _, _, _, _, _ => ⟨[], by simp, by simp, .nil, fun w _ => .nil⟩
  | v :: vs, N, s, hn, h, hd, hg => by
    simp only [List.flatMap_cons, List.length_append] at hn
    obtain ⟨g1, g2⟩ := hg
    obtain ⟨s1, h1, h2, h3⟩ := steps_settled hk (by omega) h g1
    obtain ⟨g3, g4⟩ := g2 s1 h1
    have hd1 : SimDir s1.localDir := by rw [h3.localDir]; exact hd
    obtain ⟨srv, hgood⟩ := visit_good hk (by omega) h2 hd1 g3
    have hsame := after_same q v.downloads s1
    obtain ⟨runs, r1, r2, r3, r4⟩ := visits_runs hk (N := N + v.steps.length) (by omega) (h2.same hsame) (dir_same hsame hd1) g4
    rw [← hk.same] at hgood
    refine ⟨⟨v.x, srv, v.now, s1.root.signed, filesOf q.env s1⟩ :: runs, ?_, ?_, ?_, ?_⟩
    · intro r hr
      rcases List.mem_cons.1 hr with rfl | hr
      · rw [← hk.same]; exact hgood
      · exact r1 r hr
    · intro r hr
      rcases List.mem_cons.1 hr with rfl | hr
      · exact ⟨_, s1, h2, h3, rfl⟩
      · obtain ⟨N', s', a1, a2, a3⟩ := r2 r hr
        exact ⟨N', s', a1, h3.trans ((Later.same hsame).trans a2), a3⟩
    · refine List.pairwise_cons.2 ⟨fun r hr => ?_, r3⟩
      obtain ⟨N', s', a1, a2, a3⟩ := r2 r hr
      rw [a3]
      exact files_mayFollow h2 a1 ((Later.same hsame).trans a2)
    · intro w hw
      cases hw with
      | cons b1 b2 b3 b4 b5 b6 b7 b8 b9 b10 => exact .cons h1 b1 b2 b3 b4 b5 b6 b7 b8 b9 (r4 _ b10)

/-! ## New simulators -/

theorem newKeyFor_first (hk : SimKeys env q mat) {s : Sim} {role : Str} {ks : Entries (Option Key)} (hi : RootInv env s.root.signed) (hg : s.root.signed.roles.get? role = some (some newRole))
    (hks : s.root.signed.keys = some ks) (hs : s.signers.get? role = none) (hu : Utf8 role) :
    ∃ s', Sim.newKeyFor q role s = (.ok (), s') ∧ Rotated env q mat s role s' ∧ (∀ r, r ≠ role → s'.root.signed.roles.get? r = s.root.signed.roles.get? r) ∧ ∃ ks', s'.root.signed.keys = some ks' := by
  obtain ⟨es, hes⟩ : ∃ es, s.root.signed.roles = some es := by
    cases hr : s.root.signed.roles with
    | none => rw [hr] at hg; cases hg
    | some es => exact ⟨es, rfl⟩
  rw [hes] at hg
  have hrun := newKeyFor_eq (q := q) hk hes hg hks
  have hadd : addID (sid env mat s.created) newRole = oneKey (sid env mat s.created) := by
    unfold addID newRole
    rw [if_neg (by simp [Slice.elems])]
    rfl
  rw [hadd, hs] at hrun
  have hid := fineKey_ID (fineKey_ed (env := env) (mat s.created) 9995) edPlain_id
  refine ⟨_, hrun, ⟨rfl, rfl, rfl, ?_, ⟨Entries.get?_set_self _ _ _, Entries.get?_set_self _ _ _⟩, ?_, Entries.get?_set_self _ _ _, fun r hr => Entries.get?_set_ne _ _ (Ne.symm hr)⟩,
    fun r hr => ?_, _, rfl⟩
  · have h1 := hi.roles
    have h2 := hi.keys
    rw [hes] at h1
    rw [hks] at h2
    refine ⟨hi.fields, hi.type, hi.spec, hi.version, hi.expires, h2.set hid.1 hid.2, h1.set hu ⟨⟨goodFields_nil _, rfl⟩, wholeNil, ⟨fun i hi => ?_, fieldsText_nil⟩⟩⟩
    rw [List.mem_singleton.1 (show i ∈ [sid env mat s.created] from hi)]
    exact hid.1
  · intro r n' hr hn' ho
    refine ⟨?_, ?_⟩
    · have := ho.role
      rw [hes] at this
      exact (Entries.get?_set_ne _ _ (Ne.symm hr)).trans this
    · have := ho.key
      rw [hks] at this
      by_cases he : sid env mat s.created = sid env mat n'
      · show Entries.get? (Entries.set ks (sid env mat s.created) _) (sid env mat n') = _
        rw [← he, Entries.get?_set_self, (hk.inj _ _ he).2]
      · exact (Entries.get?_set_ne _ _ he).trans this
  · show Entries.get? (Entries.set es role _) r = _
    rw [Entries.get?_set_ne _ _ (Ne.symm hr), hes]
    rfl

theorem newKeys_first (hk : SimKeys env q mat) : ∀ {roles : List Str} {s : Sim} {ks : Entries (Option Key)}, roles.Nodup → RootInv env s.root.signed → s.root.signed.keys = some ks →
    (∀ r ∈ roles, s.root.signed.roles.get? r = some (some newRole) ∧ s.signers.get? r = none ∧ Utf8 r) →
    ∃ s', Sim.newKeys q roles s = (.ok (), s') ∧ s' = { s with root := s'.root, signers := s'.signers, created := s'.created } ∧
      s'.root = { s.root with signed := { s.root.signed with roles := s'.root.signed.roles, keys := s'.root.signed.keys } } ∧ RootInv env s'.root.signed ∧ s.created ≤ s'.created ∧
      (∀ r ∈ roles, ∃ n, n < s'.created ∧ HasKey env mat s'.root.signed r n ∧ s'.signers.get? r = some [(sid env mat n, q.fresh n)]) ∧
      (∀ r, r ∉ roles → s'.signers.get? r = s.signers.get? r) ∧ ∀ r n, r ∉ roles → n < s.created → HasKey env mat s.root.signed r n → HasKey env mat s'.root.signed r n
  | [], s, ks, _, hi, hks, hr => ⟨s, rfl, rfl, rfl, hi, Nat.le_refl _, by simp, fun _ _ => rfl, fun _ _ _ _ h => h⟩
  | role :: roles, s, ks, hnd, hi, hks, hr => by
    obtain ⟨hn1, hn2⟩ := List.nodup_cons.1 hnd
    obtain ⟨a1, a2, a3⟩ := hr role (by simp)
    obtain ⟨s1, h1, h2, h3, ks1, h4⟩ := newKeyFor_first hk hi a1 hks a2 a3
    have hne : ∀ r ∈ roles, r ≠ role := fun r hr he => hn1 (he ▸ hr)
    obtain ⟨s2, b1, b2, b3, b4, b5, b6, b7, b8⟩ := newKeys_first hk (roles := roles) (s := s1) hn2 h2.inv h4 (fun r hr' => by
      obtain ⟨c1, c2, c3⟩ := hr r (by simp [hr'])
      exact ⟨by rw [h3 r (hne r hr')]; exact c1, by rw [h2.otherSigners r (hne r hr')]; exact c2, c3⟩)
    have hc := h2.created
    refine ⟨s2, by rw [Sim.newKeys, SM.bind_ok h1]; exact b1, by rw [b2, h2.others], by rw [b3, h2.root], b4, by omega, ?_, ?_, ?_⟩
    · intro r hr'
      rcases List.mem_cons.1 hr' with rfl | hr'
      · exact ⟨s.created, by omega, b8 _ _ hn1 (by omega) h2.new, by rw [b7 _ hn1]; exact h2.signers⟩
      · exact b6 r hr'
    · intro r hr'
      simp only [List.mem_cons, not_or] at hr'
      rw [b7 r hr'.2, h2.otherSigners r hr'.1]
    · intro r n hr' hn ho
      simp only [List.mem_cons, not_or] at hr'
      exact b8 r n hr'.2 (by omega) (h2.old r n hr'.1 hn ho)

theorem looseOne {name : Str} (h : Utf8 name) : FineMap LooseMeta (some [(name, some { version := 1 })]) := by
  refine ⟨by simp [Entries.Sorted, GoMap.entries], fun e he => ?_⟩
  simp only [GoMap.entries, Option.getD_some, List.mem_singleton] at he
  subst he
  exact ⟨h, _, rfl, loose_one⟩

/-- A new simulator. -/
theorem new_settled (hk : SimKeys env q mat) (he : CalendarTime e) : ∃ s, Sim.new q e = .ok s ∧ Settled env q mat e 1 s ∧ s.root.signed.version = 1 ∧ s.localDir = [] := by
  have hne : Entries.Sorted ([] : Entries (Option MetaFiles)) := List.Pairwise.nil
  obtain ⟨s4, b1, b2, b3, b4, b5, b6, b7, b8⟩ := newKeys_first hk (roles := [ROOT, TIMESTAMP, SNAPSHOT, TARGETS])
    (s := { safeExpiry := e, targets := newTargets e, snapshot := newSnapshot e, timestamp := newTimestamp e, root := newRoot e }) (ks := []) (by decide) (rootInv_new he) rfl
    (fun r hr => ⟨by
      simp only [List.mem_cons, List.not_mem_nil, or_false] at hr
      rcases hr with rfl | rfl | rfl | rfl <;> rfl, rfl, top_utf8 hr⟩)
  have hcal := snapshotInv_after (env := env) he (edits := []) (by simp)
  have hcal' := timestampInv_after (env := env) he (edits := []) (by simp)
  have htg := targetsInv_after (env := env) he (edits := []) (by simp)
  have hb : Base env q mat e s4 := by
    have k1 := b6 ROOT (by simp)
    have k2 : ∀ role ∈ [TIMESTAMP, SNAPSHOT, TARGETS], _ := fun role hr => b6 role (List.mem_cons_of_mem _ hr)
    have k3 : ∀ role es, s4.signers.get? role = some es → Entries.Sorted es ∧ ∀ x ∈ es, ∃ n, n < s4.created ∧ x = (sid env mat n, q.fresh n) := by
      intro role es hg
      by_cases hr : role ∈ [ROOT, TIMESTAMP, SNAPSHOT, TARGETS]
      · obtain ⟨n, h1, _, h3⟩ := b6 role hr
        rw [h3] at hg
        cases hg
        exact ⟨List.pairwise_singleton _ _, fun x hx => ⟨n, h1, List.mem_singleton.1 hx⟩⟩
      · rw [b7 role hr] at hg
        cases hg
    have e1 : s4.root.unrec = [] := by rw [b3]; rfl
    have e2 : s4.root.signed.consistentSnapshot = true := by rw [b3]; rfl
    have e3 : s4.root.signed.expires = e := by rw [b3]; rfl
    obtain ⟨n, h1, h2, h3⟩ := k1
    have k4 : ∃ n es, n < s4.created ∧ HasKey env mat s4.root.signed ROOT n ∧ s4.signers.get? ROOT = some es ∧ (sid env mat n, q.fresh n) ∈ es := ⟨n, _, h1, h2, h3, by simp⟩
    clear b1 b3 b5 b6 b7 b8 h1 h2 h3
    rw [b2]
    exact {
      safe := rfl, root := b4, rootFields := e1, consistent := e2, rootExpires := e3, rootKey := k4, roleKey := k2, signers := k3
      targets := htg, targetsFields := rfl, targetsExpires := rfl, targetsMap := ⟨_, rfl⟩, delegations := fun d hd => by cases hd
      snapshot := ⟨hcal.fields, hcal.type, hcal.spec, hcal.version, hcal.expires, ⟨hne, fun x hx => by cases hx⟩⟩
      snapshotMetas := looseOne (utf8_name (by rfl)), snapshotMap := ⟨_, rfl⟩, snapshotFields := rfl, snapshotExpires := rfl
      timestamp := ⟨hcal'.fields, hcal'.type, hcal'.spec, hcal'.version, hcal'.expires, ⟨hne, fun x hx => by cases hx⟩⟩
      timestampMetas := looseOne (utf8_name (by rfl)), timestampMap := ⟨_, rfl⟩, timestampFields := rfl, timestampExpires := rfl
      delegates := fun role md h => by cases h
      listed := fun name f hf => by
        have hm := Entries.mem_of_get? hf
        rw [show (newSnapshot e).signed.metas.entries = [(b!"targets.json", some { version := 1 })] from rfl, List.mem_singleton] at hm
        simp only [Prod.mk.injEq, Option.some.injEq] at hm
        obtain ⟨rfl, rfl⟩ := hm
        exact .inl ⟨rfl, Int.le_refl _⟩
      delegatesSorted := List.Pairwise.nil }
  obtain ⟨ss, m, d, p1, p2, p3, p4, p5, p6⟩ := publish_root hk hb
  have hrun : Sim.new q e = .ok { s4 with root := m, signedRoots := s4.signedRoots ++ [d], iterations := s4.iterations + 1 } := by
    unfold Sim.new
    dsimp only
    rw [SM.bind_ok b1, p1]
  have hv : s4.root.signed.version = 1 := by rw [b3]; rfl
  have hsr : s4.signedRoots = [] := by rw [b2]
  have hld : s4.localDir = [] := by rw [b2]
  have hsn : s4.snapshot = newSnapshot e := by rw [b2]
  have hts : s4.timestamp = newTimestamp e := by rw [b2]
  have htgt : s4.targets = newTargets e := by rw [b2]
  have hb' : Base env q mat e { s4 with root := m, signedRoots := s4.signedRoots ++ [d], iterations := s4.iterations + 1 } := by
    refine { hb with root := ?_, rootFields := p3, consistent := ?_, rootExpires := ?_, rootKey := ?_, roleKey := ?_ }
    · show RootInv env m.signed
      rw [p2]; exact hb.root
    · show m.signed.consistentSnapshot = true
      rw [p2]; exact hb.consistent
    · show m.signed.expires = e
      rw [p2]; exact hb.rootExpires
    · have := hb.rootKey
      dsimp only at this ⊢
      rw [p2]
      exact this
    · have := hb.roleKey
      dsimp only at this ⊢
      rw [p2]
      exact this
  refine ⟨_, hrun, ⟨hb', ⟨[⟨m.signed, ss, d⟩], ⟨⟨?_, ?_⟩, ?_, ⟨_, rfl, rfl⟩⟩, Int.le_refl _⟩, ?_, ?_, ?_, ?_, ?_⟩, ?_, hld⟩
  · intro i p hi
    cases i with
    | succ i => simp at hi
    | zero =>
      simp only [List.getElem?_cons_zero, Option.some.injEq] at hi
      subst hi
      dsimp only
      rw [p2]
      obtain ⟨n, es, h1, h2, h3, h4⟩ := hb.rootKey
      exact ⟨rootInv_good hb.root, p4, suffice_key hk h2 (p5 n es h3 h4) p6 rfl, by rw [hv]; rfl⟩
  · intro i p p' _ hi
    simp at hi
  · show s4.signedRoots ++ [d] = _
    rw [hsr]
    rfl
  · obtain ⟨n, _, _, h3⟩ := hb.roleKey TARGETS (by simp)
    refine ⟨_, { version := 1 }, h3, ?_, ?_, .inl ⟨rfl, rfl⟩⟩
    · show s4.snapshot.signed.metas.entries.get? b!"targets.json" = _
      rw [hsn]; rfl
    · show _ = s4.targets.signed.version
      rw [htgt]; rfl
  · obtain ⟨n, _, _, h3⟩ := hb.roleKey SNAPSHOT (by simp)
    refine ⟨_, { version := 1 }, h3, ?_, ?_, .inl ⟨rfl, rfl⟩⟩
    · show s4.timestamp.signed.metas.get? b!"snapshot.json" = _
      rw [hts]; rfl
    · show _ = s4.snapshot.signed.version
      rw [hsn]; rfl
  · show 1 ≤ s4.timestamp.signed.version ∧ s4.timestamp.signed.version ≤ 1
    rw [hts]; exact ⟨Int.le_refl _, Int.le_refl _⟩
  · show 1 ≤ s4.snapshot.signed.version ∧ s4.snapshot.signed.version ≤ 1
    rw [hsn]; exact ⟨Int.le_refl _, Int.le_refl _⟩
  · show 1 ≤ s4.targets.signed.version ∧ s4.targets.signed.version ≤ 1
    rw [htgt]; exact ⟨Int.le_refl _, Int.le_refl _⟩
  · show m.signed.version = 1
    rw [p2]; exact hv

end

/-! ## The property -/

/-- C131: a new simulator can be made. -/
theorem C131_new {env : Env} {q : SimEnv} (he : q.env = std env) (hq : FreshKeys q) {e : Time} (hc : CalendarTime e) :
    ∃ s d, Sim.new q e = .ok s ∧ s.signedRoots = [d] ∧ s.root.signed.version = 1 ∧ s.timestamp.signed.version = 1 ∧ s.snapshot.signed.version = 1 ∧ s.targets.signed.version = 1 := by
  obtain ⟨mat, hk⟩ := simKeys he hq
  obtain ⟨s, h1, h2, h3, _⟩ := new_settled hk hc
  obtain ⟨l, l1, l2⟩ := h2.roots
  obtain ⟨p, hp, _⟩ := l1.last
  match l, l2, hp, l1.data with
  | [p'], _, _, hd =>
    exact ⟨s, p'.data, h1, hd, h3, Int.le_antisymm h2.timestamp.2 h2.timestamp.1, Int.le_antisymm h2.snapshot.2 h2.snapshot.1, Int.le_antisymm h2.targets.2 h2.targets.1⟩
  | _ :: _ :: _, l2, _, _ => simp only [List.length_cons] at l2; omega

/-- C131: a test makes a simulator, says where it is, and then again and again changes the repository and lets a client with an old cache, or none, visit it. Everything that the test does succeeds,
and every client ends up with what the simulator has at that time. -/
theorem C131_keeps_up {env : Env} {q : SimEnv} (he : q.env = std env) (hq : FreshKeys q) {e : Time} (hc : CalendarTime e) {s : Sim} (hs : Sim.new q e = .ok s) {d dir : Str} (hd : SimDir d)
    {vs : List SimVisit} (hn : (vs.flatMap SimVisit.steps).length < 2 ^ 61) (hv : GoodVisits q dir { s with localDir := d } vs) {w : World} (hw : NoTemps w.fs)
    (hcache : ∀ name, w.fs (joinPath dir name) = none) : VisitsSucceed q { s with localDir := d } w vs := by
  obtain ⟨mat, hk⟩ := simKeys he hq
  obtain ⟨s', h1, h2, _, _⟩ := new_settled hk hc
  rw [hs] at h1
  cases h1
  have h3 : Settled env q mat e 1 { s with localDir := d } := by
    obtain ⟨l, l1, l2⟩ := h2.roots
    exact ⟨{ h2.base with }, ⟨l, ⟨l1.chain, l1.data, l1.last⟩, l2⟩, h2.targetsListed, h2.snapshotListed, h2.timestamp, h2.snapshot, h2.targets⟩
  obtain ⟨runs, r1, _, r3, r4⟩ := visits_runs hk (by omega) h3 hd hv
  exact r4 w (C93_keeps_up (std_laws env) r1 r3 hw (fun v _ => ⟨fun d h => (by rw [hcache] at h; cases h), fun d h => (by rw [hcache] at h; cases h), fun d h => (by rw [hcache] at h; cases h)⟩))

end Tuf
