import Verif.Props.Cache
import Verif.Props.Sound
import Verif.Spec.Turns

/-!
# Clients that share a cache and take turns (C143)
-/

namespace Tuf
open Spec

section
variable {x : Ctx}

/-! ## What a refresh writes -/

/-- Timestamps that may be moved over `m`. -/
def Follows (env : Env) (R : Metadata RootType) (m : Metadata TimestampType) (role : Str) (data : Bytes) : Prop :=
  role = TIMESTAMP → ∃ n, IsTimestamp env R data n ∧ m.signed.version ≤ n.signed.version ∧
    ∀ v, Lists m.signed.metas b!"snapshot.json" v → ∃ v', Lists n.signed.metas b!"snapshot.json" v' ∧ v ≤ v'

/-- Snapshots that may be moved over `m`. -/
def FollowsSnapshot (env : Env) (R : Metadata RootType) (m : Metadata SnapshotType) (role : Str) (data : Bytes) : Prop :=
  role = SNAPSHOT → ∃ n, IsSnapshot env R data n ∧ ListsNoLess m.signed.metas n.signed.metas

theorem afterRoot_keepsRoot (s : St) : (afterRoot x s).2.trusted.root = s.trusted.root := by
  have k : Keeps (fun t : Trusted => t.root) (afterRoot x) := by
    unfold afterRoot
    refine keeps_bind (fun s => (loadTimestamp_keeps s).1) (fun _ => keeps_bind (fun s => (loadSnapshot_keeps s).1) (fun _ => keeps_bind (fun s => (loadTargets_keeps _ _ s).1) (fun _ => keeps_pure _)))
  exact k s

theorem refresh_root (hu : x.cfg.unsafeLocalMode = false) {s s1 : St} (h : loadRoot x s = (.ok (), s1)) : (refresh x s).2.trusted.root = s1.trusted.root := by
  rw [refresh_online hu, SM.bind_ok h]
  exact afterRoot_keepsRoot s1

theorem exec_timestamp_follows {s : St} (hread : ∀ tr p, x.host.readFails tr p = false) {d : Bytes} {m : Metadata TimestampType}
    (hfile : s.world.fs (localPath x.cfg TIMESTAMP) = some d) (hm : IsTimestamp x.env s.trusted.root d m) (h0 : s.trusted.timestamp = none) :
    Exec x (EventOk x moveExtra (fun _ => Follows x.env s.trusted.root m)) s (loadTimestamp x s).2 := by
  unfold loadTimestamp
  have hrd := tryLocal_read (x := x) (role := TIMESTAMP) (f := fun data t => t.updateTimestamp x.env data) (s := s) (hread _ _) hfile
  refine exec_bind (exec_tryLocal' (fun data t => ⟨.timestamp data, rfl, fun _ => trivial⟩)) ?_
  intro o s1 h1
  rw [h1] at hrd
  refine exec_bind (exec_onWorld (exec_fetch (.inr trivial))) ?_
  intro data s2 h2
  refine exec_bind (exec_try (exec_call (.timestamp data) trivial rfl)) ?_
  intro r s3 h3
  cases r with
  | error e => dsimp only; split <;> exact .refl
  | ok n =>
    refine exec_onWorld (exec_persist (fun _ => ?_))
    rcases SM.try_eq_ok.1 h3 with ⟨v, hv, h4⟩ | ⟨e, he, _⟩
    · cases hv
      obtain ⟨ha, _, _⟩ := updateTimestamp_ok (onTrusted_ok h4).1
      have e2 : s2.trusted = (s.trusted.updateTimestamp x.env d).2 := (onWorld_trusted h2).trans hrd.1
      have ek := updateTimestamp_keeps x.env d s.trusted
      rw [← e2] at ek
      have hacc : TimestampAccepted x.env s.trusted d m := by
        refine ⟨?_, ?_, hm.parsed, hm.type, hm.signed, fun old ho => ?_, fun old ho => ?_⟩
        · have := ha.early; rw [ek] at this; exact this
        · have := ha.rootFresh; rw [ek] at this; exact this
        · rw [h0] at ho; cases ho
        · rw [h0] at ho; cases ho
      have hst := e2.trans (updateTimestamp_stores hacc)
      have ho : s2.trusted.timestamp = some m := by rw [hst]
      have hr : s2.trusted.root = s.trusted.root := by rw [hst]
      refine ⟨n, ⟨ha.parsed, ha.type, by rw [← hr]; exact ha.signed⟩, Int.le_of_lt (ha.newer m ho), ?_⟩
      intro v hl
      obtain ⟨v1, v2, l1, l2, l3⟩ := ha.snapshotVersion m ho
      obtain ⟨f, f1, rfl⟩ := hl
      obtain ⟨g, g1, rfl⟩ := l1
      rw [f1] at g1; cases g1
      exact ⟨v2, l2, l3⟩
    · cases he

theorem mem_of_goMap {α : Type} {m : GoMap α} {k : Str} {v : α} (h : m.get? k = some v) : (k, v) ∈ m.entries := by
  cases m with
  | none => cases h
  | some l => exact Entries.mem_of_get? h

theorem exec_snapshot_follows {s : St} (hread : ∀ tr p, x.host.readFails tr p = false) {d : Bytes} {m : Metadata SnapshotType}
    (hfile : s.world.fs (localPath x.cfg SNAPSHOT) = some d) (hm : IsSnapshot x.env s.trusted.root d m) (h0 : s.trusted.snapshot = none) :
    Exec x (EventOk x moveExtra (fun _ => FollowsSnapshot x.env s.trusted.root m)) s (loadSnapshot x s).2 := by
  unfold loadSnapshot
  have hrd := tryLocal_read (x := x) (role := SNAPSHOT) (f := fun data t => t.updateSnapshot x.env data true) (s := s) (hread _ _) hfile
  refine exec_bind (exec_tryLocal' (fun data t => ⟨.snapshot data true, rfl, fun _ => trivial⟩)) ?_
  intro o s1 h1
  rw [h1] at hrd
  cases o with
  | some m => exact .refl
  | none =>
    refine exec_bind exec_getTrusted ?_
    intro t s1' h1'
    cases h1'
    cases s1.trusted.timestamp with
    | none => exact .refl
    | some ts =>
      refine exec_bind exec_lift ?_
      intro f s2 h2
      obtain ⟨_, rfl⟩ := lift_ok h2
      refine exec_bind (exec_onWorld (exec_fetch (.inr trivial))) ?_
      intro data s3 h3
      refine exec_bind (exec_call (.snapshot data false) trivial rfl) ?_
      intro n s4 h4
      refine exec_onWorld (exec_persist (fun _ => ?_))
      obtain ⟨ha, _, _⟩ := updateSnapshot_ok (onTrusted_ok h4).1
      have e2 : s3.trusted = (s.trusted.updateSnapshot x.env d true).2 := (onWorld_trusted h3).trans hrd.1
      have ek := updateSnapshot_keeps x.env d true s.trusted
      rw [← e2] at ek
      have hacc : SnapshotAccepted x.env s.trusted d true m := by
        obtain ⟨ts', i1, i2, _⟩ := ha.timestamp
        rw [ek] at i1 i2
        refine ⟨⟨ts', i1, i2, by simp⟩, ?_, hm.parsed, hm.type, hm.signed, fun old ho => ?_⟩
        · have := ha.early; rw [ek] at this; exact this
        · rw [h0] at ho; cases ho
      have hst := e2.trans (updateSnapshot_stores hacc)
      have ho : s3.trusted.snapshot = some m := by rw [hst]
      have hr : s3.trusted.root = s.trusted.root := by rw [hst]
      refine ⟨n, ⟨ha.parsed, ha.type, by rw [← hr]; exact ha.signed⟩, ?_⟩
      rintro name v ⟨f, f1, rfl⟩
      obtain ⟨o, n', g1, g2, g3⟩ := ha.noRollback m ho name _ (mem_of_goMap f1)
      cases g1
      exact ⟨n'.version, ⟨n', g2, rfl⟩, g3⟩

theorem exec_refresh_follows (hu : x.cfg.unsafeLocalMode = false) (hread : ∀ tr p, x.host.readFails tr p = false) {s : St} (h0 : s.trusted.timestamp = none) {d : Bytes} {m : Metadata TimestampType}
    (hfile : s.world.fs (localPath x.cfg TIMESTAMP) = some d) (hm : IsTimestamp x.env (refresh x s).2.trusted.root d m) :
    Exec x (EventOk x moveExtra (fun _ => Follows x.env (refresh x s).2.trusted.root m)) s (refresh x s).2 := by
  have hne : ∀ {role data}, role ≠ TIMESTAMP → Follows x.env (refresh x s).2.trusted.root m role data := fun h h' => absurd h' h
  generalize hR : (refresh x s).2.trusted.root = R at hm hne ⊢
  rw [refresh_online hu]
  refine exec_bind (exec_loadRoot' (fun _ _ => trivial) (fun _ _ => hne (by decide))) ?_
  intro _ s1 h1
  have hr := refresh_root hu h1
  rw [hR] at hr
  subst hr
  have kf := loadRoot_files (x := x) s (role := TIMESTAMP) (by decide)
  rw [h1] at kf
  unfold afterRoot
  refine exec_bind (exec_timestamp_follows hread (kf.trans hfile) hm (by rw [loadRoot_keeps h1]; exact h0)) ?_
  intro _ s2 _
  refine exec_bind (exec_loadSnapshot' (fun _ _ _ => trivial) (fun _ _ => hne (by decide))) ?_
  intro _ s3 _
  refine exec_bind (exec_loadTopTargets' (fun _ _ _ => trivial) (fun _ _ => hne (by decide))) ?_
  intro _ s4 _
  exact .refl

theorem exec_refresh_followsSnapshot (hu : x.cfg.unsafeLocalMode = false) (hread : ∀ tr p, x.host.readFails tr p = false) {s : St} (h0 : s.trusted.snapshot = none) {d : Bytes} {m : Metadata SnapshotType}
    (hfile : s.world.fs (localPath x.cfg SNAPSHOT) = some d) (hm : IsSnapshot x.env (refresh x s).2.trusted.root d m) :
    Exec x (EventOk x moveExtra (fun _ => FollowsSnapshot x.env (refresh x s).2.trusted.root m)) s (refresh x s).2 := by
  have hne : ∀ {role data}, role ≠ SNAPSHOT → FollowsSnapshot x.env (refresh x s).2.trusted.root m role data := fun h h' => absurd h' h
  generalize hR : (refresh x s).2.trusted.root = R at hm hne ⊢
  rw [refresh_online hu]
  refine exec_bind (exec_loadRoot' (fun _ _ => trivial) (fun _ _ => hne (by decide))) ?_
  intro _ s1 h1
  have hr := refresh_root hu h1
  rw [hR] at hr
  subst hr
  have kf := loadRoot_files (x := x) s (role := SNAPSHOT) (by decide)
  rw [h1] at kf
  unfold afterRoot
  refine exec_bind (exec_loadTimestamp' (fun _ => trivial) (fun _ _ => hne (by decide))) ?_
  intro _ s2 h2
  have kf2 := loadTimestamp_files (x := x) s1 (role := SNAPSHOT) (by decide)
  have k2 := loadTimestamp_keeps (x := x) s1
  rw [h2] at kf2 k2
  dsimp only at kf2 k2
  rw [← k2.1] at hm hne ⊢
  refine exec_bind (exec_snapshot_follows hread (kf2.trans (kf.trans hfile)) hm (by rw [k2.2.1, loadRoot_keeps h1]; exact h0)) ?_
  intro _ s3 _
  refine exec_bind (exec_loadTopTargets' (fun _ _ _ => trivial) (fun _ _ => hne (by decide))) ?_
  intro _ s4 _
  exact .refl

end

/-! ## C143 -/

section
variable {env : Env} {D : Metadata RootType} {dir : Str}

theorem Spec.NotBehind.refl {fs : FS} : NotBehind env D dir fs fs :=
  ⟨fun d m h1 h2 => ⟨d, m, h1, h2, Int.le_refl _, fun v hl => ⟨v, hl, Int.le_refl _⟩⟩, fun d m h1 h2 => ⟨d, m, h1, h2, fun _ v hl => ⟨v, hl, Int.le_refl _⟩⟩⟩

theorem Spec.NotBehind.trans {a b c : FS} (h1 : NotBehind env D dir a b) (h2 : NotBehind env D dir b c) : NotBehind env D dir a c := by
  constructor
  · intro d m e1 e2
    obtain ⟨d', m', i1, i2, i3, i4⟩ := h1.timestamp d m e1 e2
    obtain ⟨d'', m'', j1, j2, j3, j4⟩ := h2.timestamp d' m' i1 i2
    refine ⟨d'', m'', j1, j2, Int.le_trans i3 j3, fun v hl => ?_⟩
    obtain ⟨v', l1, l2⟩ := i4 v hl
    obtain ⟨v'', l3, l4⟩ := j4 v' l1
    exact ⟨v'', l3, Int.le_trans l2 l4⟩
  · intro d m e1 e2
    obtain ⟨d', m', i1, i2, i4⟩ := h1.snapshot d m e1 e2
    obtain ⟨d'', m'', j1, j2, j4⟩ := h2.snapshot d' m' i1 i2
    refine ⟨d'', m'', j1, j2, fun name v hl => ?_⟩
    obtain ⟨v', l1, l2⟩ := i4 name v hl
    obtain ⟨v'', l3, l4⟩ := j4 name v' l1
    exact ⟨v'', l3, Int.le_trans l2 l4⟩

theorem notBehind_same {fs fs' : FS} (h1 : fs' (joinPath dir b!"timestamp.json") = fs (joinPath dir b!"timestamp.json"))
    (h2 : fs' (joinPath dir b!"snapshot.json") = fs (joinPath dir b!"snapshot.json")) : NotBehind env D dir fs fs' :=
  ⟨fun d m e1 e2 => ⟨d, m, h1.trans e1, e2, Int.le_refl _, fun v hl => ⟨v, hl, Int.le_refl _⟩⟩, fun d m e1 e2 => ⟨d, m, h2.trans e1, e2, fun _ v hl => ⟨v, hl, Int.le_refl _⟩⟩⟩

theorem cacheNames {x : Ctx} (hx : x.cfg.localMetadataDir = dir) : persistPath x.cfg TIMESTAMP = joinPath dir b!"timestamp.json" ∧ persistPath x.cfg SNAPSHOT = joinPath dir b!"snapshot.json" ∧
    persistPath x.cfg ROOT = joinPath dir b!"root.json" := by
  have c := cacheFile x
  have l := C48_top_level x
  rw [← l _ (by decide), ← l _ (by decide), ← l _ (by decide), c.1, c.2.1, c.2.2.2, hx]
  exact ⟨rfl, rfl, rfl⟩

/-- While a complete trusted set is kept, only targets roles that the snapshot lists are accepted. -/
theorem complete_accepts {t u : Trusted} {role : Str} {data : Bytes} {sn : Metadata SnapshotType} (hs : t.snapshot = some sn) (ht : (t.targets.get? b!"targets").isSome)
    (h : JustAccepted env t u role data) (hr : role ≠ b!"root") : ∃ f, sn.signed.metas.get? (role ++ b!".json") = some (some f) := by
  obtain ⟨c, before, ho, hh, _, hrun⟩ := h
  have fr := C12_frozen hh.history
  obtain ⟨f1, f2⟩ := fr.2.2 ht
  have f3 := (fr.2.1 (by rw [hs]; rfl)).2
  cases c with
  | root d => exact absurd ho.1 hr
  | timestamp d =>
    rcases updateTimestamp_cases env before d with ⟨n, ha, _⟩ | ⟨e, he⟩ | he
    · rw [ha.early] at f3; cases f3
    · rw [Call.run, he] at hrun; cases hrun
    · rw [Call.run, he] at hrun; cases hrun
  | snapshot d b =>
    rcases updateSnapshot_cases env before d b with ⟨n, ha, _⟩ | ⟨e, he⟩ | he
    · rw [ha.early] at f2; cases f2
    · rw [Call.run, he] at hrun; cases hrun
    · rw [Call.run, he] at hrun; cases hrun
  | targets d r q =>
    obtain ⟨rfl, _⟩ := ho
    rcases updateTargets_cases env before d role q with ⟨n, _, ha⟩ | ⟨e, he⟩ | he
    · obtain ⟨sn', _, f, _, g1, _, _, _, g2, _⟩ := ha.snapshot
      rw [f1, hs] at g1
      cases g1
      exact ⟨f, g2⟩
    · rw [Call.run, he] at hrun; cases hrun
    · rw [Call.run, he] at hrun; cases hrun

/-- C143, the cache: while clients take turns on a cache, finished or interrupted, successful or not, the cached timestamp and snapshot are replaced by newer ones only. -/
theorem C143_cache {fs fs' : FS} (h : Turns env D dir fs fs') : NotBehind env D dir fs fs' := by
  induction h with
  | start => exact .refl
  | @new x w evs fs' _ hdir ht hc ih =>
    obtain ⟨n1, n2, n4⟩ := cacheNames hdir
    have key : ∀ role, role ≠ ROOT → fs' (persistPath x.cfg role) = w.fs (persistPath x.cfg role) := by
      intro role hr
      rcases C28_new ht hc (persistPath_not_temp x.cfg role) with h | ⟨h, _⟩
      · exact h
      · rw [hdir, ← n4] at h
        exact absurd (persistPath_inj h) hr
    have k1 := key TIMESTAMP (by decide)
    have k2 := key SNAPSHOT (by decide)
    rw [n1] at k1; rw [n2] at k2
    exact ih.trans (notBehind_same k1 k2)
  | @refresh x now s evs fs' _ he hdir hu hread hnew hsame ht hc ih =>
    subst he
    obtain ⟨n1, n2, _⟩ := cacheNames hdir
    obtain ⟨_, _, _, z1, z2, _⟩ := new_root hnew
    have l1 := C48_top_level x TIMESTAMP (by decide)
    have l2 := C48_top_level x SNAPSHOT (by decide)
    refine ih.trans ⟨fun d m e1 e2 => ?_, fun d m e1 e2 => ?_⟩
    · have hm : IsTimestamp x.env (refresh x s).2.trusted.root d m := ⟨e2.parsed, e2.type, (hsame.timestamp m).2 e2.signed⟩
      rcases crash_files (exec_refresh_follows hu hread z1 (by rw [l1, n1]; exact e1) hm) ht hc (persistPath_not_temp x.cfg TIMESTAMP) id with h | ⟨role, d', t, h1, h2, h3⟩
      · rw [n1] at h
        exact ⟨d, m, h.trans e1, e2, Int.le_refl _, fun v hl => ⟨v, hl, Int.le_refl _⟩⟩
      · obtain rfl := persistPath_inj (show persistPath x.cfg TIMESTAMP = persistPath x.cfg role from h1)
        obtain ⟨n, i1, i2, i3⟩ := h3 rfl
        exact ⟨d', n, by rw [← n1]; exact h2, ⟨i1.parsed, i1.type, (hsame.timestamp n).1 i1.signed⟩, i2, i3⟩
    · have hm : IsSnapshot x.env (refresh x s).2.trusted.root d m := ⟨e2.parsed, e2.type, (hsame.snapshot m).2 e2.signed⟩
      rcases crash_files (exec_refresh_followsSnapshot hu hread z2 (by rw [l2, n2]; exact e1) hm) ht hc (persistPath_not_temp x.cfg SNAPSHOT) id with h | ⟨role, d', t, h1, h2, h3⟩
      · rw [n2] at h
        exact ⟨d, m, h.trans e1, e2, fun _ v hl => ⟨v, hl, Int.le_refl _⟩⟩
      · obtain rfl := persistPath_inj (show persistPath x.cfg SNAPSHOT = persistPath x.cfg role from h1)
        obtain ⟨n, i1, i2⟩ := h3 rfl
        exact ⟨d', n, by rw [← n2]; exact h2, ⟨i1.parsed, i1.type, (hsame.snapshot n).1 i1.signed⟩, i2⟩
  | @call x s sn a evs fs' _ hdir hsn htg hnames hdl ht hc ih =>
    obtain ⟨n1, n2, _⟩ := cacheNames hdir
    have key : ∀ role, role ≠ ROOT → persistPath x.cfg role = joinPath dir (role ++ b!".json") → role ++ b!".json" ∈ [b!"timestamp.json", b!"snapshot.json"] →
        fs' (persistPath x.cfg role) = s.world.fs (persistPath x.cfg role) := by
      intro role hr hn hin
      rcases C28_crash_atomic a s ht hc (persistPath_not_temp x.cfg role) (fun tf f u ha he => hdl tf f u ha _ hin (by rw [he, hn])) with h | ⟨role', data, u, h1, _, h3⟩
      · exact h
      · obtain rfl := persistPath_inj (show persistPath x.cfg role = persistPath x.cfg role' from h1)
        obtain ⟨f, hf⟩ := complete_accepts hsn htg h3 hr
        exact absurd hf (hnames _ hin f)
    have k1 := key TIMESTAMP (by decide) n1 (by decide)
    have k2 := key SNAPSHOT (by decide) n2 (by decide)
    rw [n1] at k1; rw [n2] at k2
    exact ih.trans (notBehind_same k1 k2)

/-- C143: a client refreshes successfully, then clients take turns on the cache, and then another client refreshes successfully for the first time. If the roots demand the same of timestamps and
snapshots, then no version that it trusts is lower. -/
theorem C143_sessions {x y : Ctx} (hx : x.env = env) (hy : y.env = env) (hdx : x.cfg.localMetadataDir = dir) (hdy : y.cfg.localMetadataDir = dir)
    (hux : x.cfg.unsafeLocalMode = false) (huy : y.cfg.unsafeLocalMode = false) (hd : x.cfg.disableLocalCache = false) (hread : ∀ tr p, y.host.readFails tr p = false)
    {s s' r r' : St} {now now' : Time} (hs : Trusted.new env now x.cfg.localTrustedRoot = .ok s.trusted) (hr : Trusted.new env now' y.cfg.localTrustedRoot = .ok r.trusted)
    (h1 : refresh x s = (.ok (), s')) (h2 : refresh y r = (.ok (), r'))
    (hD : SameDemands env D s'.trusted.root) (hD' : SameDemands env D r'.trusted.root) (hturns : Turns env D dir s'.world.fs r.world.fs) :
    ∃ ts sn tg ts' sn' tg', s'.trusted.timestamp = some ts ∧ s'.trusted.snapshot = some sn ∧ s'.trusted.targets.get? b!"targets" = some tg ∧
      r'.trusted.timestamp = some ts' ∧ r'.trusted.snapshot = some sn' ∧ r'.trusted.targets.get? b!"targets" = some tg' ∧
      ts.signed.version ≤ ts'.signed.version ∧ sn.signed.version ≤ sn'.signed.version ∧ tg.signed.version ≤ tg'.signed.version := by
  subst hx
  obtain ⟨ts, sn, tg, a1, a2, a3, _, _, _, a4, a5, _, a6, a7⟩ := (C24_refresh_complete (w := s.world) hs .refl h1).roles
  obtain ⟨ts', sn', tg', b1, b2, b3, _, _, _, b4, b5, _, b6, b7⟩ := (C24_refresh_complete (x := y) (now := now') (w := r.world) (by rw [hy]; exact hr) .refl h2).roles
  refine ⟨ts, sn, tg, ts', sn', tg', a1, a2, a3, b1, b2, b3, ?_⟩
  have hs0 := (new_root hs).2.2.2.1
  have hr0 := (new_root hr).2.2.2.1
  -- the files that the first refresh leaves
  obtain ⟨s1, s2, s3, m, p1, p2, p3, p4⟩ := refresh_parts hux h1
  have k1 := loadRoot_keeps p1
  have k3 := loadSnapshot_keeps (x := x) s2
  have k4 := loadTargets_keeps (x := x) TARGETS ROOT s3
  rw [p3] at k3; rw [p4] at k4
  dsimp only at k3 k4
  have g3 := fun role hr => loadSnapshot_files (x := x) s2 (role := role) hr
  have g4 := fun role hr => loadTopTargets_files (x := x) s3 (role := role) hr
  rw [p3] at g3; rw [p4] at g4
  dsimp only at g3 g4
  obtain ⟨dt, i1, i2, i3⟩ := loadTimestamp_cached hd p2 (by rw [k1]; exact hs0) (ts := ts) ((k4.2.1.trans k3.2.1).symm.trans a1)
  obtain ⟨ds, sn0, j1, j2, j3, j4⟩ := loadSnapshot_cached hd p3
  obtain rfl : sn0 = sn := by
    have := (k4.2.2.1.trans j1).symm.trans a2
    cases this; rfl
  have c := cacheFile x
  have e1 : s'.world.fs (joinPath dir b!"timestamp.json") = some dt := by
    rw [← hdx, ← c.1, g4 _ (by decide), g3 _ (by decide)]; exact i1
  have e2 : s'.world.fs (joinPath dir b!"snapshot.json") = some ds := by
    rw [← hdx, ← c.2.1, g4 _ (by decide)]; exact j2
  -- the files that the second refresh finds
  have nb := C143_cache hturns
  obtain ⟨dt', mt, q1, q2, q3, q4⟩ := nb.timestamp dt ts e1 ⟨i2, i3, (hD.timestamp ts).1 a4⟩
  obtain ⟨ds', ms, u1, u2, u3⟩ := nb.snapshot ds sn0 e2 ⟨j3, j4, (hD.snapshot sn0).1 a5⟩
  rw [← hdy] at q1 u1
  rw [← hy] at q2 u2 hD'
  obtain ⟨⟨tn, v1, v2⟩, v3⟩ := C29_timestamp huy hr0 h2 q1 (fun tr => hread tr _) q2.parsed q2.type ((hD'.timestamp mt).2 q2.signed)
  have v4 := C29_snapshot huy hr0 h2 u1 (fun tr => hread tr _) u2.parsed u2.type ((hD'.snapshot ms).2 u2.signed)
  have same : ∀ {metas : GoMap (Option MetaFiles)} {name : Str} {v v' : Int}, Lists metas name v → Lists metas name v' → v = v' := by
    rintro metas name _ _ ⟨f, f1, rfl⟩ ⟨g, g1, rfl⟩
    rw [f1] at g1; cases g1; rfl
  rw [b1] at v1; cases v1
  refine ⟨Int.le_trans q3 v2, ?_, ?_⟩
  · obtain ⟨w1, l1, l2⟩ := q4 _ a6
    obtain ⟨n', w2, l3, l4, l5⟩ := v3 _ l1
    rw [b1] at l3; cases l3
    rw [← same l4 b6]
    exact Int.le_trans l2 l5
  · obtain ⟨w1, l1, l2⟩ := u3 _ _ a7
    obtain ⟨n', w2, l3, l4, l5⟩ := v4 _ _ l1
    rw [b2] at l3; cases l3
    rw [← same l4 b7]
    exact Int.le_trans l2 l5

end
end Tuf

namespace Tuf
open Spec
namespace Sample

/-- The server of a repository that is at version `v`. -/
def ctxAt (v : UInt8) : Ctx :=
  ⟨repoEnv, hostOf (fun url => if url = b!"u/timestamp.json" then .ok [2, v] else if url = b!"u/" ++ formatNat 10 v.toNat ++ b!".snapshot.json" then .ok [3, v]
    else if url = b!"u/" ++ formatNat 10 v.toNat ++ b!".targets.json" then .ok [4, v] else .error (.downloadHTTP 404 url)), cfg⟩

/-- A refresh of a client with trusted set `t`, in a process of its own. -/
def turn (v : UInt8) (t : Trusted) (fs : FS) : Res Unit × St := refresh (ctxAt v) ⟨t, { fs := fs }⟩

theorem turn_root {v : UInt8} (hv : v = 4 ∨ v = 6) {t : Trusted} (fs : FS) (h : t.root.signed.version = 1) : (turn v t fs).2.trusted.root = t.root := by
  have hl : ∃ tr, loadRoot (ctxAt v) ⟨t, { fs := fs }⟩ = (.ok (), ⟨t, { fs := fs, trace := tr }⟩) := by
    unfold loadRoot
    rw [SM.bind_apply]
    simp only [getTrusted, h]
    rcases hv with rfl | rfl <;> exact ⟨_, rfl⟩
  obtain ⟨tr, hl⟩ := hl
  unfold turn
  rw [refresh_root rfl hl]

/-- Version 4, then version 6, then a server that still or again has version 4, then version 6. -/
def fs1 (t : Trusted) : FS := (turn 4 t (disk [])).2.world.fs
def fs2 (t : Trusted) : FS := (turn 6 t (fs1 t)).2.world.fs
def fs3 (t : Trusted) : FS := (turn 4 t (fs2 t)).2.world.fs

def stepsOf (t : Trusted) : List (Res Unit × St) := [turn 4 t (disk []), turn 6 t (fs1 t), turn 4 t (fs2 t), turn 6 t (fs3 t)]

def isBadVersion : Res Unit → Bool
  | .err (.badVersionNumber _) => true
  | _ => false

def isOk : Res Unit → Bool
  | .ok _ => true
  | _ => false

def turnsSeen : Option (Int × List (Bool × Bool × Option Int × Option Bytes)) :=
  match start [1, 1] with
  | .ok t => some (t.root.signed.version, (stepsOf t).map (fun r => (isOk r.1, isBadVersion r.1, r.2.trusted.timestamp.map (·.signed.version), r.2.world.fs b!"m/timestamp.json")))
  | _ => none

set_option synthInstance.maxSize 1000 in
/-- The client that meets the old server fails, and the next one is not affected. -/
theorem turnsSeen_eq : turnsSeen =
    some (1, [(true, false, some 4, some [2, 4]), (true, false, some 6, some [2, 6]), (false, true, some 6, some [2, 6]), (true, false, some 6, some [2, 6])]) := by decide +kernel

theorem isOk_eq {r : Res Unit} (h : isOk r = true) : r = .ok () := by
  cases r with
  | ok u => rfl
  | err e => cases h
  | panic => cases h

theorem isBadVersion_eq {r : Res Unit} (h : isBadVersion r = true) : ∃ m, r = .err (.badVersionNumber m) := by
  unfold isBadVersion at h
  split at h
  · exact ⟨_, rfl⟩
  · cases h

end Sample

open Sample in
/-- The hypotheses of C143 are met by these four clients: the first and the last refresh successfully, between them one succeeds and one fails. -/
theorem C143_example : ∃ (t : Trusted) (s' r' : St), Trusted.new repoEnv now cfg.localTrustedRoot = .ok t ∧
    refresh (ctxAt 4) ⟨t, { fs := disk [] }⟩ = (.ok (), s') ∧ refresh (ctxAt 6) ⟨t, { fs := fs3 t }⟩ = (.ok (), r') ∧
    SameDemands repoEnv t.root s'.trusted.root ∧ SameDemands repoEnv t.root r'.trusted.root ∧ Turns repoEnv t.root b!"m" s'.world.fs (fs3 t) ∧
    (∃ m, (turn 4 t (fs2 t)).1 = .err (.badVersionNumber m)) ∧
    s'.trusted.timestamp.map (·.signed.version) = some 4 ∧ r'.trusted.timestamp.map (·.signed.version) = some 6 := by
  have hs := turnsSeen_eq
  unfold turnsSeen at hs
  split at hs
  · next t ht =>
    simp only [stepsOf, List.map, Option.some.injEq, Prod.mk.injEq, List.cons.injEq, and_true] at hs
    obtain ⟨hv, ⟨a1, _, a2, _⟩, _, ⟨_, c1, _⟩, d1, _, d2, _⟩ := hs
    have same : ∀ r : Metadata RootType, r = t.root → SameDemands repoEnv t.root r := by
      rintro _ rfl
      exact ⟨fun _ => Iff.rfl, fun _ => Iff.rfl⟩
    have step : ∀ v : UInt8, v = 4 ∨ v = 6 → ∀ fs, Turns repoEnv t.root b!"m" (fs1 t) fs → Turns repoEnv t.root b!"m" (fs1 t) (turn v t fs).2.world.fs := by
      intro v hv' fs h
      obtain ⟨evs, e1, e2⟩ := (exec_refresh_root (x := ctxAt v) ⟨t, { fs := fs }⟩).events
      exact .refresh (x := ctxAt v) (now := now) (s := ⟨t, { fs := fs }⟩) h rfl rfl rfl (fun _ _ => rfl) ht (same _ (turn_root hv' fs hv)) e1 ⟨evs, [], by simp, .inl e2⟩
    refine ⟨t, (turn 4 t (disk [])).2, (turn 6 t (fs3 t)).2, ht, Prod.ext (isOk_eq a1) rfl, Prod.ext (isOk_eq d1) rfl, same _ (turn_root (.inl rfl) _ hv), same _ (turn_root (.inr rfl) _ hv), ?_, isBadVersion_eq c1, a2, d2⟩
    exact step 4 (.inl rfl) _ (step 6 (.inr rfl) _ .start)
  · cases hs

end Tuf
