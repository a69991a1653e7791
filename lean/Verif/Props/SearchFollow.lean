import Verif.Props.HonestTree
import Verif.Spec.SearchFollow

/-!
# Clients that search a repository from one release to the next (C129)
-/

namespace Tuf
open Spec

/-- A client of the run was just made, in a world whose cache files are those of `fs` except for the root. -/
structure JustMade (v : ClientRun) (fs : FS) (s : St) : Prop where
  roots : ∃ t, RootsLeadTo v.x v.srv v.x.cfg.maxRootRotations.toNat s.trusted t ∧ t.root.signed = readRoot v.r
  rotations : 0 ≤ v.x.cfg.maxRootRotations ∧ wrap64 (s.trusted.root.signed.version + 1) + v.x.cfg.maxRootRotations < 2 ^ 63
  timestamp : s.trusted.timestamp = none
  snapshot : s.trusted.snapshot = none
  targets : s.trusted.targets = []
  time : s.trusted.refTime = v.now
  temps : NoTemps s.world.fs
  files : ∀ role, role ≠ ROOT → s.world.fs (persistPath v.x.cfg role) = fs (persistPath v.x.cfg role)

/-- What such a client has cached is what was cached. -/
theorem JustMade.cache {v : ClientRun} {fs : FS} {s : St} (h : JustMade v fs s) (hc : CacheBefore v.x.env v.x.cfg.localMetadataDir fs v.R) :
    CacheBefore v.x.env v.x.cfg.localMetadataDir s.world.fs v.R := by
  have c := cacheFile v.x
  have l := C48_top_level v.x
  have e1 : s.world.fs (joinPath v.x.cfg.localMetadataDir b!"timestamp.json") = fs (joinPath v.x.cfg.localMetadataDir b!"timestamp.json") := by
    have := h.files TIMESTAMP (by decide)
    rw [← l _ (by decide), c.1] at this
    exact this
  have e2 : s.world.fs (joinPath v.x.cfg.localMetadataDir b!"snapshot.json") = fs (joinPath v.x.cfg.localMetadataDir b!"snapshot.json") := by
    have := h.files SNAPSHOT (by decide)
    rw [← l _ (by decide), c.2.1] at this
    exact this
  have e3 : s.world.fs (joinPath v.x.cfg.localMetadataDir b!"targets.json") = fs (joinPath v.x.cfg.localMetadataDir b!"targets.json") := by
    have := h.files TARGETS (by decide)
    rw [← l _ (by decide), c.2.2.1] at this
    exact this
  exact ⟨by rw [e1]; exact hc.timestamp, by rw [e2]; exact hc.snapshot, by rw [e3]; exact hc.targets⟩

theorem JustMade.roles {v : ClientRun} {fs : FS} {s : St} (h : JustMade v fs s) {docs : Str → Option PubRole} (hn : ∀ role p, docs role = some p → SafeName role ∧ role ≠ ROOT)
    (hc : RolesBefore v.x.env v.x.cfg.localMetadataDir fs docs) : RolesBefore v.x.env v.x.cfg.localMetadataDir s.world.fs docs := by
  intro role p d hr hne hf
  obtain ⟨n1, n2⟩ := hn role p hr
  obtain ⟨e1, e2⟩ := safeName_local (cfg := v.x.cfg) n1
  have := h.files role n2
  rw [← e1, e2] at this
  rw [this] at hf
  exact hc role p d hr hne hf

/-- A new client of a run. -/
theorem justMade {env : Env} {dir : Str} {v : ClientRun} (hg : v.Good env dir) {w : World} (hw : NoTemps w.fs) :
    ∃ t0 w1, newUpdater v.x w = (.ok t0, w1) ∧ JustMade v w.fs ⟨t0, w1⟩ := by
  obtain ⟨t0, t, hne, h1, h2, h3, h4, h5⟩ := hg.roots
  obtain ⟨w1, n1, n2, n3⟩ := new_progress hg h1 hne hw
  obtain ⟨q, hq⟩ : ∃ m, t0 = { root := m, refTime := v.now } := by
    obtain ⟨m, _, _, _, hm⟩ := C78_new.1 h1
    exact ⟨m, hm⟩
  exact ⟨t0, w1, n1, ⟨t, h4, h5⟩, ⟨h2, h3⟩, by rw [hq], by rw [hq], by rw [hq], by rw [hq], n2, n3⟩

/-- The searches of a session. -/
theorem asked {x : Ctx} {srv : Str → Int → Except Err Bytes} {now : Time} {r : RootType} {sn : SnapshotType} {tg : TargetsType} {docs : Str → Option PubRole} (laws : EnvLaws x.env)
    (hs : Serves x.host srv) (hd : x.cfg.disableLocalCache = true ∨ GoodDisk x.host) {paths : List Str} (hb : ∀ path ∈ paths, Branches x srv now r sn tg path docs) {s : St}
    (g2 : OnRelease x now r sn docs s) (g3 : (s.trusted.targets.get? b!"targets").isSome) :
    ∃ s', SearchesAnswered x docs s paths s' ∧ Wrote x docs s s' ∧ NoTemps s'.world.fs := by
  induction paths generalizing s with
  | nil => exact ⟨s, .nil, .rfl', g2.temps⟩
  | cons path paths ih =>
    obtain ⟨q1, q2, q3, q4, q5⟩ := getTargetInfo_onRelease laws hs hd (hb path (by simp)) g2 g3
    have hgr : Grows s.trusted (getTargetInfo x path s).2.trusted := by
      obtain ⟨vs, hr⟩ := getTargetInfo_run (x := x) (path := path) s
      generalize (getTargetInfo x path s).1 = out at hr
      generalize (getTargetInfo x path s).2 = s' at hr
      cases hr with
      | direct h0 h1 => exact search_grows h1
      | refreshed h0 => rw [h0] at g3; cases g3
      | notRefreshed h0 => rw [h0] at g3; cases g3
    have hin : ((getTargetInfo x path s).2.trusted.targets.get? b!"targets").isSome := by
      cases hm : s.trusted.targets.get? b!"targets" with
      | none => rw [hm] at g3; cases g3
      | some m => rw [hgr _ _ hm]; rfl
    obtain ⟨s', k1, k2, k3⟩ := ih (fun p hp => hb p (by simp [hp])) q1 hin
    exact ⟨s', .cons ⟨q3, q4, q5⟩ k1, q2.trans hgr k2, k3⟩

/-- C129: clients that visit the repository one after the other on the same cache, at any times at which its current release is not expired, all refresh successfully and get answers
to their searches in the roles that are then published, whatever releases they skipped and whatever keys were exchanged in between, as long as every release may follow the earlier
ones. -/
theorem C129_keeps_up {env : Env} (laws : EnvLaws env) {dir : Str} {vs : List ClientSession} (hvs : ∀ v ∈ vs, v.Good env dir) (hord : vs.Pairwise VisitBefore)
    {w : World} (hw : NoTemps w.fs) (hcache : ∀ v ∈ vs, CacheBefore env dir w.fs v.run.R) (hroles : ∀ v ∈ vs, RolesBefore env dir w.fs v.docs) : AllAnswered w vs := by
  induction vs generalizing w with
  | nil => exact .nil
  | cons v vs ih =>
    have hgood := hvs v (by simp)
    have hg := hgood.run
    have hxe : v.run.x.env = env := hg.sameEnv
    have hdir : v.run.x.cfg.localMetadataDir = dir := hg.sameDir
    obtain ⟨t0, w1, n1, hm⟩ := justMade hg hw
    obtain ⟨t, h4, h5⟩ := hm.roots
    have hcb := hm.cache (by rw [hxe, hdir]; exact hcache v (by simp))
    have hnr : ∀ role p, v.docs role = some p → SafeName role ∧ role ≠ ROOT := fun role p hr =>
      ⟨(hgood.named role p hr).1, by rintro rfl; exact (hgood.named _ p hr).2 (by decide)⟩
    have hrb := hm.roles hnr (by rw [hxe, hdir]; exact hroles v (by simp))
    obtain ⟨mts, msn, mtg, s1, r1, r2, r3, r4, r5, r6, r7, r8, r9⟩ := C93_upgrade (x := v.run.x) (by rw [hxe]; exact laws) (by rw [hxe]; exact hg.released)
      hg.served hg.online hg.network (.inr hg.disk) hm.temps hm.rotations h4 h5 hm.timestamp hm.snapshot hm.targets hm.time hcb
    have htg : s1.trusted.targets.get? b!"targets" = some mtg := by rw [r2]; rfl
    obtain ⟨s', a1, a2, a3⟩ : ∃ s', SearchesAnswered v.run.x v.docs s1 v.paths s' ∧ Wrote v.run.x v.docs s1 s' ∧ NoTemps s'.world.fs := by
      cases hp : v.paths with
      | nil => exact ⟨s1, .nil, .rfl', r9⟩
      | cons path paths =>
        obtain ⟨s1', g1, g2, g3⟩ := onRelease_cached (x := v.run.x) (path := path) (by rw [hxe]; exact laws) (by rw [hxe]; exact hg.released) hg.served hg.online hg.network (.inr hg.disk)
          hm.temps hm.rotations h4 h5 hm.timestamp hm.snapshot hm.targets hm.time hcb (hgood.branches path (by rw [hp]; simp)) hrb
        rw [r1] at g1
        cases g1
        exact asked (by rw [hxe]; exact laws) hg.network (.inr hg.disk) (fun q hq => hgood.branches q (by rw [hp]; exact hq)) g2 g3
    refine .cons n1 r1 a1 (ih (fun v' hv' => hvs v' (by simp [hv'])) (List.pairwise_cons.1 hord).2 a3 ?_ ?_)
    · obtain ⟨⟨d1, m1, f1, g1, i1⟩, ⟨d2, m2, f2, g2, i2⟩, ⟨d3, m3, f3, g3, i3⟩, _⟩ := C79_cache_mirrors hg.online hg.caching (s := ⟨t0, w1⟩) hm.timestamp r1
      rw [hxe] at i1 i2 i3 r6 r7 r8
      rw [r2] at g1 g2
      cases g1
      cases g2
      rw [htg] at g3
      cases g3
      have same : ∀ {T : Type} [RoleType T] {d d' : Bytes} {m : Metadata T}, ParsesTo env d m → ParsesTo env d' m → SameDocument T env d d' := by
        intro T _ d d' m h h' m'
        unfold ParsesTo at *
        rw [h, h']
      have keeps : ∀ role ∈ [TIMESTAMP, SNAPSHOT, TARGETS], s'.world.fs (persistPath v.run.x.cfg role) = s1.world.fs (persistPath v.run.x.cfg role) := by
        intro role hr
        rcases a2 _ (persistPath_not_temp _ _) with h | ⟨role', p, ss, e1, _, _, _, e4, e5, _⟩
        · exact h
        · exfalso
          have := persistPath_inj e5
          subst this
          have hn := (hgood.named _ p e1).2
          simp only [List.mem_cons, List.not_mem_nil, or_false, not_or] at hr hn
          rcases hr with rfl | rfl | rfl
          · exact hn.2.1 rfl
          · exact hn.2.2 rfl
          · have e4 : s1.trusted.targets.get? b!"targets" = none := e4
            rw [htg] at e4; cases e4
      have c := cacheFile v.run.x
      have l := C48_top_level v.run.x
      have k1 := keeps TIMESTAMP (by simp)
      have k2 := keeps SNAPSHOT (by simp)
      have k3 := keeps TARGETS (by simp)
      rw [← l _ (by decide), c.1, f1, hdir] at k1
      rw [← l _ (by decide), c.2.1, f2, hdir] at k2
      rw [← l _ (by decide), c.2.2.1, f3, hdir] at k3
      intro v' hv'
      have hf := ((List.pairwise_cons.1 hord).1 v' hv').release
      have hwas := wasReleased_of hg.released
      refine ⟨?_, ?_, ?_⟩
      · intro d hd
        rw [k1] at hd; cases hd
        exact ⟨v.run.R, hwas, hf, same i1 r6⟩
      · intro d hd
        rw [k2] at hd; cases hd
        exact ⟨v.run.R, hwas, hf, same i2 r7⟩
      · intro d hd
        rw [k3] at hd; cases hd
        exact ⟨v.run.R, hwas, hf, same i3 r8⟩
    · intro v' hv' role p' d hr hne hf
      have hn := (hvs v' (by simp [hv'])).named role p' hr
      obtain ⟨e1, e2⟩ := safeName_local (cfg := v.run.x.cfg) hn.1
      rw [hdir] at e2
      rw [← e2, e1] at hf
      rcases a2 _ (persistPath_not_temp _ _) with h | ⟨role', p, ss, q1, q2, q3, q4, _, q6, q7⟩
      · rw [h] at hf
        have hfiles := refresh_files hg.online ⟨t0, w1⟩ e1 (by
          intro hmem
          refine hn.2 ?_
          simp only [List.mem_cons, List.not_mem_nil, or_false] at hmem ⊢
          rcases hmem with h | h | h | h
          · exact .inl h
          · exact .inr (.inl h)
          · exact .inr (.inr h)
          · exact absurd h hne)
        rw [r1, e1] at hfiles
        rw [hfiles, hm.files role (by rintro rfl; exact hn.2 (by decide)), ← e1, e2] at hf
        exact hroles v' (by simp [hv']) role p' d hr hne hf
      · have := persistPath_inj q6
        subst this
        rw [q7] at hf
        cases hf
        rw [hxe] at q2 q4
        exact ⟨p.value, ss, p.file, q2, q3, q4, fun _ => Iff.rfl, ((List.pairwise_cons.1 hord).1 v' hv').roles _ p p' q1 hr⟩

end Tuf
