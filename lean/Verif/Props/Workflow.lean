import Verif.Spec.Workflow
import Verif.Props.UpToDate

/-! # A refresh follows the order of the specification (C150) -/

namespace Tuf
open Spec Sample

section
variable {x : Ctx}

theorem fetched_downloads (s : St) (u : Str) (n : Int) (r : Except Err Bytes) : downloads (s.world.emit (.fetch u n r)).trace = downloads s.world.trace ++ [(u, n, r)] := by
  unfold World.emit
  rw [downloads_append]
  rfl

/-- What the cache file makes of the trusted timestamp. -/
theorem tryLocal_timestamp {s : St} {o : Res (Option (Metadata TimestampType))} {s1 : St} (h : tryLocal x TIMESTAMP (fun data t => t.updateTimestamp x.env data) s = (o, s1))
    {m : Metadata TimestampType} (hm : s1.trusted.timestamp = some m) :
    s.trusted.timestamp = some m ∨ ∃ data, ParsesTo x.env data m ∧ s.world.fs (localPath x.cfg TIMESTAMP) = some data := by
  have key : s1.trusted = s.trusted ∨ ∃ d, s.world.fs (localPath x.cfg TIMESTAMP) = some d ∧ s1.trusted = (s.trusted.updateTimestamp x.env d).2 := by
    unfold tryLocal at h
    rcases hr : (if x.host.readFails s.world.trace (localPath x.cfg TIMESTAMP) then none else s.world.fs (localPath x.cfg TIMESTAMP)) with _ | d
    · rw [SM.bind_ok (SM.try_err (readLocal hr))] at h
      cases h
      exact .inl rfl
    · have hd : s.world.fs (localPath x.cfg TIMESTAMP) = some d := by
        split at hr
        · cases hr
        · exact hr
      rw [SM.bind_ok (SM.try_ok (readLocal hr))] at h
      dsimp only at h
      rw [SM.bind_apply] at h
      unfold SM.try' at h
      rw [onTrusted_apply] at h
      dsimp only at h
      refine .inr ⟨d, hd, ?_⟩
      rcases hz : s.trusted.updateTimestamp x.env d with ⟨r, t⟩
      rw [hz] at h
      cases r with
      | ok a => cases h; rfl
      | err e => dsimp only at h; split at h <;> cases h <;> rfl
      | panic => cases h; rfl
  rcases key with h1 | ⟨d, h1, h2⟩
  · rw [h1] at hm; exact .inl hm
  · rcases updateTimestamp_cases x.env s.trusted d with ⟨n, ha, hu, _⟩ | ⟨e, hu⟩ | hu
    · rw [h2, hu] at hm
      cases hm
      exact .inr ⟨d, ha.parsed, h1⟩
    · rw [h2, hu] at hm; exact .inl hm
    · rw [h2, hu] at hm; exact .inl hm

theorem loadTimestamp_order {s s' : St} {o : Res Unit} (h : loadTimestamp x s = (o, s')) :
    ∃ ts, downloads s'.world.trace = downloads s.world.trace ++ ts ∧
      ((ts = [] ∧ o ≠ .ok ()) ∨ ∃ url r, PlainURL x.cfg.remoteMetadataURL b!"timestamp" url ∧ ts = [(url, x.cfg.timestampMaxLength, r)] ∧ (∀ e, r = .error e → o ≠ .ok ())) ∧
      (o = .ok () → ∀ m, s'.trusted.timestamp = some m → s.trusted.timestamp = some m ∨ ∃ data, ParsesTo x.env data m ∧ (s.world.fs (localPath x.cfg TIMESTAMP) = some data ∨ ∃ url n, ts = [(url, n, .ok data)])) := by
  unfold loadTimestamp at h
  rw [SM.bind_apply] at h
  have h1 := tryLocal_asks (x := x) TIMESTAMP (fun data t => t.updateTimestamp x.env data) s
  rcases hx : tryLocal x TIMESTAMP (fun data t => t.updateTimestamp x.env data) s with ⟨a, s1⟩
  rw [hx] at h h1
  dsimp only at h h1
  cases a with
  | err e => cases h; exact ⟨[], by simpa using h1, .inl ⟨rfl, nofun⟩, nofun⟩
  | panic => cases h; exact ⟨[], by simpa using h1, .inl ⟨rfl, nofun⟩, nofun⟩
  | ok a =>
    dsimp only at h
    unfold downloadMetadata at h
    rw [SM.bind_apply, doFetch_apply] at h
    have hu := plainURL x.cfg.remoteMetadataURL TIMESTAMP
    have hf := fetched_downloads s1 (metadataURL x.cfg.remoteMetadataURL TIMESTAMP []) x.cfg.timestampMaxLength
    simp only [h1] at hf
    generalize metadataURL x.cfg.remoteMetadataURL TIMESTAMP [] = url at h hu hf
    rcases hy : x.host.fetch s1.world.trace url x.cfg.timestampMaxLength with e | d
    · rw [hy] at h
      cases h
      exact ⟨_, hf _, .inr ⟨url, _, hu, rfl, fun _ _ => nofun⟩, nofun⟩
    · rw [hy] at h
      dsimp only at h
      rw [SM.bind_apply] at h
      unfold SM.try' at h
      rw [onTrusted_apply] at h
      dsimp only at h
      have hc := updateTimestamp_cases x.env s1.trusted d
      rcases hz : s1.trusted.updateTimestamp x.env d with ⟨r, t⟩
      rw [hz] at h hc
      dsimp only at h hc
      have new : ∀ m, t.timestamp = some m → s.trusted.timestamp = some m ∨ ∃ data, ParsesTo x.env data m ∧ (s.world.fs (localPath x.cfg TIMESTAMP) = some data ∨
          ∃ u n, [(url, x.cfg.timestampMaxLength, (Except.ok d : Except Err Bytes))] = [(u, n, .ok data)]) := by
        intro m hm
        have old : t = s1.trusted → _ := fun ht => by
          rw [ht] at hm
          exact tryLocal_timestamp hx hm
        rcases hc with ⟨n, ha, hu, _⟩ | ⟨e, hu⟩ | hu
        · rw [hu] at hm
          cases hm
          exact .inr ⟨d, ha.parsed, .inr ⟨_, _, rfl⟩⟩
        · cases hu
          rcases old rfl with k | ⟨data, k1, k2⟩
          · exact .inl k
          · exact .inr ⟨data, k1, .inl k2⟩
        · cases hu
          rcases old rfl with k | ⟨data, k1, k2⟩
          · exact .inl k
          · exact .inr ⟨data, k1, .inl k2⟩
      cases r with
      | panic => cases h; exact ⟨_, hf _, .inr ⟨url, _, hu, rfl, nofun⟩, nofun⟩
      | err e =>
        dsimp only at h
        split at h
        · cases h; exact ⟨_, hf _, .inr ⟨url, _, hu, rfl, nofun⟩, fun _ => new⟩
        · cases h; exact ⟨_, hf _, .inr ⟨url, _, hu, rfl, nofun⟩, nofun⟩
      | ok m =>
        dsimp only at h
        obtain ⟨evs, h2, h3⟩ := persist_downloads x TIMESTAMP d ⟨t, s1.world.emit (.fetch url x.cfg.timestampMaxLength (.ok d))⟩
        have ht := onWorld_trusted h
        rw [h] at h2
        have hlast : ∀ m, s'.trusted.timestamp = some m → t.timestamp = some m := fun m hm => by rw [ht] at hm; exact hm
        refine ⟨[(url, x.cfg.timestampMaxLength, .ok d)], ?_, .inr ⟨url, .ok d, hu, rfl, nofun⟩, fun _ m hm => new m (hlast m hm)⟩
        rw [h2, downloads_append, h3, List.append_nil]
        exact hf _

theorem loadSnapshot_order {s s' : St} {o : Res Unit} (h : loadSnapshot x s = (o, s')) :
    ∃ sn, downloads s'.world.trace = downloads s.world.trace ++ sn ∧
      (sn = [] ∨ ∃ m f url n r, s.trusted.timestamp = some m ∧ m.signed.metas.get? b!"snapshot.json" = some (some f) ∧ RoleURL x s.trusted b!"snapshot" f.version url ∧
        LengthLimit f.length x.cfg.snapshotMaxLength n ∧ sn = [(url, n, r)] ∧ (∀ e, r = .error e → o ≠ .ok ())) ∧
      (o = .ok () → (∃ ts, s.trusted.timestamp = some ts) ∧ ∃ m data, s'.trusted.snapshot = some m ∧ ParsesTo x.env data m ∧ ObtainedFrom s.world.fs (localPath x.cfg SNAPSHOT) sn data) := by
  have hk := loadSnapshot_keeps (x := x) s
  unfold loadSnapshot at h hk
  rw [SM.bind_apply] at h
  have h1 := tryLocal_asks (x := x) SNAPSHOT (fun data t => t.updateSnapshot x.env data true) s
  have hk1 : (tryLocal x SNAPSHOT (fun data t => t.updateSnapshot x.env data true) s).2.trusted.timestamp = s.trusted.timestamp ∧
      (tryLocal x SNAPSHOT (fun data t => t.updateSnapshot x.env data true) s).2.trusted.root = s.trusted.root := by
    refine ⟨keeps_tryLocal (φ := (·.timestamp)) ?_ s, keeps_tryLocal (φ := (·.root)) ?_ s⟩ <;> · intro d t; rw [updateSnapshot_keeps]
  rcases hx : tryLocal x SNAPSHOT (fun data t => t.updateSnapshot x.env data true) s with ⟨a, s1⟩
  rw [hx] at h h1 hk1
  dsimp only at h h1 hk1
  cases a with
  | err e => cases h; exact ⟨[], by simpa using h1, .inl rfl, nofun⟩
  | panic => cases h; exact ⟨[], by simpa using h1, .inl rfl, nofun⟩
  | ok a =>
    cases a with
    | some m =>
      cases h
      refine ⟨[], by simpa using h1, .inl rfl, fun _ => ?_⟩
      obtain ⟨d, h2, h3⟩ := tryLocal_some hx
      obtain ⟨h4, _, h5⟩ := updateSnapshot_ok h3
      obtain ⟨ts, h6, _⟩ := h4.timestamp
      exact ⟨⟨ts, h6⟩, m, d, by rw [h5], h4.parsed, .inl ⟨rfl, h2⟩⟩
    | none =>
      dsimp only at h
      rw [SM.bind_ok (getTrusted_apply s1)] at h
      rcases hts : s1.trusted.timestamp with _ | ts
      · rw [hts] at h
        cases h
        exact ⟨[], by simpa using h1, .inl rfl, nofun⟩
      · rw [hts] at h
        dsimp only at h
        rw [SM.bind_apply, SM.lift_apply] at h
        rcases hf : Res.deref (ts.signed.metas.ptr (jsonName SNAPSHOT)) with f | e | _
        · rw [hf] at h
          dsimp only at h
          rw [Res.deref_eq_ok, ptr_eq_some] at hf
          unfold downloadMetadata at h
          rw [SM.bind_apply, doFetch_apply] at h
          have hts' : s.trusted.timestamp = some ts := by rw [← hk1.1]; exact hts
          have hu : RoleURL x s.trusted b!"snapshot" f.version (metadataURL x.cfg.remoteMetadataURL SNAPSHOT (metaVersion s1.trusted f)) := by
            have := roleURL x s1.trusted SNAPSHOT f
            unfold RoleURL at this ⊢
            rwa [hk1.2] at this
          have hl := lengthLimit f x.cfg.snapshotMaxLength
          have hd := fetched_downloads s1 (metadataURL x.cfg.remoteMetadataURL SNAPSHOT (metaVersion s1.trusted f)) (metaLength f x.cfg.snapshotMaxLength)
          simp only [h1] at hd
          generalize metadataURL x.cfg.remoteMetadataURL SNAPSHOT (metaVersion s1.trusted f) = url at h hu hd
          generalize metaLength f x.cfg.snapshotMaxLength = n at h hl hd
          rcases hy : x.host.fetch s1.world.trace url n with e | d
          · rw [hy] at h
            cases h
            exact ⟨_, hd _, .inr ⟨ts, f, url, n, _, hts', hf, hu, hl, rfl, fun _ _ => nofun⟩, nofun⟩
          · rw [hy] at h
            dsimp only at h
            rw [SM.bind_apply, onTrusted_apply] at h
            dsimp only at h
            rcases hz : s1.trusted.updateSnapshot x.env d false with ⟨r, t⟩
            rw [hz] at h
            dsimp only at h
            cases r with
            | panic => cases h; exact ⟨_, hd _, .inr ⟨ts, f, url, n, _, hts', hf, hu, hl, rfl, nofun⟩, nofun⟩
            | err e => cases h; exact ⟨_, hd _, .inr ⟨ts, f, url, n, _, hts', hf, hu, hl, rfl, nofun⟩, nofun⟩
            | ok m =>
              dsimp only at h
              obtain ⟨evs, h2, h3⟩ := persist_downloads x SNAPSHOT d ⟨t, s1.world.emit (.fetch url n (.ok d))⟩
              have ht := onWorld_trusted h
              rw [h] at h2
              obtain ⟨h4, _, h5⟩ := updateSnapshot_ok hz
              have hlast : s'.trusted.snapshot = some m := by rw [ht]; exact congrArg (·.snapshot) h5
              refine ⟨[(url, n, .ok d)], ?_, .inr ⟨ts, f, url, n, .ok d, hts', hf, hu, hl, rfl, nofun⟩, fun _ => ⟨⟨ts, hts'⟩, m, d, hlast, h4.parsed, .inr ⟨_, _, rfl⟩⟩⟩
              rw [h2, downloads_append, h3, List.append_nil]
              exact hd _
        · rw [hf] at h; cases h; exact ⟨[], by simpa using h1, .inl rfl, nofun⟩
        · rw [hf] at h; cases h; exact ⟨[], by simpa using h1, .inl rfl, nofun⟩

theorem loadTargets_order {s s' : St} {o : Res (Metadata TargetsType)} (h : loadTargets x TARGETS ROOT s = (o, s')) (h0 : s.trusted.targets.get? TARGETS = none) :
    ∃ tg, downloads s'.world.trace = downloads s.world.trace ++ tg ∧
      (tg = [] ∨ ∃ m f url n r, s.trusted.snapshot = some m ∧ m.signed.metas.get? b!"targets.json" = some (some f) ∧ RoleURL x s.trusted b!"targets" f.version url ∧
        LengthLimit f.length x.cfg.targetsMaxLength n ∧ tg = [(url, n, r)] ∧ (∀ e, r = .error e → ∀ a, o ≠ .ok a)) ∧
      (∀ a, o = .ok a → ∃ m data, s'.trusted.targets.get? b!"targets" = some m ∧ ParsesTo x.env data m ∧ ObtainedFrom s.world.fs (localPath x.cfg TARGETS) tg data) := by
  unfold loadTargets at h
  rw [SM.bind_ok (getTrusted_apply s), h0] at h
  dsimp only at h
  rw [SM.bind_apply] at h
  have h1 := tryLocal_asks (x := x) TARGETS (fun data t => t.updateDelegatedTargets x.env data TARGETS ROOT) s
  rcases hx : tryLocal x TARGETS (fun data t => t.updateDelegatedTargets x.env data TARGETS ROOT) s with ⟨a, s1⟩
  rw [hx] at h h1
  dsimp only at h h1
  cases a with
  | err e => cases h; exact ⟨[], by simpa using h1, .inl rfl, nofun⟩
  | panic => cases h; exact ⟨[], by simpa using h1, .inl rfl, nofun⟩
  | ok a =>
    cases a with
    | some m =>
      cases h
      refine ⟨[], by simpa using h1, .inl rfl, fun _ _ => ?_⟩
      obtain ⟨d, h2, h3⟩ := tryLocal_some hx
      obtain ⟨h4, h5⟩ := updateTargets_ok h3
      exact ⟨m, d, by rw [h5]; exact Entries.get?_set_self _ _ _, h4.parsed, .inl ⟨rfl, h2⟩⟩
    | none =>
      dsimp only at h
      have hs := tryLocal_targets_none hx
      rw [SM.bind_ok (getTrusted_apply s1), hs] at h
      rcases hsn : s.trusted.snapshot with _ | sn
      · rw [hsn] at h
        cases h
        exact ⟨[], by simpa using h1, .inl rfl, nofun⟩
      · rw [hsn] at h
        dsimp only at h
        rw [SM.bind_apply, SM.lift_apply] at h
        rcases hf : Res.deref (sn.signed.metas.ptr (jsonName TARGETS)) with f | e | _
        · rw [hf] at h
          dsimp only at h
          rw [Res.deref_eq_ok, ptr_eq_some] at hf
          unfold downloadMetadata at h
          rw [SM.bind_apply, doFetch_apply] at h
          have hu := roleURL x s.trusted TARGETS f
          have hl := lengthLimit f x.cfg.targetsMaxLength
          have hd := fetched_downloads s1 (metadataURL x.cfg.remoteMetadataURL TARGETS (metaVersion s.trusted f)) (metaLength f x.cfg.targetsMaxLength)
          simp only [h1] at hd
          generalize metadataURL x.cfg.remoteMetadataURL TARGETS (metaVersion s.trusted f) = url at h hu hd
          generalize metaLength f x.cfg.targetsMaxLength = n at h hl hd
          rcases hy : x.host.fetch s1.world.trace url n with e | d
          · rw [hy] at h
            cases h
            exact ⟨_, hd _, .inr ⟨sn, f, url, n, _, rfl, hf, hu, hl, rfl, fun _ _ => nofun⟩, nofun⟩
          · rw [hy] at h
            dsimp only at h
            rw [SM.bind_apply, onTrusted_apply] at h
            dsimp only at h
            rcases hz : s1.trusted.updateDelegatedTargets x.env d TARGETS ROOT with ⟨r, t⟩
            rw [hz] at h
            dsimp only at h
            cases r with
            | panic => cases h; exact ⟨_, hd _, .inr ⟨sn, f, url, n, _, rfl, hf, hu, hl, rfl, nofun⟩, nofun⟩
            | err e => cases h; exact ⟨_, hd _, .inr ⟨sn, f, url, n, _, rfl, hf, hu, hl, rfl, nofun⟩, nofun⟩
            | ok m =>
              dsimp only at h
              obtain ⟨evs, h2, h3⟩ := persist_downloads x TARGETS d ⟨t, s1.world.emit (.fetch url n (.ok d))⟩
              obtain ⟨h4, h5⟩ := updateTargets_ok hz
              rw [SM.bind_apply] at h
              rcases hp : onWorld (persistMetadata x TARGETS d) ⟨t, s1.world.emit (.fetch url n (.ok d))⟩ with ⟨r, s2⟩
              have ht := onWorld_trusted hp
              rw [hp] at h h2
              have e2 : s' = s2 := by cases r <;> cases h <;> rfl
              subst e2
              have hlast : s'.trusted.targets.get? b!"targets" = some m := by
                rw [ht]
                show t.targets.get? _ = _
                rw [h5]
                exact Entries.get?_set_self _ _ _
              refine ⟨[(url, n, .ok d)], ?_, .inr ⟨sn, f, url, n, .ok d, rfl, hf, hu, hl, rfl, nofun⟩, fun _ _ => ⟨m, d, hlast, h4.parsed, .inr ⟨_, _, rfl⟩⟩⟩
              rw [h2, downloads_append, h3, List.append_nil]
              exact hd _
        · rw [hf] at h; cases h; exact ⟨[], by simpa using h1, .inl rfl, nofun⟩
        · rw [hf] at h; cases h; exact ⟨[], by simpa using h1, .inl rfl, nofun⟩

/-- C150: the requests of an online `Refresh` before top-level targets are trusted are those for roots, then at most one each for timestamp, snapshot and targets, as `RefreshOrder` says. -/
theorem C150_order {x : Ctx} (hu : x.cfg.unsafeLocalMode = false) {s s' : St} (h2 : s.trusted.targets.get? b!"targets" = none) {o : Res Unit}
    (h : refresh x s = (o, s')) :
    ∃ roots ts sn tg, downloads s'.world.trace = downloads s.world.trace ++ (roots ++ ts ++ sn ++ tg) ∧ RefreshOrder x s s' o roots ts sn tg := by
  have c := cacheFile x
  have k0 : (loadRoot x s).2.trusted.timestamp = s.trusted.timestamp ∧ (loadRoot x s).2.trusted.targets = s.trusted.targets := by
    have hroot : ∀ d t, (Trusted.updateRoot x.env t d).2 = { t with root := (Trusted.updateRoot x.env t d).2.root } := by
      intro d t
      unfold Trusted.updateRoot
      split <;> rfl
    exact ⟨keeps_loadRoot (φ := (·.timestamp)) (fun d t => by rw [hroot]) s, keeps_loadRoot (φ := (·.targets)) (fun d t => by rw [hroot]) s⟩
  obtain ⟨n, evs, out, p1, p2, p3, p4⟩ := loadRoot_phase (x := x) s
  have g1 := fun role hr => loadRoot_files (x := x) s (role := role) hr
  unfold refresh at h
  rw [if_neg (by simp [hu])] at h
  unfold onlineRefresh at h
  rw [SM.bind_apply] at h
  rcases hl1 : loadRoot x s with ⟨o1, s1⟩
  rw [hl1] at h k0 p1 p3 p4 g1
  dsimp only at h k0 p1 p3 p4 g1
  have d1 : downloads s1.world.trace = downloads s.world.trace ++ downloads evs := by rw [p1, downloads_append]
  have stop1 : o ≠ .ok () → s1 = s' → ∃ roots ts sn tg, downloads s'.world.trace = downloads s.world.trace ++ (roots ++ ts ++ sn ++ tg) ∧ RefreshOrder x s s' o roots ts sn tg := by
    rintro ho rfl
    exact ⟨downloads evs, [], [], [], by simpa using d1, ⟨n, out, p2, fun _ => ⟨rfl, ho⟩⟩, .inl ⟨rfl, rfl, rfl, ho⟩, .inl rfl, .inl rfl, by simp, fun h => absurd h ho⟩
  cases o1 with
  | err e => cases h; exact stop1 nofun rfl
  | panic => cases h; exact stop1 nofun rfl
  | ok u1 =>
    have hout : out ≠ none := fun ho => p4 ho rfl
    dsimp only at h
    rw [SM.bind_apply] at h
    have k2 := loadTimestamp_keeps (x := x) s1
    have g2 := fun role hr => loadTimestamp_files (x := x) s1 (role := role) hr
    rcases hl2 : loadTimestamp x s1 with ⟨o2, s2⟩
    rw [hl2] at h k2 g2
    dsimp only at h k2 g2
    obtain ⟨ts, q1, q2, q3⟩ := loadTimestamp_order hl2
    have d2 : downloads s2.world.trace = downloads s.world.trace ++ (downloads evs ++ ts) := by rw [q1, d1, List.append_assoc]
    have stop2 : o2 ≠ .ok () → o ≠ .ok () → s2 = s' → ∃ roots ts sn tg, downloads s'.world.trace = downloads s.world.trace ++ (roots ++ ts ++ sn ++ tg) ∧ RefreshOrder x s s' o roots ts sn tg := by
      rintro ho2 ho rfl
      refine ⟨downloads evs, ts, [], [], by simpa using d2, ⟨n, out, p2, fun h => absurd h hout⟩, ?_, .inl rfl, .inl rfl, ?_, fun h => absurd h ho⟩
      · rcases q2 with ⟨q2, _⟩ | ⟨url, r, q4, q5, _⟩
        · exact .inl ⟨q2, rfl, rfl, ho⟩
        · exact .inr ⟨url, r, q4, q5⟩
      · intro before d after e heq _
        refine ⟨?_, ho⟩
        rw [List.append_nil, List.append_nil] at heq
        rcases q2 with ⟨q2, _⟩ | ⟨url, r, _, q5, _⟩
        · rw [q2] at heq; simp at heq
        · rw [q5] at heq
          cases before with
          | nil => simp at heq; exact heq.2
          | cons b bs => simp at heq
    cases o2 with
    | err e => cases h; exact stop2 nofun nofun rfl
    | panic => cases h; exact stop2 nofun nofun rfl
    | ok u2 =>
      dsimp only at h
      obtain ⟨url, r, q4, q5, q6⟩ : ∃ url r, PlainURL x.cfg.remoteMetadataURL b!"timestamp" url ∧ ts = [(url, x.cfg.timestampMaxLength, r)] ∧ (∀ e, r = .error e → False) := by
        rcases q2 with ⟨_, q2⟩ | ⟨url, r, q4, q5, q6⟩
        · exact absurd rfl q2
        · exact ⟨url, r, q4, q5, fun e he => q6 e he rfl⟩
      rw [SM.bind_apply] at h
      have k3 := loadSnapshot_keeps (x := x) s2
      have g3 := fun role hr => loadSnapshot_files (x := x) s2 (role := role) hr
      rcases hl3 : loadSnapshot x s2 with ⟨o3, s3⟩
      rw [hl3] at h k3 g3
      dsimp only at h k3 g3
      obtain ⟨sn, r1, r2, r3⟩ := loadSnapshot_order hl3
      have d3 : downloads s3.world.trace = downloads s.world.trace ++ (downloads evs ++ ts ++ sn) := by rw [r1, d2, List.append_assoc]
      have snreq : ∀ t : Trusted, t.root = s2.trusted.root → t.timestamp = s2.trusted.timestamp →
          sn = [] ∨ ∃ m f url n r, t.timestamp = some m ∧ m.signed.metas.get? b!"snapshot.json" = some (some f) ∧ RoleURL x t b!"snapshot" f.version url ∧
            LengthLimit f.length x.cfg.snapshotMaxLength n ∧ sn = [(url, n, r)] := by
        intro t e1 e2
        rcases r2 with r2 | ⟨m, f, url, n, r, a1, a2, a3, a4, a5, _⟩
        · exact .inl r2
        · refine .inr ⟨m, f, url, n, r, e2.trans a1, a2, ?_, a4, a5⟩
          unfold RoleURL at a3 ⊢
          rwa [e1]
      cases u2
      have stop3 : o3 ≠ .ok () → o ≠ .ok () → s3 = s' → ∃ roots ts sn tg, downloads s'.world.trace = downloads s.world.trace ++ (roots ++ ts ++ sn ++ tg) ∧ RefreshOrder x s s' o roots ts sn tg := by
        rintro ho3 ho rfl
        refine ⟨downloads evs, ts, sn, [], by simpa using d3, ⟨n, out, p2, fun h => absurd h hout⟩, .inr ⟨url, r, q4, q5⟩, snreq _ k3.1 k3.2.1, .inl rfl, ?_, fun h => absurd h ho⟩
        intro before d after e heq hd
        refine ⟨?_, ho⟩
        rw [List.append_nil, q5] at heq
        cases before with
        | nil =>
          simp at heq
          rw [← heq.1] at hd
          exact (q6 e hd).elim
        | cons b bs =>
          simp at heq
          rcases r2 with r2 | ⟨m, f, url, n, r, _, _, _, _, a5, _⟩
          · rw [r2] at heq; simp at heq
          · rw [a5] at heq
            cases bs with
            | nil => simp at heq; exact heq.2.2
            | cons b bs => simp at heq
      cases o3 with
      | err e => cases h; exact stop3 nofun nofun rfl
      | panic => cases h; exact stop3 nofun nofun rfl
      | ok u3 =>
        dsimp only at h
        rw [SM.bind_apply] at h
        have k4 := loadTargets_keeps (x := x) TARGETS ROOT s3
        rcases hl4 : loadTargets x TARGETS ROOT s3 with ⟨o4, s4⟩
        rw [hl4] at h k4
        dsimp only at h k4
        have hn3 : s3.trusted.targets.get? TARGETS = none := by rw [k3.2.2.1, k2.2.2.1, k0.2]; exact h2
        obtain ⟨tg, t1, t2, t3⟩ := loadTargets_order hl4 hn3
        obtain ⟨⟨mts, w0⟩, msn, dsn, w1, w2, w3⟩ := r3 rfl
        have w5 := q3 rfl mts w0
        have hs4 : s4 = s' := by cases o4 <;> cases h <;> rfl
        subst hs4
        have d4 : downloads s4.world.trace = downloads s.world.trace ++ (downloads evs ++ ts ++ sn ++ tg) := by rw [t1, d3, List.append_assoc]
        have snok : ∀ d ∈ sn, ∀ e, d.2.2 = Except.error e → False := by
          intro d hd e he
          rcases r2 with r2 | ⟨m, f, url, n, r, _, _, _, _, a5, a6⟩
          · rw [r2] at hd; cases hd
          · rw [a5] at hd
            cases List.mem_singleton.1 hd
            exact a6 e he rfl
        refine ⟨downloads evs, ts, sn, tg, d4, ⟨n, out, p2, fun h => absurd h hout⟩, .inr ⟨url, r, q4, q5⟩, snreq _ (k4.1.trans k3.1) (k4.2.1.trans k3.2.1), ?_, ?_, ?_⟩
        · rcases t2 with t2 | ⟨m, f, url, n, r, a1, a2, a3, a4, a5, _⟩
          · exact .inl t2
          · refine .inr ⟨m, f, url, n, r, k4.2.2.1.trans a1, a2, ?_, a4, a5⟩
            unfold RoleURL at a3 ⊢
            rwa [k4.1]
        · intro before d after e heq hd
          have hnot : d ∉ ts ++ sn := by
            intro hm
            rcases List.mem_append.1 hm with hm | hm
            · rw [q5] at hm
              cases List.mem_singleton.1 hm
              exact q6 e hd
            · exact snok d hm e hd
          have hsplit : ∃ pre, tg = pre ++ d :: after := by
            rcases List.append_eq_append_iff.1 heq with ⟨as, e1, e2⟩ | ⟨bs, e1, e2⟩
            · exact ⟨as, e2⟩
            · cases bs with
              | nil => exact ⟨[], by simpa using e2.symm⟩
              | cons b bs =>
                simp at e2
                rw [e1, e2.1] at hnot
                exact absurd (by simp) hnot
          obtain ⟨pre, e1⟩ := hsplit
          rcases t2 with t2 | ⟨m, f, url, n, r, _, _, _, _, a5, a6⟩
          · rw [t2] at e1; simp at e1
          · rw [a5] at e1
            cases pre with
            | nil =>
              simp at e1
              refine ⟨e1.2, ?_⟩
              rw [← e1.1] at hd
              have := a6 e hd
              cases o4 with
              | ok a => exact absurd rfl (this a)
              | err _ => cases h; nofun
              | panic => cases h; nofun
            | cons b bs => simp at e1
        · intro ho
          obtain ⟨a, ha⟩ : ∃ a, o4 = .ok a := by
            cases o4 with
            | ok a => exact ⟨a, rfl⟩
            | err _ => cases h; cases ho
            | panic => cases h; cases ho
          obtain ⟨mtg, dtg, v1, v2, v3⟩ := t3 a ha
          have f1 : s1.world.fs (localPath x.cfg TIMESTAMP) = s.world.fs (joinPath x.cfg.localMetadataDir b!"timestamp.json") := by rw [g1 _ (by decide), c.1]
          have f2 : s2.world.fs (localPath x.cfg SNAPSHOT) = s.world.fs (joinPath x.cfg.localMetadataDir b!"snapshot.json") := by rw [g2 _ (by decide), g1 _ (by decide), c.2.1]
          have f3 : s3.world.fs (localPath x.cfg TARGETS) = s.world.fs (joinPath x.cfg.localMetadataDir b!"targets.json") := by rw [g3 _ (by decide), g2 _ (by decide), g1 _ (by decide), c.2.2.1]
          rw [f1, k0.1] at w5
          unfold ObtainedFrom at w3 v3 ⊢
          rw [f2] at w3
          rw [f3] at v3
          exact ⟨⟨mts, (k4.2.1.trans k3.2.1).trans w0, w5⟩, ⟨msn, dsn, k4.2.2.1.trans w1, w2, w3⟩, mtg, dtg, v1, v2, v3⟩

end

/-- Cases of C150: everything is asked for; the snapshot of the cache is used; the snapshot is not there. -/
example : (session ctx [] (refresh ctx)).1 = .ok () ∧ urls (session ctx [] (refresh ctx)).2 = [b!"u/2.root.json", b!"u/timestamp.json", b!"u/4.snapshot.json", b!"u/4.targets.json"] ∧
    (session ctx [(b!"m/snapshot.json", [3, 4])] (refresh ctx)).1 = .ok () ∧
    urls (session ctx [(b!"m/snapshot.json", [3, 4])] (refresh ctx)).2 = [b!"u/2.root.json", b!"u/timestamp.json", b!"u/4.targets.json"] := by decide +kernel

namespace Sample

def wfNoSnapshot : Ctx := { ctx with host := hostOf (fun url => if url = b!"u/4.snapshot.json" then .error (.downloadHTTP 404 url) else server url) }

end Sample

example : (session wfNoSnapshot [] (refresh wfNoSnapshot)).1.isOk = false ∧
    urls (session wfNoSnapshot [] (refresh wfNoSnapshot)).2 = [b!"u/2.root.json", b!"u/timestamp.json", b!"u/4.snapshot.json"] := by decide +kernel

end Tuf
