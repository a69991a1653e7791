import Verif.Props.Cache

/-! # Refresh succeeds against a valid server -/

namespace Tuf
open Spec Sample

section
variable {x : Ctx} {srv : Str → Int → Except Err Bytes}

theorem temp_put {fs : FS} (h : NoTemps fs) {p : Str} {v : Option Bytes} (hp : ¬ TempName p) : NoTemps (fs.put p v) := by
  intro q hq
  rw [put_ne (fun he => hp (by rw [← he]; exact hq))]
  exact h q hq

theorem persist_progress (hd : x.cfg.disableLocalCache = true ∨ GoodDisk x.host) (role : Str) (data : Bytes) {w : World} {N : Str → Prop} [TempNames x.host N] (hw : Free N w.fs) :
    ∃ w', persistMetadata x role data w = (.ok (), w') ∧ Free N w'.fs ∧ ∀ q, ¬ TempName q → q ≠ persistPath x.cfg role → w'.fs q = w.fs q := by
  unfold persistMetadata
  cases hc : x.cfg.disableLocalCache with
  | true => exact ⟨w, by rw [if_pos rfl]; rfl, hw, fun _ _ _ => rfl⟩
  | false =>
    have hd : GoodDisk x.host := by
      rcases hd with hd | hd
      · rw [hc] at hd; cases hd
      · exact hd
    rw [if_neg (by simp)]
    have hcw := hd.cwd w.trace
    have htn := hd.temp w.trace
    cases h1 : x.host.cwd w.trace with
    | none => rw [h1] at hcw; cases hcw
    | some cwd =>
      cases h2 : x.host.tempName w.trace with
      | none => rw [h2] at htn; cases htn
      | some n =>
        have hgiven : N (cwd ++ b!"/tuf_tmp" ++ formatNat 10 n) := TempNames.given (h := x.host) _ _ _ h1 h2
        have htemp : TempName (cwd ++ b!"/tuf_tmp" ++ formatNat 10 n) := ⟨cwd, n, rfl⟩
        have hct : createTemp x.host w = (.ok (cwd ++ b!"/tuf_tmp" ++ formatNat 10 n), w.emit (.createTemp (cwd ++ b!"/tuf_tmp" ++ formatNat 10 n))) := by
          unfold createTemp
          rw [h1, h2]
          dsimp only
          rw [if_neg (by rw [hw _ hgiven]; simp)]
        generalize cwd ++ b!"/tuf_tmp" ++ formatNat 10 n = f at htemp hgiven hct
        rw [SM.bind_ok hct]
        have hwf : ∀ w1 : World, ∃ w2, writeFile x.host f data w1 = (.ok (), w2) ∧ ∀ q, q ≠ f → w2.fs q = w1.fs q := by
          intro w1
          unfold writeFile
          rw [if_neg (by simp [hd.open'])]
          dsimp only
          rw [if_neg (by have := hd.write (w1.emit (.truncate f)).trace data.length; omega)]
          refine ⟨_, rfl, ?_⟩
          intro q hq
          show FS.put _ _ _ q = _
          rw [put_ne hq]
          show FS.put _ _ _ q = _
          rw [put_ne hq]
        obtain ⟨w2, h3, h4⟩ := hwf (w.emit (.createTemp f))
        rw [SM.bind_ok (SM.try_ok h3)]
        dsimp only
        unfold renameFile
        rw [if_neg (by simp [hd.rename])]
        refine ⟨_, rfl, ?_, ?_⟩
        · intro q hq
          show FS.put _ f none q = none
          by_cases he : q = f
          · subst he; exact if_pos rfl
          · rw [put_ne he, put_ne (fun h => persistPath_not_temp x.cfg role (by rw [← h]; exact TempNames.only x.host q hq)), h4 q he]
            show FS.put _ _ _ q = none
            rw [put_ne he]
            exact hw q hq
        · intro q hq hne
          have he : q ≠ f := by rintro rfl; exact hq htemp
          show FS.put _ f none q = _
          rw [put_ne he, put_ne hne, h4 q he]
          show FS.put _ _ _ q = _
          rw [put_ne he]

/-- Persisting inside an updater. -/
theorem persist_progress' (hd : x.cfg.disableLocalCache = true ∨ GoodDisk x.host) (role : Str) (data : Bytes) {s : St} {N : Str → Prop} [TempNames x.host N] (hw : Free N s.world.fs) :
    ∃ s', onWorld (persistMetadata x role data) s = (.ok (), s') ∧ s'.trusted = s.trusted ∧ Free N s'.world.fs := by
  obtain ⟨w', h1, h2, _⟩ := persist_progress hd role data hw
  exact ⟨{ s with world := w' }, by rw [onWorld_apply, h1], rfl, h2⟩

theorem fetch_progress (hs : Serves x.host srv) {role version : Str} {n : Int} {data : Bytes} {s : St}
    (h : srv (metadataURL x.cfg.remoteMetadataURL role version) n = .ok data) :
    ∃ s', onWorld (downloadMetadata x role n version) s = (.ok data, s') ∧ s'.trusted = s.trusted ∧ s'.world.fs = s.world.fs := by
  have hd := doFetch_apply x (metadataURL x.cfg.remoteMetadataURL role version) n s
  rw [hs, h] at hd
  exact ⟨_, hd, rfl, rfl⟩

theorem plainURL_unique {base role a b : Str} (h1 : PlainURL base role a) (h2 : PlainURL base role b) : a = b := by
  obtain ⟨p, h3, rfl⟩ := h1
  obtain ⟨q, h4, rfl⟩ := h2
  rw [slashBase_unique h3 h4]

theorem versionedURL_unique {base role a b : Str} {v : Int} (h1 : VersionedURL base role v a) (h2 : VersionedURL base role v b) : a = b := by
  obtain ⟨p, h3, rfl⟩ := h1
  obtain ⟨q, h4, rfl⟩ := h2
  rw [slashBase_unique h3 h4]

theorem roleURL_unique {t : Trusted} {role a b : Str} {v : Int} (h1 : RoleURL x t role v a) (h2 : RoleURL x t role v b) : a = b := by
  rcases h1 with ⟨c, h1⟩ | ⟨c, h1⟩ <;> rcases h2 with ⟨d, h2⟩ | ⟨d, h2⟩
  · exact versionedURL_unique h1 h2
  · rw [c] at d; cases d
  · rw [c] at d; cases d
  · exact plainURL_unique h1 h2

theorem lengthLimit_unique {l m a b : Int} (h1 : LengthLimit l m a) (h2 : LengthLimit l m b) : a = b := by
  rcases h1 with ⟨c, h1⟩ | ⟨c, h1⟩ <;> rcases h2 with ⟨d, h2⟩ | ⟨d, h2⟩
  · rw [h1, h2]
  · exact absurd d c
  · exact absurd c d
  · rw [h1, h2]

theorem rootLoop_progress (hs : Serves x.host srv) (hd : x.cfg.disableLocalCache = true ∨ GoodDisk x.host) {n : Nat} {t t' : Trusted}
    (h : RootsLeadTo x srv n t t') (v : Int) (s : St) (ht : s.trusted = t) {N : Str → Prop} [TempNames x.host N] (hw : Free N s.world.fs)
    (hv : v = wrap64 (t.root.signed.version + 1)) (hb : v + n < 2 ^ 63) :
    ∃ s', loadRootLoop x n v s = (.ok (), s') ∧ s'.trusted = t' ∧ Free N s'.world.fs := by
  induction h generalizing v s with
  | limit => exact ⟨s, rfl, ht, hw⟩
  | @newest n t url u status hurl hsrv hst =>
    obtain rfl : url = metadataURL x.cfg.remoteMetadataURL ROOT (formatInt 10 v) := versionedURL_unique hurl (by rw [← hv]; exact versionedURL _ _ v)
    have hf := doFetch_apply x (metadataURL x.cfg.remoteMetadataURL ROOT (formatInt 10 v)) x.cfg.rootMaxLength s
    rw [hs, hsrv] at hf
    unfold loadRootLoop downloadMetadata
    rw [SM.bind_ok (SM.try_err hf)]
    dsimp only
    rw [if_neg (by omega)]
    exact ⟨_, rfl, ht, hw⟩
  | @rotated n t t' url data new hurl hsrv ha _ ih =>
    obtain rfl : url = metadataURL x.cfg.remoteMetadataURL ROOT (formatInt 10 v) := versionedURL_unique hurl (by rw [← hv]; exact versionedURL _ _ v)
    have hf := doFetch_apply x (metadataURL x.cfg.remoteMetadataURL ROOT (formatInt 10 v)) x.cfg.rootMaxLength s
    rw [hs, hsrv] at hf
    unfold loadRootLoop downloadMetadata
    rw [SM.bind_ok (SM.try_ok hf)]
    dsimp only
    have hup : t.updateRoot x.env data = (.ok new, { t with root := new }) := by
      unfold Trusted.updateRoot
      rw [checkRoot_ok.2 ha]
    rw [SM.bind_apply, onTrusted_apply]
    dsimp only
    rw [ht, hup]
    dsimp only
    obtain ⟨s2, h1, h2, h3⟩ := persist_progress' hd ROOT data
      (s := ⟨{ t with root := new }, s.world.emit (.fetch (metadataURL x.cfg.remoteMetadataURL ROOT (formatInt 10 v)) x.cfg.rootMaxLength (.ok data))⟩) hw
    rw [SM.bind_ok h1]
    refine ih _ s2 h2 h3 ?_ (by omega)
    show v + 1 = wrap64 (new.signed.version + 1)
    rw [ha.version, ← hv]
    have := wrap64_bounds (t.root.signed.version + 1)
    rw [wrap64_of_bounds] <;> omega

/-- A local file that is not there or is refused with a repository error is ignored. -/
theorem tryLocal_progress {α : Type} {role : Str} {f : Bytes → Trusted → Res α × Trusted} {s : St}
    (h : ∀ d, s.world.fs (localPath x.cfg role) = some d → ∃ e, f d s.trusted = (.err e, s.trusted) ∧ e.isRepository = true) :
    ∃ s', tryLocal x role f s = (.ok none, s') ∧ s'.trusted = s.trusted ∧ s'.world.fs = s.world.fs := by
  unfold tryLocal
  rcases hr : (if x.host.readFails s.world.trace (localPath x.cfg role) then none else s.world.fs (localPath x.cfg role)) with _ | d
  · rw [SM.bind_ok (SM.try_err (readLocal (x := x) (role := role) (s := s) hr))]
    exact ⟨_, rfl, rfl, rfl⟩
  · rw [SM.bind_ok (SM.try_ok (readLocal (x := x) (role := role) (s := s) hr))]
    dsimp only
    have hfs : s.world.fs (localPath x.cfg role) = some d := by
      split at hr
      · cases hr
      · exact hr
    obtain ⟨e, h1, h2⟩ := h d hfs
    have h3 : onTrusted (f d) { s with world := s.world.emit (.read (localPath x.cfg role) (some d)) } =
        (.err e, { s with world := s.world.emit (.read (localPath x.cfg role) (some d)) }) := by
      rw [onTrusted_apply]
      show ((f d s.trusted).1, _) = _
      rw [h1]
    rw [SM.bind_ok (SM.try_err h3)]
    dsimp only
    rw [if_pos h2]
    exact ⟨_, rfl, rfl, rfl⟩

/-- A local file that is there and can be read: the outcome. -/
theorem tryLocal_apply {α : Type} {role : Str} {f : Bytes → Trusted → Res α × Trusted} {s : St} {d : Bytes}
    (h1 : x.host.readFails s.world.trace (localPath x.cfg role) = false) (h2 : s.world.fs (localPath x.cfg role) = some d) :
    (tryLocal x role f s).1 = (match (f d s.trusted).1 with
      | .ok a => .ok (some a)
      | .err e => if e.isRepository then .ok none else .err e
      | .panic => .panic) := by
  unfold tryLocal
  have hr := readLocal (x := x) (role := role) (s := s) (r := some d) (by rw [if_neg (by simp [h1])]; exact h2)
  rw [SM.bind_ok (SM.try_ok hr)]
  dsimp only
  rw [SM.bind_apply]
  unfold SM.try'
  rw [onTrusted_apply]
  dsimp only
  rcases f d s.trusted with ⟨r, t⟩
  cases r with
  | ok a => rfl
  | err e =>
    dsimp only
    cases e.isRepository <;> rfl
  | panic => rfl

theorem lift_deref {α : Type} {o : Option α} {a : α} (h : o = some a) (s : St) : (SM.lift (Res.deref o) : M α) s = (.ok a, s) := by
  rw [h]; rfl

theorem updateTimestamp_fresh {env : Env} {t : Trusted} {d : Bytes} {m : Metadata TimestampType} (h : TimestampAccepted env t d m)
    (hf : ¬ Expired m.signed.expires t.refTime) : t.updateTimestamp env d = (.ok m, { t with timestamp := some m }) := by
  unfold Trusted.updateTimestamp
  rw [checkTimestamp_ok.2 h]
  dsimp only
  rw [(checkFinalTimestamp_ok (t := { t with timestamp := some m })).2 ⟨m, rfl, hf⟩]

theorem updateSnapshot_fresh {env : Env} {t : Trusted} {d : Bytes} {b : Bool} {m : Metadata SnapshotType} {ts : Metadata TimestampType}
    (h : SnapshotAccepted env t d b m) (hf : ¬ Expired m.signed.expires t.refTime) (ht : t.timestamp = some ts)
    (hl : Lists ts.signed.metas b!"snapshot.json" m.signed.version) : t.updateSnapshot env d b = (.ok m, { t with snapshot := some m }) := by
  unfold Trusted.updateSnapshot
  rw [checkSnapshot_ok.2 h]
  dsimp only
  rw [(checkFinalSnapshot_ok (t := { t with snapshot := some m })).2 ⟨m, ts, rfl, ht, hf, hl⟩]

theorem updateTargets_accepts {env : Env} {t : Trusted} {d : Bytes} {r p : Str} {m : Metadata TargetsType} (h : TargetsAccepted env t d r p m) :
    t.updateDelegatedTargets env d r p = (.ok m, { t with targets := t.targets.set r m }) := by
  unfold Trusted.updateDelegatedTargets
  rw [checkTargets_ok.2 h]

/-- The cached timestamp does no harm: it is refused with a repository error, or is a timestamp that the one offered may follow, or is `S`-related to it. -/
def Spec.HarmlessTimestampBy (S : Metadata TimestampType → Metadata TimestampType → Prop) (env : Env) (t : Trusted) (dts : Bytes) (ts : Metadata TimestampType) (d : Bytes) : Prop :=
  (∃ e, t.updateTimestamp env d = (.err e, t) ∧ e.isRepository = true) ∨
  ∃ old, TimestampAccepted env t d old ∧ (S old ts ∨ TimestampAccepted env { t with timestamp := some old } dts ts)

/-- The cached snapshot does no harm: it is refused with a repository error, or the one offered may follow it, or is `S`-related to it. `t` has the new timestamp. -/
def Spec.HarmlessSnapshotBy (S : Metadata SnapshotType → Metadata SnapshotType → Prop) (env : Env) (t : Trusted) (f : MetaFiles) (dsn : Bytes) (sn : Metadata SnapshotType) (d : Bytes) : Prop :=
  (∃ e, t.updateSnapshot env d true = (.err e, t) ∧ e.isRepository = true) ∨
  ∃ old, SnapshotAccepted env t d true old ∧ (S old sn ∨
    ((Expired old.signed.expires t.refTime ∨ old.signed.version ≠ f.version) ∧ SnapshotAccepted env { t with snapshot := some old } dsn false sn))

/-- The cached timestamp does no harm: it is refused with a repository error, or is a timestamp that the one offered may follow, or is the same. -/
def Spec.HarmlessTimestamp (env : Env) (t : Trusted) (dts : Bytes) (ts : Metadata TimestampType) (d : Bytes) : Prop :=
  (∃ e, t.updateTimestamp env d = (.err e, t) ∧ e.isRepository = true) ∨
  ∃ old, TimestampAccepted env t d old ∧ (old = ts ∨ TimestampAccepted env { t with timestamp := some old } dts ts)

/-- The cached snapshot does no harm: it is refused with a repository error, or the one offered may follow it, or is the same. `t` has the new timestamp. -/
def Spec.HarmlessSnapshot (env : Env) (t : Trusted) (f : MetaFiles) (dsn : Bytes) (sn : Metadata SnapshotType) (d : Bytes) : Prop :=
  (∃ e, t.updateSnapshot env d true = (.err e, t) ∧ e.isRepository = true) ∨
  ∃ old, SnapshotAccepted env t d true old ∧ (old = sn ∨
    ((Expired old.signed.expires t.refTime ∨ old.signed.version ≠ f.version) ∧ SnapshotAccepted env { t with snapshot := some old } dsn false sn))

/-- The cached targets do no harm: refused with a repository error, or acceptable. `t` has the new snapshot. -/
def Spec.HarmlessTargets (env : Env) (t : Trusted) (d : Bytes) : Prop :=
  (∃ e, t.updateDelegatedTargets env d b!"targets" b!"root" = (.err e, t) ∧ e.isRepository = true) ∨
  ∃ m, TargetsAccepted env t d b!"targets" b!"root" m

variable {dts dsn dtg : Bytes} {ts : Metadata TimestampType} {sn : Metadata SnapshotType} {tg : Metadata TargetsType} {fsn ftg : MetaFiles} {t : Trusted}

/-- What a valid update says about the snapshot. -/
structure ValidRest (x : Ctx) (srv : Str → Int → Except Err Bytes) (t : Trusted) (dsn : Bytes) (ts : Metadata TimestampType) (sn : Metadata SnapshotType) (fsn : MetaFiles) : Prop where
  snapshotListed : ts.signed.metas.get? b!"snapshot.json" = some (some fsn)
  snapshot : ∃ url n, RoleURL x t b!"snapshot" fsn.version url ∧ LengthLimit fsn.length x.cfg.snapshotMaxLength n ∧ srv url n = .ok dsn
  snapshotOk : SnapshotAccepted x.env { t with timestamp := some ts } dsn false sn
  snapshotFresh : ¬ Expired sn.signed.expires t.refTime
  snapshotVersion : sn.signed.version = fsn.version

/-- What a valid update says about the top-level targets. -/
structure ValidTargets (x : Ctx) (srv : Str → Int → Except Err Bytes) (t : Trusted) (dtg : Bytes) (ts : Metadata TimestampType) (sn : Metadata SnapshotType) (tg : Metadata TargetsType)
    (ftg : MetaFiles) : Prop where
  early : t.targets.get? b!"targets" = none
  targetsListed : sn.signed.metas.get? b!"targets.json" = some (some ftg)
  targets : ∃ url n, RoleURL x t b!"targets" ftg.version url ∧ LengthLimit ftg.length x.cfg.targetsMaxLength n ∧ srv url n = .ok dtg
  targetsOk : TargetsAccepted x.env { t with timestamp := some ts, snapshot := some sn } dtg b!"targets" b!"root" tg

theorem Spec.ValidUpdate.rest (h : ValidUpdate x srv t dts dsn dtg ts sn tg fsn ftg) : ValidRest x srv t dsn ts sn fsn :=
  ⟨h.snapshotListed, h.snapshot, h.snapshotOk, h.snapshotFresh, h.snapshotVersion⟩

theorem Spec.ValidUpdate.last (h : ValidUpdate x srv t dts dsn dtg ts sn tg fsn ftg) : ValidTargets x srv t dtg ts sn tg ftg :=
  ⟨h.snapshotOk.early, h.targetsListed, h.targets, h.targetsOk⟩

theorem expired_isRepository (msg : String) : (Err.expiredMetadata msg).isRepository = true := rfl

theorem tryLocal_done {α : Type} {role : Str} {f : Bytes → Trusted → Res α × Trusted} {s : St} {P : Option α → Trusted → Prop}
    (hnone : P none s.trusted) (hread : ∀ d, s.world.fs (localPath x.cfg role) = some d →
      (∃ a, (f d s.trusted).1 = .ok a ∧ P (some a) (f d s.trusted).2) ∨
      (∃ e, (f d s.trusted).1 = .err e ∧ e.isRepository = true ∧ P none (f d s.trusted).2)) :
    ∃ o s', tryLocal x role f s = (.ok o, s') ∧ P o s'.trusted ∧ s'.world.fs = s.world.fs := by
  by_cases hb : x.host.readFails s.world.trace (localPath x.cfg role) = true ∨ s.world.fs (localPath x.cfg role) = none
  · unfold tryLocal
    have hr : (if x.host.readFails s.world.trace (localPath x.cfg role) then none else s.world.fs (localPath x.cfg role)) = none := by
      rcases hb with hb | hb
      · rw [if_pos hb]
      · split
        · rfl
        · exact hb
    rw [SM.bind_ok (SM.try_err (readLocal (x := x) (role := role) (s := s) hr))]
    exact ⟨none, _, rfl, hnone, rfl⟩
  · have hb1 : x.host.readFails s.world.trace (localPath x.cfg role) = false := by
      cases h : x.host.readFails s.world.trace (localPath x.cfg role) with
      | false => rfl
      | true => exact absurd (.inl h) hb
    cases hfs : s.world.fs (localPath x.cfg role) with
    | none => exact absurd (.inr hfs) hb
    | some d =>
      have h3 := tryLocal_apply (f := f) hb1 hfs
      have h4 := tryLocal_read (f := f) hb1 hfs
      rcases hread d hfs with ⟨a, h1, h2⟩ | ⟨e, h1, h5, h2⟩
      · rw [h1] at h3
        exact ⟨some a, _, Prod.ext h3 rfl, by rw [h4.1]; exact h2, h4.2⟩
      · rw [h1] at h3
        dsimp only at h3
        rw [if_pos h5] at h3
        exact ⟨none, _, Prod.ext h3 rfl, by rw [h4.1]; exact h2, h4.2⟩

theorem loadTimestamp_progress_by {S : Metadata TimestampType → Metadata TimestampType → Prop} (hS : ∀ a, S a ts → a.signed.version = ts.signed.version) (hs : Serves x.host srv) (hd : x.cfg.disableLocalCache = true ∨ GoodDisk x.host)
    (hv : ValidUpdate x srv t dts dsn dtg ts sn tg fsn ftg) (h0 : t.timestamp = none) {s : St} (ht : s.trusted = t) {N : Str → Prop} [TempNames x.host N] (hw : Free N s.world.fs)
    (hl : ∀ d, s.world.fs (localPath x.cfg TIMESTAMP) = some d → HarmlessTimestampBy S x.env t dts ts d) :
    ∃ ts' s', loadTimestamp x s = (.ok (), s') ∧ s'.trusted = { t with timestamp := some ts' } ∧ (ts' = ts ∨ S ts' ts) ∧ Free N s'.world.fs := by
  unfold loadTimestamp
  obtain ⟨o, s1, h1, h2, h3⟩ := tryLocal_done (x := x) (role := TIMESTAMP) (f := fun d t => t.updateTimestamp x.env d) (s := s)
    (P := fun _ t1 => t1 = t ∨ ∃ old, t1 = { t with timestamp := some old } ∧ (S old ts ∨ TimestampAccepted x.env { t with timestamp := some old } dts ts))
    (.inl ht) (by
      intro d hfs
      rw [ht]
      rcases hl d hfs with ⟨e, h1, h2⟩ | ⟨old, h1, h2⟩
      · rw [h1]; exact .inr ⟨e, rfl, h2, .inl rfl⟩
      · have hP := updateTimestamp_stores h1
        rcases updateTimestamp_cases x.env t d with ⟨n, _, _, ⟨_, hr⟩ | ⟨_, msg, hr⟩⟩ | ⟨e', hr⟩ | hr
        · left; exact ⟨n, hr, .inr ⟨old, hP, h2⟩⟩
        · right; exact ⟨_, hr, rfl, .inr ⟨old, hP, h2⟩⟩
        · exfalso
          have := updateTimestamp_stores h1
          rw [hr] at this
          have e := congrArg Trusted.timestamp this
          rw [h0] at e; cases e
        · exfalso
          have := updateTimestamp_stores h1
          rw [hr] at this
          have e := congrArg Trusted.timestamp this
          rw [h0] at e; cases e)
  rw [SM.bind_ok h1]
  obtain ⟨url, h4, h5⟩ := hv.timestamp
  obtain rfl := plainURL_unique h4 (plainURL _ _)
  obtain ⟨s2, h6, h7, h8⟩ := fetch_progress (s := s1) hs h5
  rw [SM.bind_ok (show onWorld (downloadMetadata x TIMESTAMP x.cfg.timestampMaxLength []) s1 = _ from h6)]
  have hw2 : Free N s2.world.fs := by rw [h8, h3]; exact hw
  have stored : s2.trusted.updateTimestamp x.env dts = (.ok ts, { t with timestamp := some ts }) →
      ∃ ts' s', (do
        match ← SM.try' (onTrusted (fun t => t.updateTimestamp x.env dts)) with
        | .error e => if e.isEqualVersion then pure () else SM.throw e
        | .ok _ => onWorld (persistMetadata x TIMESTAMP dts) : M Unit) s2 = (.ok (), s') ∧ s'.trusted = { t with timestamp := some ts' } ∧
        (ts' = ts ∨ S ts' ts) ∧ Free N s'.world.fs := by
    intro hu
    have : onTrusted (fun t => t.updateTimestamp x.env dts) s2 = (.ok ts, { s2 with trusted := { t with timestamp := some ts } }) := by
      rw [onTrusted_apply, hu]
    rw [SM.bind_ok (SM.try_ok this)]
    dsimp only
    obtain ⟨s', k1, k2, k3⟩ := persist_progress' hd TIMESTAMP dts (s := { s2 with trusted := { t with timestamp := some ts } }) hw2
    exact ⟨ts, s', k1, k2, .inl rfl, k3⟩
  rcases h2 with h2 | ⟨old, h2, h9⟩
  · exact stored (by rw [h7, h2]; exact updateTimestamp_fresh hv.timestampOk hv.timestampFresh)
  · rcases h9 with h9 | h9
    · obtain ⟨msg, h10⟩ := C13_equal_version (env := x.env) (t := { t with timestamp := some old }) (data := dts) (new := ts) rfl hv.timestampOk.early hv.timestampOk.rootFresh
        hv.timestampOk.parsed hv.timestampOk.type hv.timestampOk.signed (hS _ h9).symm
      have : onTrusted (fun t => t.updateTimestamp x.env dts) s2 = (.err (.equalVersionNumber msg), s2) := by
        rw [onTrusted_apply]
        have : s2.trusted = { t with timestamp := some old } := h7.trans h2
        rw [this, h10]
        rw [← this]
      rw [SM.bind_ok (SM.try_err this)]
      dsimp only
      rw [if_pos (show (Err.equalVersionNumber msg).isEqualVersion = true by simp [Err.isEqualVersion, Err.is, Err.isMethod])]
      exact ⟨old, s2, rfl, h7.trans h2, .inr h9, hw2⟩
    · refine stored ?_
      rw [h7, h2]
      exact updateTimestamp_fresh h9 hv.timestampFresh

theorem loadTimestamp_progress (hs : Serves x.host srv) (hd : x.cfg.disableLocalCache = true ∨ GoodDisk x.host)
    (hv : ValidUpdate x srv t dts dsn dtg ts sn tg fsn ftg) (h0 : t.timestamp = none) {s : St} (ht : s.trusted = t) {N : Str → Prop} [TempNames x.host N] (hw : Free N s.world.fs)
    (hl : ∀ d, s.world.fs (localPath x.cfg TIMESTAMP) = some d → HarmlessTimestamp x.env t dts ts d) :
    ∃ s', loadTimestamp x s = (.ok (), s') ∧ s'.trusted = { t with timestamp := some ts } ∧ Free N s'.world.fs := by
  obtain ⟨ts', s', h1, h2, h3, h4⟩ := loadTimestamp_progress_by (S := Eq) (by rintro a rfl; rfl) hs hd hv h0 ht hw hl
  rw [or_self] at h3
  subst h3
  exact ⟨s', h1, h2, h4⟩

theorem loadSnapshot_progress_by {S : Metadata SnapshotType → Metadata SnapshotType → Prop}
    (hS : ∀ a, S a sn → a.signed.version = sn.signed.version ∧ a.signed.expires = sn.signed.expires) (hs : Serves x.host srv) (hd : x.cfg.disableLocalCache = true ∨ GoodDisk x.host)
    (hv : ValidRest x srv t dsn ts sn fsn) (h0 : t.snapshot = none) {s : St} (ht : s.trusted = { t with timestamp := some ts })
    {N : Str → Prop} [TempNames x.host N] (hw : Free N s.world.fs)
    (hl : ∀ d, s.world.fs (localPath x.cfg SNAPSHOT) = some d → HarmlessSnapshotBy S x.env { t with timestamp := some ts } fsn dsn sn d) :
    ∃ sn' s', loadSnapshot x s = (.ok (), s') ∧ s'.trusted = { t with timestamp := some ts, snapshot := some sn' } ∧ (sn' = sn ∨ S sn' sn) ∧ Free N s'.world.fs := by
  have hlist : Lists ts.signed.metas b!"snapshot.json" sn.signed.version := ⟨fsn, hv.snapshotListed, hv.snapshotVersion.symm⟩
  unfold loadSnapshot
  obtain ⟨o, s1, h1, h2, h3⟩ := tryLocal_done (x := x) (role := SNAPSHOT) (f := fun d t => t.updateSnapshot x.env d true) (s := s)
    (P := fun o t1 => (o.isSome = true → ∃ sn', t1 = { t with timestamp := some ts, snapshot := some sn' } ∧ S sn' sn) ∧
      (o = none → t1.root = t.root ∧ t1.timestamp = some ts ∧ t1.refTime = t.refTime ∧ SnapshotAccepted x.env t1 dsn false sn ∧
        { t1 with snapshot := some sn } = { t with timestamp := some ts, snapshot := some sn }))
    (by rw [ht]; exact ⟨by simp, fun _ => ⟨rfl, rfl, rfl, hv.snapshotOk, rfl⟩⟩) (by
      intro d hfs
      rw [ht]
      rcases hl d hfs with ⟨e, h1, h2⟩ | ⟨old, h1, h2⟩
      · rw [h1]; exact .inr ⟨e, rfl, h2, by simp, fun _ => ⟨rfl, rfl, rfl, hv.snapshotOk, rfl⟩⟩
      · have hP := updateSnapshot_stores h1
        rcases h2 with h2 | ⟨h2, h3⟩
        · left
          rw [updateSnapshot_fresh h1 (by rw [(hS _ h2).2]; exact hv.snapshotFresh) rfl (by rw [(hS _ h2).1]; exact hlist)]
          exact ⟨old, rfl, fun _ => ⟨old, rfl, h2⟩, by simp⟩
        · right
          have hrec : ∀ e : Err, e.isRepository = true → (Trusted.updateSnapshot x.env { t with timestamp := some ts } d true).1 = .err e →
              ∃ e, (Trusted.updateSnapshot x.env { t with timestamp := some ts } d true).1 = .err e ∧ e.isRepository = true ∧
                ((none : Option (Metadata SnapshotType)).isSome = true → ∃ sn', (Trusted.updateSnapshot x.env { t with timestamp := some ts } d true).2 =
                  { t with timestamp := some ts, snapshot := some sn' } ∧ S sn' sn) ∧
                ((none : Option (Metadata SnapshotType)) = none → (Trusted.updateSnapshot x.env { t with timestamp := some ts } d true).2.root = t.root ∧
                  (Trusted.updateSnapshot x.env { t with timestamp := some ts } d true).2.timestamp = some ts ∧
                  (Trusted.updateSnapshot x.env { t with timestamp := some ts } d true).2.refTime = t.refTime ∧
                  SnapshotAccepted x.env (Trusted.updateSnapshot x.env { t with timestamp := some ts } d true).2 dsn false sn ∧
                  { (Trusted.updateSnapshot x.env { t with timestamp := some ts } d true).2 with snapshot := some sn } =
                    { t with timestamp := some ts, snapshot := some sn }) := by
            intro e he hr
            refine ⟨e, hr, he, by simp, fun _ => ?_⟩
            rw [hP]
            exact ⟨rfl, rfl, rfl, h3, rfl⟩
          rcases updateSnapshot_cases x.env { t with timestamp := some ts } d true with
            ⟨n, hn, _, ⟨hx, ⟨ts', hts', f', hf', hf''⟩, hr⟩ | ⟨_, msg, hr⟩ | ⟨_, _, msg, hr⟩ | ⟨⟨ts', hts', hno⟩, hr⟩⟩ | ⟨e', hr⟩ | hr
          · exfalso
            have e1 : n = old := by
              have := hn.parsed.symm.trans h1.parsed
              cases this; rfl
            cases hts'
            rw [hv.snapshotListed] at hf'
            cases hf'
            rcases h2 with h2 | h2
            · exact hx (by rw [e1]; exact h2)
            · exact h2 (by rw [hf'', e1])
          · exact hrec _ rfl hr
          · exact hrec _ rfl hr
          · cases hts'
            exact absurd hlist (hno _)
          · exfalso
            rw [hr] at hP
            have e : t.snapshot = some old := congrArg Trusted.snapshot hP
            rw [h0] at e; cases e
          · exfalso
            rw [hr] at hP
            have e : t.snapshot = some old := congrArg Trusted.snapshot hP
            rw [h0] at e; cases e)
  rw [SM.bind_ok h1]
  have hw1 : Free N s1.world.fs := by rw [h3]; exact hw
  cases o with
  | some m =>
    obtain ⟨sn', k1, k2⟩ := h2.1 rfl
    exact ⟨sn', s1, rfl, k1, .inr k2, hw1⟩
  | none =>
    obtain ⟨k1, k2, k3, k4, k5⟩ := h2.2 rfl
    dsimp only
    rw [SM.bind_ok (getTrusted_apply s1), k2]
    dsimp only
    rw [SM.bind_ok (lift_deref (show ts.signed.metas.ptr (jsonName SNAPSHOT) = some fsn from ptr_eq_some.2 hv.snapshotListed) s1)]
    obtain ⟨url, n, h4, h5, h6⟩ := hv.snapshot
    have hru := roleURL x s1.trusted SNAPSHOT fsn
    have h4' : RoleURL x s1.trusted SNAPSHOT fsn.version url := by
      unfold RoleURL at h4 ⊢
      rw [k1]; exact h4
    obtain rfl := roleURL_unique h4' hru
    obtain rfl := lengthLimit_unique h5 (lengthLimit _ _)
    obtain ⟨s2, h7, h8, h9⟩ := fetch_progress (s := s1) hs h6
    rw [SM.bind_ok h7]
    have hu : s1.trusted.updateSnapshot x.env dsn false = (.ok sn, { s1.trusted with snapshot := some sn }) :=
      updateSnapshot_fresh k4 (by rw [k3]; exact hv.snapshotFresh) k2 hlist
    have : onTrusted (fun t => t.updateSnapshot x.env dsn false) s2 = (.ok sn, { s2 with trusted := { t with timestamp := some ts, snapshot := some sn } }) := by
      rw [onTrusted_apply, h8, hu, k5]
    rw [SM.bind_ok this]
    obtain ⟨s', g1, g2, g3⟩ := persist_progress' hd SNAPSHOT dsn (s := { s2 with trusted := { t with timestamp := some ts, snapshot := some sn } }) (by rw [show _ = s1.world.fs from h9]; exact hw1)
    exact ⟨sn, s', g1, g2, .inl rfl, g3⟩

theorem loadSnapshot_progress (hs : Serves x.host srv) (hd : x.cfg.disableLocalCache = true ∨ GoodDisk x.host)
    (hv : ValidUpdate x srv t dts dsn dtg ts sn tg fsn ftg) (h0 : t.snapshot = none) {s : St} (ht : s.trusted = { t with timestamp := some ts })
    {N : Str → Prop} [TempNames x.host N] (hw : Free N s.world.fs)
    (hl : ∀ d, s.world.fs (localPath x.cfg SNAPSHOT) = some d → HarmlessSnapshot x.env { t with timestamp := some ts } fsn dsn sn d) :
    ∃ s', loadSnapshot x s = (.ok (), s') ∧ s'.trusted = { t with timestamp := some ts, snapshot := some sn } ∧ Free N s'.world.fs := by
  obtain ⟨sn', s', h1, h2, h3, h4⟩ := loadSnapshot_progress_by (S := Eq) (by rintro a rfl; exact ⟨rfl, rfl⟩) hs hd hv.rest h0 ht hw hl
  rw [or_self] at h3
  subst h3
  exact ⟨s', h1, h2, h4⟩

theorem loadTargets_progress (hs : Serves x.host srv) (hd : x.cfg.disableLocalCache = true ∨ GoodDisk x.host)
    (hv : ValidTargets x srv t dtg ts sn tg ftg) {s : St} (ht : s.trusted = { t with timestamp := some ts, snapshot := some sn })
    {N : Str → Prop} [TempNames x.host N] (hw : Free N s.world.fs)
    (hl : ∀ d, s.world.fs (localPath x.cfg TARGETS) = some d → HarmlessTargets x.env { t with timestamp := some ts, snapshot := some sn } d) :
    ∃ m s', loadTargets x TARGETS ROOT s = (.ok m, s') ∧
      s'.trusted = { t with timestamp := some ts, snapshot := some sn, targets := t.targets.set TARGETS m } ∧
      (m = tg ∨ ∃ d, s.world.fs (localPath x.cfg TARGETS) = some d ∧ TargetsAccepted x.env { t with timestamp := some ts, snapshot := some sn } d b!"targets" b!"root" m) ∧
      Free N s'.world.fs := by
  unfold loadTargets
  rw [SM.bind_ok (getTrusted_apply s), ht]
  have hno : Entries.get? t.targets TARGETS = none := hv.early
  dsimp only
  rw [hno]
  dsimp only
  obtain ⟨o, s1, h1, h2, h3⟩ := tryLocal_done (x := x) (role := TARGETS) (f := fun d t => t.updateDelegatedTargets x.env d TARGETS ROOT) (s := s)
    (P := fun o t1 => (o = none → t1 = { t with timestamp := some ts, snapshot := some sn }) ∧
      ∀ m, o = some m → t1 = { t with timestamp := some ts, snapshot := some sn, targets := t.targets.set TARGETS m } ∧
        ∃ d, s.world.fs (localPath x.cfg TARGETS) = some d ∧ TargetsAccepted x.env { t with timestamp := some ts, snapshot := some sn } d b!"targets" b!"root" m)
    ⟨fun _ => ht, by simp⟩ (by
      intro d hfs
      rw [ht]
      rcases hl d hfs with ⟨e, h1, h2⟩ | ⟨m, h1⟩
      · right
        have h1' : Trusted.updateDelegatedTargets x.env { t with timestamp := some ts, snapshot := some sn } d TARGETS ROOT = _ := h1
        rw [h1']
        exact ⟨e, rfl, h2, fun _ => rfl, by simp⟩
      · left
        have h1' := updateTargets_accepts h1
        have h1'' : Trusted.updateDelegatedTargets x.env { t with timestamp := some ts, snapshot := some sn } d TARGETS ROOT = _ := h1'
        rw [h1'']
        refine ⟨m, rfl, by simp, ?_⟩
        intro m' hm'
        cases hm'
        exact ⟨rfl, d, hfs, h1⟩)
  rw [SM.bind_ok h1]
  have hw1 : Free N s1.world.fs := by rw [h3]; exact hw
  cases o with
  | some m => exact ⟨m, s1, rfl, (h2.2 m rfl).1, .inr (h2.2 m rfl).2, hw1⟩
  | none =>
    have k := h2.1 rfl
    dsimp only
    rw [SM.bind_ok (getTrusted_apply s1), k]
    dsimp only
    rw [SM.bind_ok (lift_deref (show sn.signed.metas.ptr (jsonName TARGETS) = some ftg from ptr_eq_some.2 hv.targetsListed) s1)]
    obtain ⟨url, n, h4, h5, h6⟩ := hv.targets
    have hru := roleURL x { t with timestamp := some ts, snapshot := some sn } TARGETS ftg
    have h4' : RoleURL x { t with timestamp := some ts, snapshot := some sn } TARGETS ftg.version url := h4
    obtain rfl := roleURL_unique h4' hru
    obtain rfl := lengthLimit_unique h5 (lengthLimit _ _)
    obtain ⟨s2, h7, h8, h9⟩ := fetch_progress (s := s1) hs h6
    rw [SM.bind_ok h7]
    have hu := updateTargets_accepts hv.targetsOk
    have : onTrusted (fun t => t.updateDelegatedTargets x.env dtg TARGETS ROOT) s2 = (.ok tg, { s2 with trusted := (Trusted.updateDelegatedTargets x.env s2.trusted dtg TARGETS ROOT).2 }) := by
      rw [onTrusted_apply]
      refine Prod.ext ?_ rfl
      dsimp only
      rw [h8, k]
      exact congrArg Prod.fst hu
    rw [SM.bind_ok this]
    obtain ⟨s3, h10, h12, h11⟩ := persist_progress' hd TARGETS dtg (s := { s2 with trusted := (Trusted.updateDelegatedTargets x.env s2.trusted dtg TARGETS ROOT).2 })
      (by rw [show _ = s1.world.fs from h9]; exact hw1)
    rw [SM.bind_ok h10]
    refine ⟨tg, s3, rfl, ?_, .inl rfl, h11⟩
    rw [h12]
    show (Trusted.updateDelegatedTargets x.env s2.trusted dtg TARGETS ROOT).2 = _
    rw [h8, k]
    exact congrArg Prod.snd hu

/-- A targets role is loaded, if what is cached for it is refused with a repository error or is the same document; no other file changes. -/
theorem loadTargets_current (hs : Serves x.host srv) (hd : x.cfg.disableLocalCache = true ∨ GoodDisk x.host) {role parent : Str} {s : St} {sn : Metadata SnapshotType}
    {m : Metadata TargetsType} {f : MetaFiles} {data : Bytes} (hno : s.trusted.targets.get? role = none) (hsn : s.trusted.snapshot = some sn)
    (hlist : sn.signed.metas.get? (role ++ b!".json") = some (some f))
    (hfs : ∀ d, s.world.fs (localPath x.cfg role) = some d → (∃ e, s.trusted.updateDelegatedTargets x.env d role parent = (.err e, s.trusted) ∧ e.isRepository = true) ∨
      TargetsAccepted x.env s.trusted d role parent m) (hw : NoTemps s.world.fs)
    (hserve : ∃ url n, RoleURL x s.trusted role f.version url ∧ LengthLimit f.length x.cfg.targetsMaxLength n ∧ srv url n = .ok data)
    (ha : TargetsAccepted x.env s.trusted data role parent m) :
    ∃ s', loadTargets x role parent s = (.ok m, s') ∧ s'.trusted = { s.trusted with targets := s.trusted.targets.set role m } ∧ NoTemps s'.world.fs ∧
      (∀ q, ¬ TempName q → q ≠ persistPath x.cfg role → s'.world.fs q = s.world.fs q) ∧
      (s'.world.fs (persistPath x.cfg role) = s.world.fs (persistPath x.cfg role) ∨ s'.world.fs (persistPath x.cfg role) = some data) := by
  unfold loadTargets
  rw [SM.bind_ok (getTrusted_apply s)]
  dsimp only
  rw [hno]
  dsimp only
  obtain ⟨o, s1, h1, h2, h3⟩ := tryLocal_done (x := x) (role := role) (f := fun d t => t.updateDelegatedTargets x.env d role parent) (s := s)
    (P := fun o t1 => (o = none ∧ t1 = s.trusted) ∨ (o = some m ∧ t1 = { s.trusted with targets := s.trusted.targets.set role m })) (.inl ⟨rfl, rfl⟩) (by
      intro d hfs'
      rcases hfs d hfs' with ⟨e, h1, h2⟩ | h1
      · right
        dsimp only
        rw [h1]
        exact ⟨e, rfl, h2, .inl ⟨rfl, rfl⟩⟩
      · left
        dsimp only
        rw [updateTargets_accepts h1]
        exact ⟨m, rfl, .inr ⟨rfl, rfl⟩⟩)
  rcases h2 with ⟨rfl, k⟩ | ⟨rfl, k⟩
  · rw [SM.bind_ok h1]
    dsimp only
    rw [SM.bind_ok (getTrusted_apply s1), k, hsn]
    dsimp only
    rw [SM.bind_ok (lift_deref (show sn.signed.metas.ptr (jsonName role) = some f from ptr_eq_some.2 hlist) s1)]
    obtain ⟨url, n, h4, h5, h6⟩ := hserve
    obtain rfl := roleURL_unique h4 (roleURL x s.trusted role f)
    obtain rfl := lengthLimit_unique h5 (lengthLimit _ _)
    obtain ⟨s2, h7, h8, h9⟩ := fetch_progress (s := s1) hs h6
    rw [SM.bind_ok h7]
    have hu := updateTargets_accepts ha
    have : onTrusted (fun t => t.updateDelegatedTargets x.env data role parent) s2 = (.ok m, { s2 with trusted := { s.trusted with targets := s.trusted.targets.set role m } }) := by
      rw [onTrusted_apply, h8, k, hu]
    rw [SM.bind_ok this]
    obtain ⟨w', g1, g2, g3⟩ := persist_progress hd role data (w := s2.world) (by rw [h9, h3]; exact hw)
    have g1' : onWorld (persistMetadata x role data) { s2 with trusted := { s.trusted with targets := s.trusted.targets.set role m } } =
        (.ok (), ⟨{ s.trusted with targets := s.trusted.targets.set role m }, w'⟩) := by rw [onWorld_apply, g1]
    rw [SM.bind_ok g1']
    refine ⟨_, rfl, by rw [← hsn], g2, fun q hq hne => by rw [g3 q hq hne, h9, h3], ?_⟩
    cases hc : x.cfg.disableLocalCache with
    | false => exact .inr (persist_ok hc g1)
    | true =>
      unfold persistMetadata at g1
      rw [if_pos hc] at g1
      cases g1
      exact .inl (by rw [h9, h3])
  · rw [SM.bind_ok h1]
    exact ⟨s1, rfl, k, by rw [h3]; exact hw, fun q _ _ => by rw [h3], .inl (by rw [h3])⟩

/-- The state after a successful refresh, too. -/
theorem refresh_progress (hu : x.cfg.unsafeLocalMode = false) (hs : Serves x.host srv)
    (hd : x.cfg.disableLocalCache = true ∨ GoodDisk x.host) {s : St} (hw : NoTemps s.world.fs)
    (hts : s.trusted.timestamp = none) (hsn : s.trusted.snapshot = none)
    (hm : 0 ≤ x.cfg.maxRootRotations ∧ wrap64 (s.trusted.root.signed.version + 1) + x.cfg.maxRootRotations < 2 ^ 63)
    (hroots : RootsLeadTo x srv x.cfg.maxRootRotations.toNat s.trusted t)
    (hv : ValidUpdate x srv t dts dsn dtg ts sn tg fsn ftg)
    (h1 : ∀ d, s.world.fs (joinPath x.cfg.localMetadataDir b!"timestamp.json") = some d → HarmlessTimestamp x.env t dts ts d)
    (h2 : ∀ d, s.world.fs (joinPath x.cfg.localMetadataDir b!"snapshot.json") = some d →
      HarmlessSnapshot x.env { t with timestamp := some ts } fsn dsn sn d)
    (h3 : ∀ d, s.world.fs (joinPath x.cfg.localMetadataDir b!"targets.json") = some d →
      HarmlessTargets x.env { t with timestamp := some ts, snapshot := some sn } d) :
    ∃ m s', refresh x s = (.ok (), s') ∧ s'.trusted = { t with timestamp := some ts, snapshot := some sn, targets := t.targets.set TARGETS m } ∧
      (m = tg ∨ ∃ d, s.world.fs (joinPath x.cfg.localMetadataDir b!"targets.json") = some d ∧
        TargetsAccepted x.env { t with timestamp := some ts, snapshot := some sn } d b!"targets" b!"root" m) ∧ NoTemps s'.world.fs := by
  have c := cacheFile x
  rw [← c.1] at h1; rw [← c.2.1] at h2; rw [← c.2.2.1] at h3
  have hb := wrap64_bounds (s.trusted.root.signed.version + 1)
  have hn : (wrap64 (wrap64 (s.trusted.root.signed.version + 1) + x.cfg.maxRootRotations) - wrap64 (s.trusted.root.signed.version + 1)).toNat =
      x.cfg.maxRootRotations.toNat := by
    rw [wrap64_of_bounds (n := wrap64 (s.trusted.root.signed.version + 1) + x.cfg.maxRootRotations) (by omega) (by omega)]
    omega
  obtain ⟨s1, p1, q1, w1⟩ := rootLoop_progress hs hd hroots (wrap64 (s.trusted.root.signed.version + 1)) s rfl hw rfl (by omega)
  have p1' : loadRoot x s = (.ok (), s1) := by
    rw [← p1, ← hn]
    rfl
  have k1 := loadRoot_keeps p1'
  have f1 := fun role hr => loadRoot_files (x := x) s (role := role) hr
  rw [p1'] at f1
  dsimp only at f1
  have hts1 : t.timestamp = none := by rw [← q1, k1]; exact hts
  have hsn1 : t.snapshot = none := by rw [← q1, k1]; exact hsn
  obtain ⟨s2, p2, q2, w2⟩ := loadTimestamp_progress hs hd hv hts1 q1 w1 (by rw [f1 _ (by decide)]; exact h1)
  have f2 := fun role hr => loadTimestamp_files (x := x) s1 (role := role) hr
  rw [p2] at f2
  dsimp only at f2
  obtain ⟨s3, p3, q3, w3⟩ := loadSnapshot_progress hs hd hv hsn1 q2 w2 (by rw [f2 _ (by decide), f1 _ (by decide)]; exact h2)
  have f3 := fun role hr => loadSnapshot_files (x := x) s2 (role := role) hr
  rw [p3] at f3
  dsimp only at f3
  obtain ⟨m, s4, p4, q4, o4, w4⟩ := loadTargets_progress hs hd hv.last q3 w3 (by rw [f3 _ (by decide), f2 _ (by decide), f1 _ (by decide)]; exact h3)
  rw [f3 _ (by decide), f2 _ (by decide), f1 _ (by decide), c.2.2.1] at o4
  refine ⟨m, s4, ?_, q4, o4, w4⟩
  unfold refresh
  rw [if_neg (by simp [hu])]
  unfold onlineRefresh
  rw [SM.bind_ok p1', SM.bind_ok p2, SM.bind_ok p3, SM.bind_ok p4]
  rfl

/-- C34 without damaged documents: if the server offers a valid update and the disk works, an online `Refresh` succeeds, provided each cache file is absent, unreadable,
refused with a repository error (for example because of bad signatures), or holds an acceptable document that the offered one may follow. Missing: cache files that are not JSON, of another type or
otherwise refused with an error that is not a repository error; these make `Refresh` fail (`C34_false`, `C34_false_type`). -/
theorem C34_refresh_succeeds_partial (hu : x.cfg.unsafeLocalMode = false) (hs : Serves x.host srv)
    (hd : x.cfg.disableLocalCache = true ∨ GoodDisk x.host) {s : St} (hw : NoTemps s.world.fs)
    (hts : s.trusted.timestamp = none) (hsn : s.trusted.snapshot = none)
    (hm : 0 ≤ x.cfg.maxRootRotations ∧ wrap64 (s.trusted.root.signed.version + 1) + x.cfg.maxRootRotations < 2 ^ 63)
    (hroots : RootsLeadTo x srv x.cfg.maxRootRotations.toNat s.trusted t)
    (hv : ValidUpdate x srv t dts dsn dtg ts sn tg fsn ftg)
    (h1 : ∀ d, s.world.fs (joinPath x.cfg.localMetadataDir b!"timestamp.json") = some d → HarmlessTimestamp x.env t dts ts d)
    (h2 : ∀ d, s.world.fs (joinPath x.cfg.localMetadataDir b!"snapshot.json") = some d →
      HarmlessSnapshot x.env { t with timestamp := some ts } fsn dsn sn d)
    (h3 : ∀ d, s.world.fs (joinPath x.cfg.localMetadataDir b!"targets.json") = some d →
      HarmlessTargets x.env { t with timestamp := some ts, snapshot := some sn } d) :
    (refresh x s).1 = .ok () := by
  obtain ⟨_, _, h, _⟩ := refresh_progress hu hs hd hw hts hsn hm hroots hv h1 h2 h3
  rw [h]

end

/-- The hypotheses are met: the sample server, and an older timestamp in the cache. -/
example : ∃ (s : St) (t : Trusted) (ts : Metadata TimestampType) (sn : Metadata SnapshotType) (tg : Metadata TargetsType) (fsn ftg : MetaFiles),
    Serves ctx.host (fun u _ => server u) ∧ GoodDisk ctx.host ∧ NoTemps s.world.fs ∧ s.trusted.timestamp = none ∧ s.trusted.snapshot = none ∧
    RootsLeadTo ctx (fun u _ => server u) ctx.cfg.maxRootRotations.toNat s.trusted t ∧
    ValidUpdate ctx (fun u _ => server u) t [2, 4] [3, 4] [4, 4] ts sn tg fsn ftg ∧
    s.world.fs (joinPath ctx.cfg.localMetadataDir b!"timestamp.json") = some [2, 3] ∧ HarmlessTimestamp ctx.env t [2, 4] ts [2, 3] := by
  obtain ⟨t, ht⟩ : ∃ t, start [1, 1] = .ok t := by
    cases h : start [1, 1] with
    | ok t => exact ⟨t, rfl⟩
    | _ => have : (start [1, 1]).isOk = true := by decide +kernel
           rw [h] at this; cases this
  have e0 : ((start [1, 1]).map (fun t => decide (t.timestamp.isNone ∧ t.snapshot.isNone ∧ t.root.signed.version = 1 ∧ t.root.signed.consistentSnapshot = true))) = .ok true := by
    decide +kernel
  have e1 : ((start [1, 1]).bind (fun t => (t.updateTimestamp repoEnv [2, 4]).1.bind (fun ts =>
      ((Trusted.updateSnapshot repoEnv { t with timestamp := some ts } [3, 4] false).1.bind (fun sn =>
        (Trusted.updateDelegatedTargets repoEnv { t with timestamp := some ts, snapshot := some sn } [4, 4] TARGETS ROOT).1.map (fun _ =>
          ((ts.signed.metas.get? b!"snapshot.json").map (fun o => o.map (fun f => (f.version, f.length))),
           (sn.signed.metas.get? b!"targets.json").map (fun o => o.map (fun f => (f.version, f.length))), sn.signed.version))))))) =
      .ok (some (some (4, 0)), some (some (4, 0)), 4) := by decide +kernel
  have e2 : ((start [1, 1]).bind (fun t => (t.updateTimestamp repoEnv [2, 3]).1.bind (fun old =>
      (Trusted.updateTimestamp repoEnv { t with timestamp := some old } [2, 4]).1.map (fun _ => ())))) = .ok () := by decide +kernel
  rw [ht] at e0 e1 e2
  simp only [Res.map, Res.bind, Res.ok.injEq, decide_eq_true_eq, Option.isNone_iff_eq_none] at e0 e1 e2
  obtain ⟨e3, e4, e5, e6⟩ := e0
  rcases h1 : t.updateTimestamp repoEnv [2, 4] with ⟨r1, t1⟩
  rw [h1] at e1
  cases r1 with
  | err e => cases e1
  | panic => cases e1
  | ok ts =>
  rcases h2 : Trusted.updateSnapshot repoEnv { t with timestamp := some ts } [3, 4] false with ⟨r2, t2⟩
  dsimp only at e1
  rw [h2] at e1
  cases r2 with
  | err e => cases e1
  | panic => cases e1
  | ok sn =>
  rcases h3 : Trusted.updateDelegatedTargets repoEnv { t with timestamp := some ts, snapshot := some sn } [4, 4] TARGETS ROOT with ⟨r3, t3⟩
  dsimp only at e1
  rw [h3] at e1
  cases r3 with
  | err e => cases e1
  | panic => cases e1
  | ok tg =>
  simp only [Res.ok.injEq, Prod.mk.injEq] at e1
  obtain ⟨f1, f2, f3⟩ := e1
  rcases h4 : Trusted.updateTimestamp repoEnv t [2, 3] with ⟨r4, t4⟩
  rw [h4] at e2
  cases r4 with
  | err e => cases e2
  | panic => cases e2
  | ok old =>
  rcases h5 : Trusted.updateTimestamp repoEnv { t with timestamp := some old } [2, 4] with ⟨r5, t5⟩
  dsimp only at e2
  rw [h5] at e2
  cases r5 with
  | err e => cases e2
  | panic => cases e2
  | ok ts' =>
  obtain ⟨a1, a2, rfl⟩ := updateTimestamp_ok h1
  obtain ⟨b1, b2, rfl⟩ := updateSnapshot_ok h2
  obtain ⟨c1, _⟩ := updateTargets_ok h3
  obtain ⟨d1, _, _⟩ := updateTimestamp_ok h4
  obtain ⟨d2, _, _⟩ := updateTimestamp_ok h5
  obtain rfl : ts' = ts := by
    have := d2.parsed.symm.trans a1.parsed
    cases this; rfl
  obtain ⟨fsn, g1, g2, g3⟩ : ∃ f, ts'.signed.metas.get? b!"snapshot.json" = some (some f) ∧ f.version = 4 ∧ f.length = 0 := by
    simp only [Option.map_eq_some_iff] at f1
    obtain ⟨_, k1, f, rfl, k2⟩ := f1
    exact ⟨f, k1, congrArg Prod.fst k2, congrArg Prod.snd k2⟩
  obtain ⟨ftg, g4, g5, g6⟩ : ∃ f, sn.signed.metas.get? b!"targets.json" = some (some f) ∧ f.version = 4 ∧ f.length = 0 := by
    simp only [Option.map_eq_some_iff] at f2
    obtain ⟨_, k1, f, rfl, k2⟩ := f2
    exact ⟨f, k1, congrArg Prod.fst k2, congrArg Prod.snd k2⟩
  have base : SlashBase ctx.cfg.remoteMetadataURL b!"u/" := .inr ⟨by decide +kernel, by decide +kernel⟩
  refine ⟨⟨t, { fs := disk [(b!"m/timestamp.json", [2, 3])] }⟩, t, ts', sn, tg, fsn, ftg, fun _ _ _ => rfl, ⟨fun _ => rfl, fun _ => rfl, fun _ _ => rfl, fun _ _ => Nat.le_refl _, fun _ _ _ => rfl⟩,
    ?_, e3, e4, ?_, ?_, (by decide +kernel : disk [(b!"m/timestamp.json", [2, 3])] (joinPath b!"m" b!"timestamp.json") = some [2, 3]), .inr ⟨old, d1, .inr d2⟩⟩
  · intro p hp
    have : ¬ b!"m/timestamp.json" = p := by
      rintro rfl
      exact localPath_not_temp cfg TIMESTAMP hp
    simp [disk, this]
  · refine .newest (n := 31) (url := b!"u/2.root.json") (status := 404) ⟨_, base, ?_⟩ rfl (.inr rfl)
    rw [e5]; decide +kernel
  · refine ⟨⟨b!"u/timestamp.json", ⟨_, base, by decide +kernel⟩, rfl⟩, a1, a2, g1,
      ⟨b!"u/4.snapshot.json", _, .inl ⟨e6, _, base, ?_⟩, .inr ⟨g3, rfl⟩, rfl⟩, b1, b2, by rw [f3, g2], g4,
      ⟨b!"u/4.targets.json", _, .inl ⟨e6, _, base, ?_⟩, .inr ⟨g6, rfl⟩, rfl⟩, c1⟩
    · rw [g2]; decide +kernel
    · rw [g5]; decide +kernel

end Tuf
