import Verif.Spec.CatchUp
import Verif.Props.Bootstrap
import Verif.Props.CliHonest

/-!
# Clients that are many root rotations behind
-/

namespace Tuf
open Spec

section
variable {x : Ctx} {srv : Str → Int → Except Err Bytes} {rs : List RootFile}

theorem line_parsed {env : Env} (hl : RootLine env rs) {i : Nat} {f : RootFile} (hf : rs[i]? = some f) :
    ParsesTo env f.data f.value ∧ f.value.signed.type = b!"root" ∧ Verifies env (.root f.value) b!"root" (.root f.value) := by
  cases i with
  | zero => exact hl.first f hf
  | succ i =>
    have hlen : i < rs.length := by
      have := (List.getElem?_eq_some_iff.1 hf).1
      omega
    have h1 := List.getElem?_eq_getElem hlen
    exact ⟨(hl.parsed i _ f h1 hf).1, (hl.parsed i _ f h1 hf).2, (hl.signed i _ f h1 hf).2⟩

/-- The root update goes up the line of roots, as far as the limit allows. -/
theorem rootLoop_line (hl : RootLine x.env rs) (hs : Serves x.host srv) (hr : HasRoots x.cfg.remoteMetadataURL x.cfg.rootMaxLength srv rs) (hd : GoodDisk x.host)
    (hc : x.cfg.disableLocalCache = false) (n : Nat) {i : Nat} {f : RootFile} (hf : rs[i]? = some f) (s : St) (ht : s.trusted.root = f.value) (hts : s.trusted.timestamp = none)
    (hfs : s.world.fs (persistPath x.cfg ROOT) = some f.data) {N : Str → Prop} [TempNames x.host N] (hw : Free N s.world.fs) :
    ∃ g s', rs[min (i + n) (rs.length - 1)]? = some g ∧ loadRootLoop x n (f.value.signed.version + 1) s = (.ok (), s') ∧ s'.trusted = { s.trusted with root := g.value } ∧
      s'.world.fs (persistPath x.cfg ROOT) = some g.data ∧ Free N s'.world.fs := by
  induction n generalizing i f s with
  | zero =>
    have hlen := (List.getElem?_eq_some_iff.1 hf).1
    rw [show min (i + 0) (rs.length - 1) = i by omega]
    exact ⟨f, s, hf, rfl, by rw [← ht], hfs, hw⟩
  | succ n ih =>
    have hlen := (List.getElem?_eq_some_iff.1 hf).1
    by_cases hlast : i + 1 < rs.length
    · obtain ⟨g, hg⟩ : ∃ g, rs[i + 1]? = some g := ⟨_, List.getElem?_eq_getElem hlast⟩
      obtain ⟨url, h1, h2⟩ := hr.file (i + 1) g hg
      have hv := hl.numbered i f g hf hg
      rw [hv] at h1
      obtain rfl : url = metadataURL x.cfg.remoteMetadataURL ROOT (formatInt 10 (f.value.signed.version + 1)) := versionedURL_unique h1 (versionedURL _ _ _)
      have hfe := doFetch_apply x (metadataURL x.cfg.remoteMetadataURL ROOT (formatInt 10 (f.value.signed.version + 1))) x.cfg.rootMaxLength s
      rw [hs, h2] at hfe
      unfold loadRootLoop downloadMetadata
      rw [SM.bind_ok (SM.try_ok hfe)]
      dsimp only
      have hb := hl.range i f hf
      have ha : RootAccepted x.env s.trusted g.data g.value :=
        ⟨hts, (hl.parsed i f g hf hg).1, (hl.parsed i f g hf hg).2, by rw [ht]; exact (hl.signed i f g hf hg).1,
          by rw [ht, wrap64_of_bounds (by omega) (by omega)]; exact hv, (hl.signed i f g hf hg).2⟩
      have hup : s.trusted.updateRoot x.env g.data = (.ok g.value, { s.trusted with root := g.value }) := by
        unfold Trusted.updateRoot
        rw [checkRoot_ok.2 ha]
      rw [SM.bind_apply, onTrusted_apply]
      dsimp only
      rw [show ({ s with world := s.world.emit (.fetch (metadataURL x.cfg.remoteMetadataURL ROOT (formatInt 10 (f.value.signed.version + 1))) x.cfg.rootMaxLength (.ok g.data)) } : St).trusted =
        s.trusted from rfl, hup]
      dsimp only
      obtain ⟨w', p1, p2, _⟩ := persist_progress (x := x) (.inr hd) ROOT g.data
        (w := s.world.emit (.fetch (metadataURL x.cfg.remoteMetadataURL ROOT (formatInt 10 (f.value.signed.version + 1))) x.cfg.rootMaxLength (.ok g.data))) hw
      have hp : onWorld (persistMetadata x ROOT g.data) ⟨{ s.trusted with root := g.value }, s.world.emit (.fetch (metadataURL x.cfg.remoteMetadataURL ROOT
          (formatInt 10 (f.value.signed.version + 1))) x.cfg.rootMaxLength (.ok g.data))⟩ = (.ok (), ⟨{ s.trusted with root := g.value }, w'⟩) := by
        rw [onWorld_apply, p1]
      rw [SM.bind_ok hp, ← hv]
      obtain ⟨g', s', k1, k2, k3, k4, k5⟩ := ih hg ⟨{ s.trusted with root := g.value }, w'⟩ rfl hts (persist_ok hc p1) p2
      rw [show i + (n + 1) = i + 1 + n by omega]
      exact ⟨g', s', k1, k2, k3, k4, k5⟩
    · have hi : i = rs.length - 1 := by omega
      obtain ⟨url, u, status, h1, h2, h3⟩ := hr.newest f (hi ▸ hf)
      obtain rfl : url = metadataURL x.cfg.remoteMetadataURL ROOT (formatInt 10 (f.value.signed.version + 1)) := versionedURL_unique h1 (versionedURL _ _ _)
      have hfe := doFetch_apply x (metadataURL x.cfg.remoteMetadataURL ROOT (formatInt 10 (f.value.signed.version + 1))) x.cfg.rootMaxLength s
      rw [hs, h2] at hfe
      unfold loadRootLoop downloadMetadata
      rw [SM.bind_ok (SM.try_err hfe)]
      dsimp only
      rw [if_neg (by omega), show min (i + (n + 1)) (rs.length - 1) = i by omega]
      exact ⟨f, _, hf, rfl, by rw [← ht], hfs, hw⟩

theorem afterRoot_root (s : St) : (afterRoot x s).2.trusted.root = s.trusted.root ∧ (afterRoot x s).2.world.fs (persistPath x.cfg ROOT) = s.world.fs (persistPath x.cfg ROOT) := by
  constructor
  · unfold afterRoot
    have h1 := (loadTimestamp_keeps (x := x) s).1
    rw [SM.bind_apply]
    rcases e1 : loadTimestamp x s with ⟨r1, s1⟩
    rw [e1] at h1
    cases r1 with
    | err e => exact h1
    | panic => exact h1
    | ok u =>
      dsimp only at h1 ⊢
      have h2 := (loadSnapshot_keeps (x := x) s1).1
      rw [SM.bind_apply]
      rcases e2 : loadSnapshot x s1 with ⟨r2, s2⟩
      rw [e2] at h2
      cases r2 with
      | err e => exact h2.trans h1
      | panic => exact h2.trans h1
      | ok u =>
        dsimp only at h2 ⊢
        have h3 := (loadTargets_keeps (x := x) TARGETS ROOT s2).1
        rw [SM.bind_apply]
        rcases e3 : loadTargets x TARGETS ROOT s2 with ⟨r3, s3⟩
        rw [e3] at h3
        cases r3 <;> exact h3.trans (h2.trans h1)
  · rw [← C48_top_level x ROOT (by decide)]
    exact exec_kept (ex := moveExtra) (J := fun _ r _ => r ∈ [TIMESTAMP, SNAPSHOT, TARGETS]) (exec_afterRoot (fun _ _ _ _ _ => trivial) (fun role hm _ _ => hm)) (by decide) (fun _ => id)
      (by rintro t r d hm rfl; exact absurd hm (by decide))

/-- A refresh, whatever comes of it, goes up the line of roots as far as the limit allows. -/
theorem refresh_line (hl : RootLine x.env rs) (hs : Serves x.host srv) (hr : HasRoots x.cfg.remoteMetadataURL x.cfg.rootMaxLength srv rs) (hd : GoodDisk x.host)
    (hc : x.cfg.disableLocalCache = false) (hu : x.cfg.unsafeLocalMode = false) (hm : 0 ≤ x.cfg.maxRootRotations ∧ x.cfg.maxRootRotations < 2 ^ 62) {i : Nat} {f : RootFile}
    (hf : rs[i]? = some f) (s : St) (ht : s.trusted.root = f.value) (hts : s.trusted.timestamp = none) (hfs : s.world.fs (persistPath x.cfg ROOT) = some f.data)
    {N : Str → Prop} [TempNames x.host N] (hw : Free N s.world.fs) :
    ∃ g, rs[min (i + x.cfg.maxRootRotations.toNat) (rs.length - 1)]? = some g ∧ (refresh x s).2.trusted.root = g.value ∧
      (refresh x s).2.world.fs (persistPath x.cfg ROOT) = some g.data := by
  obtain ⟨g, s', h1, h2, h3, h4, _⟩ := rootLoop_line hl hs hr hd hc x.cfg.maxRootRotations.toNat hf s ht hts hfs hw
  have hb := hl.range i f hf
  have hload : loadRoot x s = (.ok (), s') := by
    rw [← h2]
    unfold loadRoot
    rw [SM.bind_ok (show getTrusted s = (.ok s.trusted, s) from rfl), ht]
    rw [wrap64_of_bounds (n := f.value.signed.version + 1) (by omega) (by omega),
      wrap64_of_bounds (n := f.value.signed.version + 1 + x.cfg.maxRootRotations) (by omega) (by omega)]
    congr 1
    omega
  rw [refresh_online hu, SM.bind_ok hload]
  obtain ⟨k1, k2⟩ := afterRoot_root (x := x) s'
  exact ⟨g, h1, by rw [k1, h3], by rw [k2, h4]⟩

/-- `New` leaves the given root in the cache. -/
theorem new_line {m : Metadata RootType} (hn : ∀ now, Trusted.new x.env now x.cfg.localTrustedRoot = .ok { root := m, refTime := now }) (hne : x.cfg.localTrustedRoot ≠ [])
    (hurl : x.cfg.remoteMetadataURL ≠ [])
    (hdirs : x.cfg.localMetadataDir ≠ [] ∧ x.cfg.localTargetsDir ≠ []) (hmk : ∀ tr p, x.host.mkdirFails tr p = false) (hd : GoodDisk x.host)
    (hc : x.cfg.disableLocalCache = false) {w : World} {N : Str → Prop} [TempNames x.host N] (hw : Free N w.fs) :
    ∃ w1, newUpdater x w = (.ok { root := m, refTime := x.host.now w.trace }, w1) ∧ Free N w1.fs ∧ w1.fs (persistPath x.cfg ROOT) = some x.cfg.localTrustedRoot := by
  have hmk : ∀ (w : World) p, p ≠ [] → mkdirAll x.host p w = (.ok (), w.emit (.mkdir p true)) := by
    intro w p hp
    unfold mkdirAll
    simp [hp, hmk]
  have hen : ensurePathsExist x w = (.ok (), (w.emit (.mkdir x.cfg.localMetadataDir true)).emit (.mkdir x.cfg.localTargetsDir true)) := by
    unfold ensurePathsExist
    rw [if_neg (by rw [hc]; simp), SM.bind_ok (hmk _ _ hdirs.1), hmk _ _ hdirs.2]
  obtain ⟨w1, p1, p2, _⟩ := persist_progress (x := x) (.inr hd) ROOT x.cfg.localTrustedRoot
    (w := (w.emit (.mkdir x.cfg.localMetadataDir true)).emit (.mkdir x.cfg.localTargetsDir true)) hw
  refine ⟨w1, ?_, p2, persist_ok hc p1⟩
  unfold newUpdater
  rw [if_neg (by simp [hne, hurl]), hn]
  dsimp only
  rw [SM.bind_ok hen, SM.bind_ok p1]
  rfl

/-- Code that does not change this file. -/
def KeepsFile {α : Type} (p : Str) (m : M α) : Prop := ∀ s, (m s).2.world.fs p = s.world.fs p

theorem keepsFile_bind {α β : Type} {p : Str} {m : M α} {f : α → M β} (h1 : KeepsFile p m) (h2 : ∀ a, KeepsFile p (f a)) : KeepsFile p (m >>= f) := by
  intro s
  have := h1 s
  rw [SM.bind_apply]
  rcases hm : m s with ⟨r, s1⟩
  rw [hm] at this
  cases r with
  | ok a => exact (h2 a s1).trans this
  | err e => exact this
  | panic => exact this

theorem keepsFile_try {α : Type} {p : Str} {m : M α} (h : KeepsFile p m) : KeepsFile p (SM.try' m) := by
  intro s
  rw [SM.try_snd]
  exact h s

theorem keepsFile_lift {α : Type} {p : Str} {r : Res α} : KeepsFile p (SM.lift r) := fun _ => rfl

theorem keepsFile_onTrusted {α : Type} {p : Str} {f : Trusted → Res α × Trusted} : KeepsFile p (onTrusted f) := by
  intro s
  rw [onTrusted_apply]

theorem keepsFile_download {p role v : Str} {n : Int} : KeepsFile p (onWorld (downloadMetadata x role n v)) := by
  intro s
  have := doFetch_apply x (metadataURL x.cfg.remoteMetadataURL role v) n s
  unfold downloadMetadata
  rw [this]
  rfl

theorem keepsFile_tryLocal {α : Type} {p role : Str} {f : Bytes → Trusted → Res α × Trusted} : KeepsFile p (tryLocal x role f) := by
  unfold tryLocal
  refine keepsFile_bind (keepsFile_try ?_) ?_
  · intro s
    rw [onWorld_apply]
    show (loadLocalMetadata x role s.world).2.fs p = s.world.fs p
    unfold loadLocalMetadata readFile
    dsimp only
    split <;> rfl
  · intro r
    cases r with
    | error e => exact fun _ => rfl
    | ok d =>
      refine keepsFile_bind (keepsFile_try keepsFile_onTrusted) ?_
      intro r
      cases r with
      | ok a => exact fun _ => rfl
      | error e =>
        dsimp only
        split <;> exact fun _ => rfl

theorem keepsFile_persist {role : Str} {d : Bytes} (hr : role ≠ ROOT) : KeepsFile (persistPath x.cfg ROOT) (onWorld (persistMetadata x role d)) := by
  intro s
  rw [← C48_top_level x ROOT (by decide)]
  exact exec_kept (ex := moveExtra) (J := fun _ r _ => r ≠ ROOT) (exec_onWorld (exec_persist hr)) (by decide) (fun _ => id) (fun _ _ _ h => h)

/-- No targets metadata is stored as root.json, if the server has none under such a name. -/
theorem keepsFile_loadTargets (hs : Serves x.host srv) (hn : NoRootTargets x.env x.cfg.remoteMetadataURL srv) (role parent : Str) :
    KeepsFile (persistPath x.cfg ROOT) (loadTargets x role parent) := by
  unfold loadTargets
  refine keepsFile_bind (fun _ => rfl) (fun t => ?_)
  cases t.targets.get? role with
  | some m => exact fun _ => rfl
  | none =>
    refine keepsFile_bind keepsFile_tryLocal (fun o => ?_)
    cases o with
    | some m => exact fun _ => rfl
    | none =>
      refine keepsFile_bind (fun _ => rfl) (fun t => ?_)
      cases t.snapshot with
      | none => exact fun _ => rfl
      | some sn =>
        refine keepsFile_bind keepsFile_lift (fun mi => ?_)
        by_cases hr : role = ROOT
        · subst hr
          intro s
          have hf := doFetch_apply x (metadataURL x.cfg.remoteMetadataURL ROOT (metaVersion t mi)) (metaLength mi x.cfg.targetsMaxLength) s
          unfold downloadMetadata
          rw [SM.bind_apply, hf, hs]
          cases hd : srv (metadataURL x.cfg.remoteMetadataURL ROOT (metaVersion t mi)) (metaLength mi x.cfg.targetsMaxLength) with
          | error e => rfl
          | ok data =>
            dsimp only
            rw [SM.bind_apply, onTrusted_apply]
            dsimp only
            rcases updateTargets_cases x.env s.trusted data ROOT parent with ⟨n, hu, ha⟩ | ⟨e, hu⟩ | hu
            · exact absurd ha.parsed (hn _ _ _ (by
                rcases metaVersion_form t mi with h | ⟨k, h⟩
                · rw [h]; exact .inl (plainURL _ _)
                · rw [h]; exact .inr ⟨k, versionedURL _ _ _⟩) hd n)
            · rw [show ({ s with world := s.world.emit (.fetch (metadataURL x.cfg.remoteMetadataURL ROOT (metaVersion t mi)) (metaLength mi x.cfg.targetsMaxLength) (.ok data)) } : St).trusted = s.trusted from rfl, hu]
              rfl
            · rw [show ({ s with world := s.world.emit (.fetch (metadataURL x.cfg.remoteMetadataURL ROOT (metaVersion t mi)) (metaLength mi x.cfg.targetsMaxLength) (.ok data)) } : St).trusted = s.trusted from rfl, hu]
              rfl
        · exact keepsFile_bind keepsFile_download (fun d => keepsFile_bind keepsFile_onTrusted (fun m => keepsFile_bind (keepsFile_persist hr) (fun _ _ => rfl)))

theorem keepsFile_walk (hs : Serves x.host srv) (hn : NoRootTargets x.env x.cfg.remoteMetadataURL srv) (path : Str) (k : Nat) (stack : List RoleParent) (seen : List Str) :
    KeepsFile (persistPath x.cfg ROOT) (walk x path k stack seen) := by
  induction k generalizing stack seen with
  | zero => exact fun _ => rfl
  | succ k ih =>
    unfold walk
    cases stack.dropWhile (fun d => decide (d.role ∈ seen)) with
    | nil => exact fun _ => rfl
    | cons d rest =>
      refine keepsFile_bind (keepsFile_loadTargets hs hn _ _) (fun m => ?_)
      cases m.signed.targets.get? path with
      | some t => exact fun _ => rfl
      | none =>
        refine keepsFile_bind ?_ (fun st => ih st _)
        intro s
        rw [← C48_top_level x ROOT (by decide)]
        exact exec_kept (ex := moveExtra) (J := fun _ _ _ => False) (exec_onWorld exec_pushChildren) (by decide) (fun _ => id) (fun _ _ _ h => h.elim)

end

section
variable {env : Env} {h : CliHost} {a : CliArgs} {target : Str} {rs : List RootFile}

/-- The rest of `get` after a refresh leaves root.json as it is. -/
theorem getWith_line {x : Ctx} {srv : Str → Int → Except Err Bytes} (hs : Serves x.host srv) (hn : NoRootTargets x.env x.cfg.remoteMetadataURL srv)
    (hf : ∀ path, x.env.urlJoin x.cfg.localTargetsDir (queryEscape path) ≠ some (persistPath x.cfg ROOT)) (s : St) :
    (getWith x target s).2.world.fs (persistPath x.cfg ROOT) = (refresh x s).2.world.fs (persistPath x.cfg ROOT) := by
  unfold getWith
  rw [SM.bind_apply]
  rcases hr : refresh x s with ⟨r, s1⟩
  cases r with
  | err e => rfl
  | panic => rfl
  | ok u =>
    dsimp only
    rw [SM.bind_apply]
    have h1 : (getTargetInfo x target s1).2.world.fs (persistPath x.cfg ROOT) = s1.world.fs (persistPath x.cfg ROOT) := by
      unfold getTargetInfo
      rw [SM.bind_ok (show getTrusted s1 = (.ok s1.trusted, s1) from rfl), if_pos (refresh_targets hr)]
      exact keepsFile_walk hs hn _ _ _ _ s1
    rcases hg : getTargetInfo x target s1 with ⟨r, s2⟩
    rw [hg] at h1
    cases r with
    | err e => exact h1
    | panic => exact h1
    | ok o =>
      refine Eq.trans ?_ h1
      refine keepsFile_bind keepsFile_lift (fun tf => keepsFile_bind (fun s => by rw [(C44_reads_only (x := x) tf [] s).1]) (fun c => ?_)) s2
      split
      · exact fun _ => rfl
      · refine keepsFile_bind ?_ (fun _ _ => rfl)
        intro s
        have hx := exec_downloadTarget (x := x) (J := fun _ _ _ => False) (s := s) (tf := tf) (filePath := []) (url := [])
        obtain ⟨evs, h1, h2, _⟩ := exec_all (Q := fun _ => True) hx (fun _ _ _ _ => trivial)
        rw [h2]
        rcases exec_files hx (before := evs) (after := []) (by simpa using h1) (persistPath_not_temp x.cfg ROOT) (by
          intro hp
          have hp : targetFilePath x tf [] = .ok (persistPath x.cfg ROOT) := hp
          unfold targetFilePath generateTargetFilePath at hp
          rw [if_pos rfl] at hp
          split at hp
          · cases hp
          · cases hj : x.env.urlJoin x.cfg.localTargetsDir (queryEscape tf.path) with
            | none => rw [hj] at hp; cases hp
            | some q =>
              rw [hj] at hp
              cases hp
              exact hf _ hj) with h3 | ⟨_, _, _, _, _, h4⟩
        · exact h3
        · exact h4.elim

/-- **C136** for one session with the library: `New` with a root of the line, then `Refresh`. Whatever comes of the refresh (the server may have any other files), the client then trusts the
root that is `MaxRootRotations` rotations later, or the newest one if that is nearer, and has it in its cache. -/
theorem C136_session {x : Ctx} {srv : Str → Int → Except Err Bytes} (hl : RootLine x.env rs) (hs : Serves x.host srv)
    (hr : HasRoots x.cfg.remoteMetadataURL x.cfg.rootMaxLength srv rs) (hd : GoodDisk x.host) (hmk : ∀ tr p, x.host.mkdirFails tr p = false)
    (hc : x.cfg.disableLocalCache = false) (hu : x.cfg.unsafeLocalMode = false) (hurl : x.cfg.remoteMetadataURL ≠ [])
    (hdirs : x.cfg.localMetadataDir ≠ [] ∧ x.cfg.localTargetsDir ≠ []) (hm : 0 ≤ x.cfg.maxRootRotations ∧ x.cfg.maxRootRotations < 2 ^ 62) {i : Nat} {f : RootFile}
    (hf : rs[i]? = some f) (hroot : x.cfg.localTrustedRoot = f.data) {w : World} (hw : NoTemps w.fs) :
    ∃ t0 w1 g, newUpdater x w = (.ok t0, w1) ∧ rs[min (i + x.cfg.maxRootRotations.toNat) (rs.length - 1)]? = some g ∧ (refresh x ⟨t0, w1⟩).2.trusted.root = g.value ∧
      (refresh x ⟨t0, w1⟩).2.world.fs (joinPath x.cfg.localMetadataDir b!"root.json") = some g.data := by
  obtain ⟨p1, p2, p3⟩ := line_parsed hl hf
  obtain ⟨w1, n1, n2, n3⟩ := new_line (x := x) (m := f.value) (fun now => C78_new.2 ⟨f.value, by rw [hroot]; exact p1, p2, p3, rfl⟩) (by rw [hroot]; exact hl.nonempty i f hf) hurl hdirs hmk hd hc
    (N := TempName) hw
  obtain ⟨g, k1, k2, k3⟩ := refresh_line hl hs hr hd hc hu hm hf ⟨{ root := f.value, refTime := x.host.now w.trace }, w1⟩ rfl rfl (by rw [← hroot]; exact n3) (N := TempName) n2
  refine ⟨_, w1, g, n1, k1, k2, ?_⟩
  rw [← (cacheFile x).2.2.2, C48_top_level x ROOT (by decide)]
  exact k3

/-- The versions along the line. -/
theorem line_version {env : Env} (hl : RootLine env rs) {i k : Nat} {f g : RootFile} (hf : rs[i]? = some f) (hg : rs[i + k]? = some g) :
    g.value.signed.version = f.value.signed.version + k := by
  induction k generalizing g with
  | zero =>
    rw [Nat.add_zero, hf] at hg
    cases hg
    simp
  | succ k ih =>
    have hlt : i + k < rs.length := by
      have := (List.getElem?_eq_some_iff.1 hg).1
      omega
    have h1 := List.getElem?_eq_getElem hlt
    have := hl.numbered (i + k) _ g h1 hg
    rw [this, ih h1]
    omega

/-- **C136** does not hold for programs that always start from the same root: with more than `MaxRootRotations` rotations since, no session, whatever the cache has from earlier ones, gets to
the newest root, nor further than the one before. -/
theorem C136_no_further {x : Ctx} {srv : Str → Int → Except Err Bytes} (hl : RootLine x.env rs) (hs : Serves x.host srv)
    (hr : HasRoots x.cfg.remoteMetadataURL x.cfg.rootMaxLength srv rs) (hd : GoodDisk x.host) (hmk : ∀ tr p, x.host.mkdirFails tr p = false)
    (hc : x.cfg.disableLocalCache = false) (hu : x.cfg.unsafeLocalMode = false) (hurl : x.cfg.remoteMetadataURL ≠ [])
    (hdirs : x.cfg.localMetadataDir ≠ [] ∧ x.cfg.localTargetsDir ≠ []) (hm : 0 ≤ x.cfg.maxRootRotations ∧ x.cfg.maxRootRotations < 2 ^ 62) {first newest : RootFile}
    (hfirst : rs[0]? = some first) (hnewest : rs[rs.length - 1]? = some newest) (hlong : x.cfg.maxRootRotations.toNat + 1 < rs.length) (hroot : x.cfg.localTrustedRoot = first.data) :
    ∀ w : World, NoTemps w.fs → ∃ t0 w1, newUpdater x w = (.ok t0, w1) ∧
      (refresh x ⟨t0, w1⟩).2.trusted.root.signed.version = first.value.signed.version + x.cfg.maxRootRotations ∧
      (refresh x ⟨t0, w1⟩).2.trusted.root.signed.version < newest.value.signed.version := by
  intro w hw
  obtain ⟨t0, w1, g, h1, h2, h3, _⟩ := C136_session hl hs hr hd hmk hc hu hurl hdirs hm hfirst hroot hw
  rw [show min (0 + x.cfg.maxRootRotations.toNat) (rs.length - 1) = 0 + x.cfg.maxRootRotations.toNat by omega] at h2
  have e1 := line_version hl hfirst h2
  have e2 := line_version hl (k := rs.length - 1) hfirst (by rw [Nat.zero_add]; exact hnewest)
  refine ⟨t0, w1, h1, ?_, ?_⟩
  · rw [h3, e1]; omega
  · rw [h3, e1, e2]; omega

/-- One `get` command, whatever comes of it, takes the trust anchor 32 roots up the line, or to its end. -/
theorem getCmd_line (hl : RootLine env rs) {cwd : Str} {s : CliSt} (hg : GetGood env cwd rs h a s) (hf : ∀ path, env.urlJoin (joinPath cwd b!"tuf_download") (queryEscape path) ≠ some (anchorFile cwd))
    {i : Nat} {f : RootFile} (hi : rs[i]? = some f) (hfs : s.world.fs (anchorFile cwd) = some f.data) :
    ∃ g, rs[min (i + 32) (rs.length - 1)]? = some g ∧ (getCmd env h a target s).2.world.fs (anchorFile cwd) = some g.data := by
  have hready : CliReady h cwd f.data s := ⟨hg.getwd, hg.metadata, hg.download, hfs, hg.stat, hg.read⟩
  obtain ⟨srv, hs, hr, hn⟩ := hg.server
  obtain ⟨turl, hturl⟩ := Option.isSome_iff_exists.1 hg.url.2
  generalize hcfg0 : ({ localTrustedRoot := f.data, remoteMetadataURL := a.repositoryURL, remoteTargetsURL := if a.targetsURL = [] then a.repositoryURL else a.targetsURL, localMetadataDir := metadataFolder cwd, localTargetsDir := downloadFolder cwd, prefixTargetsWithHash := !a.nonPrefixed } : Cfg) = cfg
  have hcfg : cliConfig env a cwd f.data = .ok cfg := by
    unfold cliConfig Cfg.new
    rw [hturl, ← hcfg0]
    rfl
  have hread : readFile h.toHost (joinPath (metadataFolder cwd) b!"root.json") s.world = (.ok f.data, s.world.emit (.read (anchorFile cwd) (some f.data))) := by
    unfold readFile
    have : s.world.fs (joinPath (metadataFolder cwd) b!"root.json") = some f.data := hfs
    dsimp only
    rw [hg.read, this]
    rfl
  have hanchor : anchorFile cwd = persistPath cfg ROOT := by
    rw [← hcfg0]
    rfl
  obtain ⟨p1, p2, p3⟩ := line_parsed hl hi
  have hw0 : Free TempName (s.world.emit (.read (anchorFile cwd) (some f.data))).fs := hg.temps
  obtain ⟨w1, n1, n2, n3⟩ := new_line (x := ⟨env, h.toHost, cfg⟩) (m := f.value) (N := TempName) (fun now => C78_new.2 ⟨f.value, by rw [← hcfg0]; exact p1, p2, p3, rfl⟩)
    (by rw [← hcfg0]; exact hl.nonempty i f hi) (by rw [← hcfg0]; exact hg.url.1)
    (by rw [← hcfg0]; exact ⟨joinPath_file_ne (by decide), joinPath_file_ne (by decide)⟩) hg.mkdir hg.disk (by rw [← hcfg0]) hw0
  have hmax : cfg.maxRootRotations = 32 := by rw [← hcfg0]
  obtain ⟨g, k1, _, k3⟩ := refresh_line (x := ⟨env, h.toHost, cfg⟩) (N := TempName) hl hs (by rw [← hcfg0]; exact hr) hg.disk (by rw [← hcfg0]) (by rw [← hcfg0]) (by dsimp only; rw [hmax]; decide) hi
    ⟨{ root := f.value, refTime := h.toHost.now (s.world.emit (.read (anchorFile cwd) (some f.data))).trace }, w1⟩ rfl rfl (by rw [n3, ← hcfg0]) n2
  refine ⟨g, by rw [← k1]; dsimp only; rw [hmax]; rfl, ?_⟩
  unfold getCmd
  rw [if_neg hg.url.1, SM.bind_ok (verifyEnv_ready hready)]
  have h1 : onFiles (readFile h.toHost (joinPath (metadataFolder cwd) b!"root.json")) s = (.ok f.data, { s with world := s.world.emit (.read (anchorFile cwd) (some f.data)) }) := by
    rw [onFiles_apply, hread]
  rw [SM.bind_ok h1, hcfg]
  change (onFiles (withUpdater ⟨env, h.toHost, cfg⟩ target) { s with world := s.world.emit (.read (anchorFile cwd) (some f.data)) }).2.world.fs _ = _
  rw [onFiles_apply]
  show (withUpdater _ target (s.world.emit (.read (anchorFile cwd) (some f.data)))).2.fs (anchorFile cwd) = some g.data
  unfold withUpdater
  rw [n1]
  dsimp only
  rw [hanchor]
  rw [getWith_line (x := ⟨env, h.toHost, cfg⟩) hs (by rw [← hcfg0]; exact hn) (by
    intro path hp
    refine hf path ?_
    rw [hanchor, ← hp, ← hcfg0]
    rfl)]
  rw [← hanchor] at k3 ⊢
  exact k3

/-- **C136** for `tuf-client`: after `k` commands `get`, whatever comes of them, the trust anchor is `32 * k` rotations further up the line of roots, or at its end. -/
theorem C136_gets (hl : RootLine env rs) {cwd : Str} {fs fs' : FS} {k : Nat} (hg : Gets env cwd rs fs k fs')
    (hf : ∀ path, env.urlJoin (joinPath cwd b!"tuf_download") (queryEscape path) ≠ some (anchorFile cwd)) {i : Nat} {f : RootFile} (hi : rs[i]? = some f)
    (hfs : fs (anchorFile cwd) = some f.data) : ∃ g, rs[min (i + 32 * k) (rs.length - 1)]? = some g ∧ fs' (anchorFile cwd) = some g.data := by
  induction hg with
  | start =>
    have hlen := (List.getElem?_eq_some_iff.1 hi).1
    exact ⟨f, by rw [show min (i + 32 * 0) (rs.length - 1) = i by omega]; exact hi, hfs⟩
  | @get k fs1 h a target s _ he hgood ih =>
    obtain ⟨g, h1, h2⟩ := ih
    obtain ⟨g', h3, h4⟩ := getCmd_line (target := target) hl hgood hf h1 (by rw [he]; exact h2)
    exact ⟨g', by rw [← h3]; congr 1; omega, h4⟩
  | other _ he ih => rw [he]; exact ih

/-- **C136** for `tuf-client`: after enough commands the trust anchor is the newest root, so that C97 applies, however many rotations there were. -/
theorem C136_caught_up (hl : RootLine env rs) {cwd : Str} {fs fs' : FS} {k : Nat} (hg : Gets env cwd rs fs k fs')
    (hf : ∀ path, env.urlJoin (joinPath cwd b!"tuf_download") (queryEscape path) ≠ some (anchorFile cwd)) {f newest : RootFile} (h0 : rs[0]? = some f)
    (hfs : fs (anchorFile cwd) = some f.data) (hn : rs[rs.length - 1]? = some newest) (hk : rs.length ≤ 32 * k + 1) : fs' (anchorFile cwd) = some newest.data := by
  obtain ⟨g, h1, h2⟩ := C136_gets hl hg hf h0 hfs
  rw [show min (0 + 32 * k) (rs.length - 1) = rs.length - 1 by omega, hn] at h1
  cases h1
  exact h2

end

end Tuf
