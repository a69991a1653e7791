import Verif.Proofs.Files
import Verif.Props.Sample

/-!
# What the updater does to the disk and the network

All theorems quantify over all hosts (network answers, IO failures, temporary names), configurations, states and arguments.
-/

namespace Tuf
open Spec Sample

/-- What a call may do besides metadata. -/
def apiExtra (x : Ctx) : Api → Extra
  | .downloadTarget tf f _ => targetExtra x tf f
  | .findCachedTarget _ _ => ⟨False, fun _ _ => False, fun _ => False⟩
  | _ => Extra.none

theorem api_exec (x : Ctx) {T : Trusted} {s : St} (hT : ClientHistory x.env T s.trusted) (a : Api) :
    Exec x (EventOk x (apiExtra x a) (JustAccepted x.env T)) s (a.run x s).2 := by
  cases a with
  | refresh => exact exec_refresh trivial hT
  | getTargetInfo p => exact exec_getTargetInfo trivial hT
  | downloadTarget tf f u => exact exec_downloadTarget
  | findCachedTarget tf f => exact exec_findCachedTarget

theorem eventOk_mono {x : Ctx} {ex ex' : Extra} {J J' : Trusted → Str → Bytes → Prop} (h0 : ex.metadata → ex'.metadata) (h1 : ∀ u n, ex.fetch u n → ex'.fetch u n)
    (h2 : ∀ p, ex.file p → ex'.file p) (h3 : ∀ t r d, J t r d → J' t r d) {s : St} {e : Event} (h : EventOk x ex J s e) : EventOk x ex' J' s e := by
  cases e with
  | fetch u n r => exact ⟨h.1, h.2.imp (fun h => ⟨h0 h.1, h.2⟩) (h1 u n)⟩
  | read p r => exact h
  | mkdir p r => exact h
  | createTemp p => exact h
  | truncate p => exact ⟨h.1, h.2.imp id (h2 p)⟩
  | write p b => exact ⟨h.1, h.2.imp id (h2 p)⟩
  | remove p => exact h
  | rename a b =>
    obtain ⟨h4, h5, role, data, h6, h7, h8⟩ := h
    exact ⟨h4, h5, role, data, h6, h7, h3 _ _ _ h8⟩
  | failed w => exact h
  | iterate o => exact h

/-- No restriction. -/
def Extra.any : Extra := ⟨True, fun _ _ => True, fun _ => True⟩

theorem session_exec {x : Ctx} {s s' : St} (h : Session x s s') :
    Exec x (EventOk x Extra.any (JustAccepted x.env s.trusted)) s s' := by
  induction h with
  | refl => exact .refl
  | step a _ ih =>
    exact ih.trans ((api_exec x ih.history a).mono (fun _ _ _ h => eventOk_mono (fun _ => trivial) (fun _ _ _ => trivial) (fun _ _ => trivial) (fun _ _ _ h => h) h))

/-- A property of all events of an execution. -/
theorem exec_all {x : Ctx} {P : St → Event → Prop} {Q : Event → Prop} {s s' : St} (h : Exec x P s s')
    (hq : ∀ s1 e, Exec x P s s1 → P s1 e → Q e) :
    ∃ evs, s'.world.trace = s.world.trace ++ evs ∧ s'.world.fs = replay s.world.fs evs ∧ ∀ e ∈ evs, Q e := by
  induction h with
  | refl => exact ⟨[], by simp, rfl, by simp⟩
  | event e h hp ih =>
    obtain ⟨evs, h1, h2, h3⟩ := ih
    refine ⟨evs ++ [e], by simp [World.emit, h1], by simp [World.emit, h2, replay], ?_⟩
    intro e' he'
    rcases List.mem_append.1 he' with he' | he'
    · exact h3 e' he'
    · rw [List.mem_singleton.1 he']; exact hq _ _ h hp
  | call c _ _ ih => exact ih

/-! ## C27 -/

/-- C27: whatever any sequence of API calls moves into the cache goes to the file of some role, and is bytes that the trusted set has just accepted
for that role, in a state reached from the start of the session. -/
theorem C27_only_verified {x : Ctx} {s s' : St} (h : Session x s s') {before after : List Event} {src dst : Str}
    (ht : s'.world.trace = s.world.trace ++ (before ++ .rename src dst :: after)) :
    ∃ role data t, dst = joinPath x.cfg.localMetadataDir (queryEscape role ++ b!".json") ∧ replay s.world.fs before src = some data ∧
      JustAccepted x.env s.trusted t role data := by
  obtain ⟨s1, _, _, hfs, hp⟩ := (session_exec h).at ht
  obtain ⟨_, _, role, data, h1, h2, h3⟩ := hp
  exact ⟨role, data, s1.trusted, h1, by rw [← hfs]; exact h2, h3⟩

/-- C27 for `New`: only the configured root is moved, to the file of the root role, and only after it verified itself. -/
theorem C27_new {x : Ctx} {w : World} {before after : List Event} {src dst : Str}
    (ht : (newUpdater x w).2.trace = w.trace ++ (before ++ .rename src dst :: after)) :
    dst = joinPath x.cfg.localMetadataDir b!"root.json" ∧ replay w.fs before src = some x.cfg.localTrustedRoot ∧
      ∃ t, Trusted.new x.env t.refTime x.cfg.localTrustedRoot = .ok t := by
  rcases exec_newUpdater (x := x) (w := w) with h | ⟨t, _, h, _⟩
  · rw [h] at ht; simp at ht
  · obtain ⟨s1, _, _, hfs, hp⟩ := h.at ht
    obtain ⟨_, _, role, data, h1, h2, rfl, rfl, h3⟩ := hp
    refine ⟨h1, by rw [← hfs]; exact h2, _, h3⟩

/-! ## C28 -/

theorem replay_append (fs : FS) (a b : List Event) : replay fs (a ++ b) = replay (replay fs a) b := List.foldl_append ..

theorem put_ne {fs : FS} {p q : Str} {v : Option Bytes} (h : p ≠ q) : fs.put q v p = fs p := if_neg h

/-- An admissible event leaves a file that is neither temporary nor the target's alone, or replaces it by justified bytes. -/
theorem event_effect {x : Ctx} {ex : Extra} {J : Trusted → Str → Bytes → Prop} {s : St} {e : Event} (h : EventOk x ex J s e) {p : Str}
    (hp : ¬ TempName p) (hf : ¬ ex.file p) :
    applyEvent s.world.fs e p = s.world.fs p ∨ ∃ role data, p = joinPath x.cfg.localMetadataDir (queryEscape role ++ b!".json") ∧
      applyEvent s.world.fs e p = some data ∧ J s.trusted role data := by
  have ne : ∀ q, TempName q ∨ ex.file q → p ≠ q := by
    rintro q hq rfl
    rcases hq with hq | hq
    · exact hp hq
    · exact hf hq
  cases e with
  | fetch u n r => exact .inl rfl
  | read q r => exact .inl rfl
  | mkdir q r => exact .inl rfl
  | createTemp q => exact .inl (put_ne (ne q (.inl h.2.1)))
  | truncate q => exact .inl (put_ne (ne q h.2))
  | write q b => exact .inl (put_ne (ne q h.2))
  | remove q => exact .inl (put_ne (ne q (.inl h.2)))
  | rename a b =>
    obtain ⟨_, h2, role, data, h3, h4, h5⟩ := h
    have hpa := ne a (.inl h2)
    show (FS.put _ a none) p = _ ∨ _
    rw [put_ne hpa]
    by_cases hb : p = b
    · right
      refine ⟨role, data, by rw [hb]; exact h3, ?_, h5⟩
      show (FS.put _ a none) p = _
      rw [put_ne hpa, hb]
      show (if b = b then _ else _) = _
      rw [if_pos rfl, h4]
    · left; exact put_ne hb
  | failed w => exact .inl rfl
  | iterate o => exact .inl rfl

theorem snoc_induction {α : Type} {P : List α → Prop} (h0 : P []) (hs : ∀ l e, P l → P (l ++ [e])) (l : List α) : P l := by
  have : ∀ l : List α, P l.reverse := by
    intro l
    induction l with
    | nil => exact h0
    | cons a r ih => rw [List.reverse_cons]; exact hs _ _ ih
  have := this l.reverse
  rwa [List.reverse_reverse] at this

/-- Files after a part of an execution. -/
theorem exec_files {x : Ctx} {ex : Extra} {J : Trusted → Str → Bytes → Prop} {s s' : St} (h : Exec x (EventOk x ex J) s s')
    {before after : List Event} (ht : s'.world.trace = s.world.trace ++ (before ++ after)) {p : Str} (hp : ¬ TempName p) (hf : ¬ ex.file p) :
    replay s.world.fs before p = s.world.fs p ∨ ∃ role data t, p = joinPath x.cfg.localMetadataDir (queryEscape role ++ b!".json") ∧
      replay s.world.fs before p = some data ∧ J t role data := by
  induction before using snoc_induction generalizing after with
  | h0 => exact .inl rfl
  | hs l e ih =>
    rw [List.append_assoc] at ht
    obtain ⟨s1, _, _, hfs, hev⟩ := h.at ht
    have h1 := event_effect hev hp hf
    rw [replay_append]
    show applyEvent _ e p = _ ∨ ∃ role data t, _ ∧ applyEvent _ e p = _ ∧ _
    rw [← hfs]
    rcases h1 with h1 | ⟨role, data, h2, h3, h4⟩
    · rw [h1, hfs]
      exact ih ht
    · exact .inr ⟨role, data, s1.trusted, h2, h3, h4⟩

theorem crash_files {x : Ctx} {ex : Extra} {J : Trusted → Str → Bytes → Prop} {s s' : St} (h : Exec x (EventOk x ex J) s s')
    {evs : List Event} (ht : s'.world.trace = s.world.trace ++ evs) {fs' : FS} (hc : CrashState s.world.fs evs fs') {p : Str}
    (hp : ¬ TempName p) (hf : ¬ ex.file p) :
    fs' p = s.world.fs p ∨ ∃ role data t, p = joinPath x.cfg.localMetadataDir (queryEscape role ++ b!".json") ∧ fs' p = some data ∧ J t role data := by
  obtain ⟨before, after, rfl, rfl | ⟨q, b, k, rest, rfl, rfl⟩⟩ := hc
  · exact exec_files h ht hp hf
  · obtain ⟨s1, _, _, _, hev⟩ := h.at ht
    have hne : p ≠ q := by
      rintro rfl
      rcases hev.2 with h1 | h1
      · exact hp h1
      · exact hf h1
    have hsame : replay s.world.fs (before ++ [.write q (b.take k)]) p = replay s.world.fs before p := by
      rw [replay_append]; exact put_ne hne
    rw [hsame]
    exact exec_files h ht hp hf

/-- C28: in every crash state of every API call, every file other than the temporary ones and the target file being downloaded has its old content or the
complete bytes of a document that the trusted set accepted for that file's role. -/
theorem C28_crash_atomic {x : Ctx} (a : Api) (s : St) {evs : List Event} (ht : (a.run x s).2.world.trace = s.world.trace ++ evs)
    {fs' : FS} (hc : CrashState s.world.fs evs fs') {p : Str} (hp : ¬ TempName p)
    (hf : ∀ tf f u, a = .downloadTarget tf f u → targetFilePath x tf f ≠ .ok p) :
    fs' p = s.world.fs p ∨ ∃ role data t, p = joinPath x.cfg.localMetadataDir (queryEscape role ++ b!".json") ∧ fs' p = some data ∧
      JustAccepted x.env s.trusted t role data := by
  refine crash_files (api_exec x .refl a) ht hc hp ?_
  cases a with
  | downloadTarget tf f u => exact hf tf f u rfl
  | refresh => exact id
  | getTargetInfo => exact id
  | findCachedTarget => exact id

/-- C28 for `New`. -/
theorem C28_new {x : Ctx} {w : World} {evs : List Event} (ht : (newUpdater x w).2.trace = w.trace ++ evs) {fs' : FS}
    (hc : CrashState w.fs evs fs') {p : Str} (hp : ¬ TempName p) :
    fs' p = w.fs p ∨ (p = joinPath x.cfg.localMetadataDir b!"root.json" ∧ fs' p = some x.cfg.localTrustedRoot) := by
  rcases exec_newUpdater (x := x) (w := w) with h | ⟨t, _, h, _⟩
  · rw [h] at ht
    have : evs = [] := by simpa using ht
    subst this
    obtain ⟨before, after, h1, h2⟩ := hc
    obtain ⟨rfl, rfl⟩ := List.append_eq_nil_iff.1 h1.symm
    rcases h2 with rfl | ⟨_, _, _, _, h3, _⟩
    · exact .inl rfl
    · cases h3
  · rcases crash_files h ht hc hp id with h1 | ⟨role, data, t', h1, h2, rfl, rfl, _⟩
    · exact .inl h1
    · exact .inr ⟨h1, h2⟩

/-- C28: the files of roles, as written and as read, are never temporary files. -/
theorem C28_role_files (x : Ctx) (role : Str) :
    ¬ TempName (joinPath x.cfg.localMetadataDir (queryEscape role ++ b!".json")) ∧
    ¬ TempName (joinPath x.cfg.localMetadataDir role ++ b!".json") :=
  ⟨persistPath_not_temp x.cfg role, localPath_not_temp x.cfg role⟩

/-! ## C30 -/

/-- C30: with the cache disabled every event of every session is a download, a read or a map iteration, and the files stay as they were. -/
theorem C30_disabled_cache {x : Ctx} (hd : x.cfg.disableLocalCache = true) {s s' : St} (h : Session x s s') :
    s'.world.fs = s.world.fs ∧ ∃ evs, s'.world.trace = s.world.trace ++ evs ∧
      ∀ e ∈ evs, (∃ u n r, e = .fetch u n r) ∨ (∃ p r, e = .read p r) ∨ (∃ o, e = .iterate o) := by
  have no : ∀ {P : Prop}, x.cfg.disableLocalCache = false → P := fun hf => by rw [hd] at hf; cases hf
  have key : ∀ s e, EventOk x Extra.any (fun _ _ _ => True) s e →
      (∃ u n r, e = .fetch u n r) ∨ (∃ p r, e = .read p r) ∨ (∃ o, e = .iterate o) := by
    intro s e he
    cases e with
    | fetch u n r => exact .inl ⟨u, n, r, rfl⟩
    | read p r => exact .inr (.inl ⟨p, r, rfl⟩)
    | iterate o => exact .inr (.inr ⟨o, rfl⟩)
    | mkdir p r => exact no he
    | createTemp p => exact no he.1
    | truncate p => exact no he.1
    | write p b => exact no he.1
    | remove p => exact no he.1
    | rename a b => exact no he.1
    | failed w => exact no he
  obtain ⟨evs, h1, h2, h3⟩ := exec_all (session_exec h) (fun s e _ he => key s e (eventOk_mono id (fun _ _ h => h) (fun _ h => h) (fun _ _ _ _ => trivial) he))
  refine ⟨?_, evs, h1, h3⟩
  rw [h2]
  clear h1 h2
  induction evs using snoc_induction with
  | h0 => rfl
  | hs l e ih =>
    rw [replay_append, ih (fun e he => h3 e (by simp [he]))]
    rcases h3 e (by simp) with ⟨_, _, _, rfl⟩ | ⟨_, _, rfl⟩ | ⟨_, rfl⟩ <;> rfl

/-- C30 for `New`: nothing at all happens to the outside. -/
theorem C30_new {x : Ctx} (hd : x.cfg.disableLocalCache = true) (w : World) : (newUpdater x w).2 = w := by
  unfold newUpdater
  split
  · rfl
  · split
    · have h1 : ensurePathsExist x w = (.ok (), w) := by unfold ensurePathsExist; rw [if_pos hd]; rfl
      have h2 : persistMetadata x ROOT x.cfg.localTrustedRoot w = (.ok (), w) := by unfold persistMetadata; rw [if_pos hd]; rfl
      rw [SM.bind_ok h1, SM.bind_ok h2]; rfl
    · rfl
    · rfl

example : (session { ctx with cfg := { cfg with disableLocalCache := true } } []
    (getTargetInfo { ctx with cfg := { cfg with disableLocalCache := true } } b!"d/g")).1.isOk = true := by decide +kernel

/-! ## C31 -/

theorem read_trace {x : Ctx} {role : Str} {s s1 : St} {r : Res Bytes} (h : onWorld (loadLocalMetadata x role) s = (r, s1)) :
    ∃ p v, s1.world.trace = s.world.trace ++ [.read p v] := by
  rw [onWorld_apply] at h
  have h2 : s1.world = (readFile x.host (localPath x.cfg role) s.world).2 := by cases h; rfl
  rw [readFile_snd] at h2
  rw [h2]
  exact ⟨_, _, rfl⟩

/-- C31, `Refresh`: in local mode the only events of a refresh are reads of files. -/
theorem C31_local_refresh_partial {x : Ctx} (hu : x.cfg.unsafeLocalMode = true) (s : St) :
    ∃ evs, (refresh x s).2.world.trace = s.world.trace ++ evs ∧ ∀ e ∈ evs, ∃ p r, e = .read p r := by
  let Q : St → St → Prop := fun a b => ∃ evs, b.world.trace = a.world.trace ++ evs ∧ ∀ e ∈ evs, ∃ p r, e = .read p r
  have hrefl : ∀ a, Q a a := fun a => ⟨[], by simp, by simp⟩
  have htrans : ∀ a b c, Q a b → Q b c → Q a c := by
    rintro a b c ⟨e1, h1, h2⟩ ⟨e2, h3, h4⟩
    refine ⟨e1 ++ e2, by rw [h3, h1, List.append_assoc], ?_⟩
    intro e he
    rcases List.mem_append.1 he with he | he
    · exact h2 e he
    · exact h4 e he
  have bind : ∀ {α β : Type} {m : M α} {f : α → M β} {s : St}, Q s (m s).2 → (∀ a s1, Q s1 (f a s1).2) → Q s ((m >>= f) s).2 := by
    intro α β m f s h1 h2
    rw [SM.bind_apply]
    rcases h : m s with ⟨r, s1⟩
    rw [h] at h1
    cases r with
    | ok a => exact htrans _ _ _ h1 (h2 a s1)
    | err e => exact h1
    | panic => exact h1
  have rd : ∀ role s, Q s (onWorld (loadLocalMetadata x role) s).2 := by
    intro role s
    obtain ⟨p, v, h⟩ := read_trace (x := x) (role := role) (s := s) rfl
    exact ⟨_, h, by simp⟩
  have tr : ∀ {α : Type} (f : Trusted → Res α × Trusted) s, Q s (onTrusted f s).2 := fun f s => ⟨[], by simp [onTrusted_apply], by simp⟩
  show Q s (refresh x s).2
  unfold refresh
  rw [if_pos hu]
  unfold unsafeLocalRefresh
  exact bind (rd _ _) fun _ _ => bind (tr _ _) fun _ _ => bind (rd _ _) fun _ _ => bind (tr _ _) fun _ _ =>
    bind (rd _ _) fun _ _ => bind (tr _ _) fun _ _ => hrefl _

/-- C31, `GetTargetInfo`: in local mode downloads are made only for delegated roles, after top-level targets has been loaded. -/
theorem C31_lookup_partial {x : Ctx} (hu : x.cfg.unsafeLocalMode = true) (s : St) (path : Str) :
    ∃ evs, (getTargetInfo x path s).2.world.trace = s.world.trace ++ evs ∧
      ∀ e ∈ evs, ∀ url n r, e = .fetch url n r → ∃ t, ClientHistory x.env s.trusted t ∧ (t.targets.get? b!"targets").isSome := by
  obtain ⟨evs, h1, _, h3⟩ := exec_all (Q := fun e => ∀ url n r, e = .fetch url n r → ∃ t, ClientHistory x.env s.trusted t ∧
      (t.targets.get? b!"targets").isSome) (api_exec x .refl (.getTargetInfo path)) (by
    rintro s1 e hex he url n r rfl
    rcases he.2 with h | h
    · exact ⟨s1.trusted, hex.history, h.2.1 hu⟩
    · exact absurd h id)
  exact ⟨evs, h1, h3⟩

/-- Local mode on a cache that holds the top-level metadata. -/
def Sample.localCtx : Ctx := { ctx with cfg := { cfg with unsafeLocalMode := true } }
def Sample.localFiles : List (Str × Bytes) := [(b!"m/timestamp.json", [2, 4]), (b!"m/snapshot.json", [3, 4]), (b!"m/targets.json", [4, 4])]

/-- C31 is false for `GetTargetInfo`: in local mode it downloads the metadata of a delegated role that is not cached. -/
theorem C31_false : (session localCtx localFiles (getTargetInfo localCtx b!"d/g")).1.isOk = true ∧
    urls (session localCtx localFiles (getTargetInfo localCtx b!"d/g")).2 = [b!"u/4.d.json"] ∧
    (session localCtx localFiles (refresh localCtx)).1 = .ok () := by decide +kernel

/-! ## C32 -/

/-- C32, metadata: every download of `Refresh` and `GetTargetInfo` is, for the trusted set `t` of that moment, one of the four requests
of `MetadataRequest`: for root and timestamp with the configured maximum, otherwise with the length that the parent lists or, if that is zero, the configured maximum. -/
theorem C32_metadata_downloads {x : Ctx} {a : Api} (ha : a = .refresh ∨ ∃ path, a = .getTargetInfo path) (s : St) :
    ∃ evs, (a.run x s).2.world.trace = s.world.trace ++ evs ∧
      ∀ e ∈ evs, ∀ url n r, e = .fetch url n r → ∃ t, ClientHistory x.env s.trusted t ∧ MetadataRequest x t url n := by
  obtain ⟨evs, h1, _, h3⟩ := exec_all (Q := fun e => ∀ url n r, e = .fetch url n r → ∃ t, ClientHistory x.env s.trusted t ∧
      MetadataRequest x t url n) (api_exec x .refl a) (by
    rintro s1 e hex he url n r rfl
    rcases he.2 with h | h
    · exact ⟨s1.trusted, hex.history, h.2.2⟩
    · rcases ha with rfl | ⟨p, rfl⟩ <;> exact absurd h id)
  exact ⟨evs, h1, h3⟩

/-- C32, targets: every download of `DownloadTarget` has the length of the target info as maximum; `FindCachedTarget` downloads nothing. -/
theorem C32_target_downloads {x : Ctx} (s : St) (tf : TargetFiles) (f u : Str) :
    (∃ evs, (downloadTarget x tf f u s).2.world.trace = s.world.trace ++ evs ∧ ∀ e ∈ evs, ∀ url n r, e = .fetch url n r → n = tf.length) ∧
    (∃ evs, (findCachedTarget x tf f s).2.world.trace = s.world.trace ++ evs ∧ ∀ e ∈ evs, ∀ url n r, e ≠ .fetch url n r) := by
  constructor
  · obtain ⟨evs, h1, _, h3⟩ := exec_all (Q := fun e => ∀ url n r, e = .fetch url n r → n = tf.length) (api_exec x .refl (.downloadTarget tf f u)) (by
      rintro s1 e _ he url n r rfl
      rcases he.2 with h | h
      · exact absurd h.1 id
      · exact h)
    exact ⟨evs, h1, h3⟩
  · obtain ⟨evs, h1, _, h3⟩ := exec_all (Q := fun e => ∀ url n r, e ≠ .fetch url n r) (api_exec x .refl (.findCachedTarget tf f)) (by
      rintro s1 e _ he url n r rfl
      rcases he.2 with h | h
      · exact h.1
      · exact h)
    exact ⟨evs, h1, h3⟩

/-! ## C33 -/

/-- C33, form: every metadata download names a role and, for root and under consistent snapshots for snapshot and targets, its version, as described by
`MetadataRequest` for the trusted set of that moment (the same requests as in C32, here without the lengths). -/
theorem C33_urls {x : Ctx} {a : Api} (ha : a = .refresh ∨ ∃ path, a = .getTargetInfo path) (s : St) :
    ∃ evs, (a.run x s).2.world.trace = s.world.trace ++ evs ∧ ∀ e ∈ evs, ∀ url n r, e = .fetch url n r →
      ∃ t, ClientHistory x.env s.trusted t ∧
        (VersionedURL x.cfg.remoteMetadataURL b!"root" (wrap64 (t.root.signed.version + 1)) url ∨
         PlainURL x.cfg.remoteMetadataURL b!"timestamp" url ∨
         (∃ ts v, t.timestamp = some ts ∧ Lists ts.signed.metas b!"snapshot.json" v ∧ RoleURL x t b!"snapshot" v url) ∨
         (∃ sn role v, t.snapshot = some sn ∧ Lists sn.signed.metas (role ++ b!".json") v ∧ RoleURL x t role v url)) := by
  obtain ⟨evs, h1, h2⟩ := C32_metadata_downloads (x := x) ha s
  refine ⟨evs, h1, ?_⟩
  intro e he url n r her
  obtain ⟨t, h3, h4⟩ := h2 e he url n r her
  refine ⟨t, h3, ?_⟩
  cases h4 with
  | root h => exact .inl h
  | timestamp h => exact .inr (.inl h)
  | snapshot h1 h2 h3 _ => exact .inr (.inr (.inl ⟨_, _, h1, ⟨_, h2, rfl⟩, h3⟩))
  | targets h1 h2 h3 _ => exact .inr (.inr (.inr ⟨_, _, _, h1, ⟨_, h2, rfl⟩, h3⟩))

theorem slashBase_unique {base a b : Str} (h1 : SlashBase base a) (h2 : SlashBase base b) : a = b := by
  rcases h1 with ⟨rfl, h⟩ | ⟨rfl, h⟩ <;> rcases h2 with ⟨rfl, h'⟩ | ⟨rfl, h'⟩
  · rfl
  · exact absurd h h'
  · exact absurd h' h
  · rfl

theorem map_digitChar_inj {l r : List Nat} (hl : ∀ d ∈ l, d < 10) (hr : ∀ d ∈ r, d < 10) (h : l.map digitChar = r.map digitChar) : l = r := by
  induction l generalizing r with
  | nil => cases r with
    | nil => rfl
    | cons => cases h
  | cons d l ih =>
    cases r with
    | nil => cases h
    | cons e r =>
      rw [List.map_cons, List.map_cons, List.cons.injEq] at h
      have key : ∀ d e : Fin 10, digitChar d.val = digitChar e.val → d = e := by decide
      have := key ⟨d, hl d (.head _)⟩ ⟨e, hr e (.head _)⟩ h.1
      rw [Fin.mk.injEq] at this
      rw [this, ih (fun x hx => hl x (.tail _ hx)) (fun x hx => hr x (.tail _ hx)) h.2]

theorem formatNat_inj {a b : Nat} (h : formatNat 10 a = formatNat 10 b) : a = b := by
  unfold formatNat at h
  have := map_digitChar_inj (digits_lt (by omega) a) (digits_lt (by omega) b) h
  rw [← digits_value (by omega : 2 ≤ 10) a, this, digits_value (by omega)]

theorem formatInt_mem {v : Int} {c : UInt8} (h : c ∈ formatInt 10 v) : c = 45 ∨ (48 ≤ c.toNat ∧ c.toNat ≤ 57) := by
  unfold formatInt at h
  split at h
  · rcases List.mem_cons.1 h with h | h
    · exact .inl h
    · exact .inr (formatNat_mem h)
  · exact .inr (formatNat_mem h)

theorem formatNat_head_ne (n : Nat) (l : Str) : formatNat 10 n ≠ 45 :: l := by
  intro h
  have := (formatNat_mem (n := n) (c := 45) (by rw [h]; exact .head _)).1
  exact absurd this (by decide)

theorem formatInt_inj {a b : Int} (h : formatInt 10 a = formatInt 10 b) : a = b := by
  unfold formatInt at h
  split at h <;> split at h
  · have := formatNat_inj (List.cons.inj h).2
    omega
  · exact absurd h.symm (formatNat_head_ne _ _)
  · exact absurd h (formatNat_head_ne _ _)
  · have := formatNat_inj h
    omega

/-- Cutting at the first separator is unambiguous. -/
theorem cut_unique {sep : UInt8} {a b a' b' : Str} (ha : sep ∉ a) (ha' : sep ∉ a') (h : a ++ sep :: b = a' ++ sep :: b') : a = a' ∧ b = b' := by
  induction a generalizing a' with
  | nil =>
    cases a' with
    | nil => exact ⟨rfl, (List.cons.inj h).2⟩
    | cons c r => exact absurd (by rw [(List.cons.inj h).1]; exact .head _) ha'
  | cons c r ih =>
    cases a' with
    | nil => exact absurd (by rw [← (List.cons.inj h).1]; exact .head _) ha
    | cons d s =>
      obtain ⟨h1, h2⟩ := List.cons.inj h
      obtain ⟨h3, h4⟩ := ih (fun hm => ha (.tail _ hm)) (fun hm => ha' (.tail _ hm)) h2
      exact ⟨by rw [h1, h3], h4⟩

theorem dot_not_in_int (v : Int) : (46 : UInt8) ∉ formatInt 10 v := by
  intro h
  rcases formatInt_mem h with h | h
  · exact absurd h (by decide)
  · exact absurd h.1 (by decide)

/-- C33: with one base URL, versioned URLs of different (version, role) pairs differ. -/
theorem C33_versioned_injective_partial {base role role' url : Str} {v v' : Int} (h1 : VersionedURL base role v url)
    (h2 : VersionedURL base role' v' url) : v = v' ∧ role = role' := by
  obtain ⟨b, hb, h⟩ := h1
  obtain ⟨b', hb', h'⟩ := h2
  rw [slashBase_unique hb' hb] at h'
  rw [h] at h'
  simp only [List.append_assoc] at h'
  have h3 := List.append_cancel_left h'
  obtain ⟨h4, h5⟩ := cut_unique (dot_not_in_int v) (dot_not_in_int v') h3
  exact ⟨formatInt_inj h4, queryEscape_inj (List.append_cancel_right h5)⟩

/-- C33: with one base URL, unversioned URLs of different roles differ. -/
theorem C33_plain_injective_partial {base role role' url : Str} (h1 : PlainURL base role url) (h2 : PlainURL base role' url) : role = role' := by
  obtain ⟨b, hb, h⟩ := h1
  obtain ⟨b', hb', h'⟩ := h2
  rw [slashBase_unique hb' hb, h] at h'
  simp only [List.append_assoc] at h'
  exact queryEscape_inj (List.append_cancel_right (List.append_cancel_left h'))

theorem plain_not_versioned {base name role url : Str} {v : Int} (hn : name ∈ [TIMESTAMP, SNAPSHOT, TARGETS, ROOT]) (h1 : PlainURL base name url) :
    ¬ VersionedURL base role v url := by
  rintro ⟨b', hb', h'⟩
  obtain ⟨b, hb, h⟩ := h1
  rw [slashBase_unique hb' hb, h] at h'
  simp only [List.append_assoc] at h'
  have h3 := List.append_cancel_left h'
  have hq : ∀ name ∈ [TIMESTAMP, SNAPSHOT, TARGETS, ROOT], ∃ c r, queryEscape name = c :: r ∧ c ≠ 45 ∧ 57 < c.toNat := by
    intro name hn
    rcases List.mem_cons.1 hn with rfl | hn
    · exact ⟨_, _, rfl, by decide, by decide⟩
    rcases List.mem_cons.1 hn with rfl | hn
    · exact ⟨_, _, rfl, by decide, by decide⟩
    rcases List.mem_cons.1 hn with rfl | hn
    · exact ⟨_, _, rfl, by decide, by decide⟩
    rcases List.mem_cons.1 hn with rfl | hn
    · exact ⟨_, _, rfl, by decide, by decide⟩
    · cases hn
  obtain ⟨c, r, h4, h5, h6⟩ := hq name hn
  rw [h4] at h3
  rcases hv : formatInt 10 v with _ | ⟨d, r'⟩
  · exact formatInt_ne_nil _ _ hv
  · rw [hv] at h3
    have hc : c = d := (List.cons.inj h3).1
    rcases formatInt_mem (v := v) (c := d) (by rw [hv]; exact .head _) with h | h
    · exact h5 (hc.trans h)
    · rw [← hc] at h; omega

/-- C33: the unversioned URLs of the top-level roles are no versioned URLs of any role. Under consistent snapshots only the timestamp is requested
without version, so then all requests are told apart. -/
theorem C33_top_level_unversioned_partial {base name role url : Str} {v : Int} (hn : name ∈ [b!"timestamp", b!"snapshot", b!"targets", b!"root"])
    (h1 : PlainURL base name url) : ¬ VersionedURL base role v url := plain_not_versioned hn h1

/-- C33 is false without consistent snapshots: the delegated role `2.root` has the URL of root version 2. -/
theorem C33_collision (base : Str) : ∃ url, PlainURL base b!"2.root" url ∧ VersionedURL base b!"root" 2 url := by
  refine ⟨_, ⟨_, slashBase base, rfl⟩, _, slashBase base, ?_⟩
  have h1 : queryEscape b!"2.root" = formatInt 10 2 ++ b!"." ++ queryEscape b!"root" := by decide
  rw [h1]
  simp only [List.append_assoc]

/-! ## C47, C48 -/

/-- C47: metadata files lie directly in the configured directory, with a name that is one path component, and different roles have different files. -/
theorem C47_cache_names (dir : Str) : ∃ D, DirPrefix dir D ∧
    (∀ role, ∃ name, joinPath dir (queryEscape role ++ b!".json") = D ++ name ∧ PlainName name) ∧
    (∀ role role', joinPath dir (queryEscape role ++ b!".json") = joinPath dir (queryEscape role' ++ b!".json") → role = role') := by
  obtain ⟨D, h1, h2⟩ := joinPath_plain dir
  refine ⟨D, h1, fun role => ⟨_, h2 _ (plainName_json role), plainName_json role⟩, ?_⟩
  intro role role' h
  exact persistPath_inj (cfg := { localMetadataDir := dir }) h

/-- C47: metadata moves go to such files only. -/
theorem C47_moves {x : Ctx} {s s' : St} (h : Session x s s') {before after : List Event} {src dst : Str}
    (ht : s'.world.trace = s.world.trace ++ (before ++ .rename src dst :: after)) :
    ∃ role, dst = joinPath x.cfg.localMetadataDir (queryEscape role ++ b!".json") := by
  obtain ⟨role, _, _, h, _⟩ := C27_only_verified h ht
  exact ⟨role, h⟩

example : cleanPath b!"a/../m/" = b!"m" ∧ joinPath b!"a/../m/" (queryEscape b!"../../etc/passwd" ++ b!".json") = b!"m/..%2F..%2Fetc%2Fpasswd.json" := by decide

/-- C48: role names of letters, digits and `-_.~` other than `.` and `..` are read from the file to which they are written. -/
theorem C48_found_again_partial (x : Ctx) {role : Str} (h : ∀ c ∈ role, unreserved c = true) (hn : PlainName role) :
    localPath x.cfg role = persistPath x.cfg role := by
  obtain ⟨D, _, h1, h2⟩ := persistPath_eq x.cfg
  rw [h1, h2 role hn, queryEscape_unreserved h]

/-- The top-level roles qualify. -/
theorem C48_top_level (x : Ctx) : ∀ role ∈ [ROOT, TIMESTAMP, SNAPSHOT, TARGETS], localPath x.cfg role = persistPath x.cfg role := by
  intro role hr
  have h1 : ∀ role ∈ [ROOT, TIMESTAMP, SNAPSHOT, TARGETS], ∀ c ∈ role, unreserved c = true := by decide
  have h2 : ∀ role ∈ [ROOT, TIMESTAMP, SNAPSHOT, TARGETS], role ≠ [] ∧ (47 : UInt8) ∉ role ∧ role ≠ b!"." ∧ role ≠ b!".." := by decide
  obtain ⟨a, b, c, d⟩ := h2 role hr
  exact C48_found_again_partial x (h1 role hr) ⟨a, b, c, d⟩

/-- C48 is false for other names: a role with a space or a slash is written to one file and read from another. -/
theorem C48_false : persistPath cfg b!"a b" = b!"m/a+b.json" ∧ localPath cfg b!"a b" = b!"m/a b.json" ∧
    persistPath cfg b!"a/b" = b!"m/a%2Fb.json" ∧ localPath cfg b!"a/b" = b!"m/a/b.json" ∧ localPath cfg b!"../x" = b!"x.json" := by decide

end Tuf
