import Verif.Proofs.Std.Url
import Verif.Props.CliInit
import Verif.Props.UpdaterEvents

/-! # Names of target files, and the URLs of a new configuration (C111, C112) -/

namespace Tuf
open Tuf.Spec Tuf.Sample Tuf.Std

section
variable {x : Ctx}

theorem escaped_special {t : Str} (h : queryEscape t = [] ∨ queryEscape t = b!"." ∨ queryEscape t = b!"..") : t = [] ∨ t = b!"." ∨ t = b!".." := by
  rcases h with h | h | h
  · exact .inl (queryEscape_inj (b := []) h)
  · exact .inr (.inl (queryEscape_inj (b := b!".") h))
  · exact .inr (.inr (queryEscape_inj (b := b!"..") h))

/-- `url.JoinPath` of a plain directory and an escaped path. -/
theorem join_plain {dir t : Str} (hd : PlainDir dir) (h : t ∉ [[], b!".", b!".."]) : urlJoinPath dir (queryEscape t) = some (dir ++ b!"/" ++ queryEscape t) := by
  simp only [List.mem_cons, List.not_mem_nil, or_false] at h
  have hpush : ∀ ps, pushName ps (queryEscape t) = ps ++ [queryEscape t] := fun ps => by
    unfold pushName
    rw [if_neg (fun hc => h (escaped_special (hc.imp id .inl))), if_neg (fun hc => h (escaped_special (.inr (.inr hc))))]
  cases hd with
  | @absolute ps hne hp =>
    rw [slashed_eq, join_absolute hp (queryEscape_noSlash t) (queryEscape_bytes t) (unescape_query t), hpush, joinWith_append_one _ _ hne]
    simp
  | @relative ps hne hp =>
    rw [slashed_eq, join_relative hne hp (queryEscape_noSlash t) (queryEscape_bytes t) (unescape_query t), hpush, joinWith_append_one _ _ hne]
    simp

theorem path_plain (hu : x.env.urlJoin = urlJoinPath) (hd : PlainDir x.cfg.localTargetsDir) {tf : TargetFiles} (ht : tf.path ∉ [[], b!".", b!".."]) {file : Str}
    (h : TargetPath x tf [] file) : file = x.cfg.localTargetsDir ++ b!"/" ++ queryEscape tf.path := by
  cases h with
  | given h => exact absurd rfl h
  | generated _ _ h =>
    rw [hu, join_plain hd ht] at h
    exact (Option.some.inj h).symm

/-- C111 for plain directories: without a file name `DownloadTarget` stores the target in the directory for targets, under its escaped path. -/
theorem C111_stored_partial (hu : x.env.urlJoin = urlJoinPath) (hd : PlainDir x.cfg.localTargetsDir) {tf : TargetFiles} (ht : tf.path ∉ [[], b!".", b!".."])
    {base file : Str} {data : Bytes} {s s' : St} (h : downloadTarget x tf [] base s = (.ok (file, data), s')) :
    file = x.cfg.localTargetsDir ++ b!"/" ++ queryEscape tf.path ∧ (x.cfg.disableLocalCache = false → s'.world.fs file = some data) := by
  obtain ⟨_, h1, h2, _⟩ := C43_matching h
  exact ⟨path_plain hu hd ht h1, h2⟩

/-- C111 for plain directories: without a file name `FindCachedTarget` looks there. -/
theorem C111_found_partial (hu : x.env.urlJoin = urlJoinPath) (hd : PlainDir x.cfg.localTargetsDir) {tf : TargetFiles} (ht : tf.path ∉ [[], b!".", b!".."])
    {file : Str} {data : Bytes} {s s' : St} (h : findCachedTarget x tf [] s = (.ok (file, data), s')) (hf : file ≠ []) :
    file = x.cfg.localTargetsDir ++ b!"/" ++ queryEscape tf.path ∧ s.world.fs file = some data := by
  obtain ⟨h1, h2, _⟩ := C44_matching h hf
  exact ⟨path_plain hu hd ht h1, h2⟩

/-- C111 for plain directories: the file of one target is not touched by a download, successful or not, of another target. -/
theorem C111_separate_partial (hu : x.env.urlJoin = urlJoinPath) (hd : PlainDir x.cfg.localTargetsDir) {tf tf' : TargetFiles} (ht : tf.path ∉ [[], b!".", b!".."])
    (ht' : tf'.path ∉ [[], b!".", b!".."]) (hne : tf.path ≠ tf'.path) {base base' file : Str} {data : Bytes} {s s1 : St}
    (h : downloadTarget x tf [] base s = (.ok (file, data), s1)) : (downloadTarget x tf' [] base' s1).2.world.fs file = s1.world.fs file := by
  obtain ⟨_, h1, _⟩ := C43_matching h
  refine Classical.byContradiction fun hc => ?_
  have h2 := ((C43_no_mismatch_stored (x := x) tf' [] base' s1).2.1 file hc).1
  have h3 := (path_plain hu hd ht h1).symm.trans (path_plain hu hd ht' h2)
  exact hne (queryEscape_inj (List.append_cancel_left h3))

end

/-! ## The command line client -/

/-- The folder for targets of the command line client is beside the one for metadata. -/
theorem cli_no_overlap {cwd : Str} (hd : WorkingDir cwd) (path : Str) :
    urlJoinPath (joinPath cwd b!"tuf_download") (queryEscape path) ≠ some (anchorFile cwd) := by
  have hname : DirName b!"tuf_download" := dirName_plain (by decide)
  have hmeta : PlainName b!"tuf_metadata" := ⟨by decide, by decide, by decide, by decide⟩
  have hroot : PlainName b!"root.json" := ⟨by decide, by decide, by decide, by decide⟩
  have hpush : ∀ ps, (∀ p, PlainName p → pushName ps p = ps ++ [p]) := fun ps p h => by
    unfold pushName
    rw [if_neg (by rintro (hc | hc); exact h.nonempty hc; exact h.notDot hc), if_neg h.notDotDot]
  -- the components after the join end in two names of which the first is not `tuf_metadata`, or are too few
  have hne : ∀ ps : List Str, (∀ p ∈ ps, DirName p) → joinWith 47 (pushName (ps ++ [b!"tuf_download"]) (queryEscape path)) ≠ joinWith 47 (ps ++ [b!"tuf_metadata"] ++ [b!"root.json"]) := by
    intro ps hp he
    have hplain : ∀ p ∈ ps ++ [b!"tuf_download"], PlainName p := by
      intro p h
      rcases List.mem_append.1 h with h | h
      · exact (hp p h).plain
      · rw [List.mem_singleton] at h
        subst h
        exact hname.plain
    have hpl := pushName_plain hplain (queryEscape_noSlash path)
    have hl : ∀ p ∈ ps ++ [b!"tuf_metadata"] ++ [b!"root.json"], (47 : UInt8) ∉ p := by
      intro p h
      rcases List.mem_append.1 h with h | h
      · rcases List.mem_append.1 h with h | h
        · exact (hp p h).plain.noSlash
        · rw [List.mem_singleton] at h
          subst h
          exact hmeta.noSlash
      · rw [List.mem_singleton] at h
        subst h
        exact hroot.noSlash
    have hsplit : ∀ qs : List Str, (∀ p ∈ qs, (47 : UInt8) ∉ p) → qs ≠ [] → splitOn 47 (joinWith 47 qs) = qs := fun qs h1 h2 => splitOn_joinWith h2 h1
    by_cases hq : pushName (ps ++ [b!"tuf_download"]) (queryEscape path) = []
    · rw [hq] at he
      have := congrArg List.length he
      rw [joinWith_append_one _ _ (by simp)] at this
      simp [joinWith] at this
    · have h2 := congrArg (splitOn 47) he
      rw [hsplit _ (fun p h => (hpl p h).noSlash) hq, hsplit _ hl (by simp)] at h2
      unfold pushName at h2
      split at h2
      · have := congrArg List.length h2
        simp at this
      · split at h2
        · have := congrArg List.length h2
          simp at this
        · have := List.append_inj_left' h2 rfl
          have := List.append_inj_right' this rfl
          revert this
          decide
  obtain ⟨ps, hp, rfl⟩ := hd
  rw [slashed_eq]
  have hpl : ∀ p ∈ ps, PlainName p := fun p h => (hp p h).plain
  have e1 : joinPath (b!"/" ++ joinWith 47 ps) b!"tuf_download" = b!"/" ++ joinWith 47 (ps ++ [b!"tuf_download"]) := by
    rw [join_rooted hpl (by decide), hpush _ _ hname.plain]
  have e2 : anchorFile (b!"/" ++ joinWith 47 ps) = b!"/" ++ joinWith 47 (ps ++ [b!"tuf_metadata"] ++ [b!"root.json"]) := by
    unfold anchorFile
    rw [join_rooted hpl (by decide), hpush _ _ hmeta, join_rooted _ (by decide), hpush _ _ hroot]
    intro p h
    rcases List.mem_append.1 h with h | h
    · exact hpl p h
    · rw [List.mem_singleton] at h
      subst h
      exact hmeta
  rw [e1, e2, join_absolute _ (queryEscape_noSlash path) (queryEscape_bytes path) (unescape_query path)]
  · intro h
    exact hne ps hp (List.append_cancel_left (Option.some.inj h))
  · intro p h
    rcases List.mem_append.1 h with h | h
    · exact hp p h
    · rw [List.mem_singleton] at h
      subst h
      exact hname

section
variable {env : Env} {h : CliHost} {a : CliArgs} {target : Str}

/-- C95 in a plain working directory, with the standard library's `url.JoinPath`: what `get` delivers goes back to the root of the first `get`. -/
theorem C95_plain {cwd : Str} {fs : FS} {d0 : Bytes} {now0 : Time} {t0 : Trusted} {s s' : CliSt} {r : GetResult} (hw : WorkingDir cwd) (h0 : fs (anchorFile cwd) = some d0)
    (hn : Trusted.new (std env) now0 d0 = .ok t0) (hl : Later (std env) cwd fs s.world.fs) (hcwd : h.cwd s.world.trace = some cwd)
    (hg : getCmd (std env) h a target s = (.ok r, s')) : ∃ now, Delivered (std env) t0.root now target r.file s'.world.fs :=
  C95_get_delivers h0 hn hl (fun path => cli_no_overlap hw path) hcwd hg

/-- C96 in a plain working directory for a repository URL: after `init`, what `get` delivers goes back to the root that the server sent for `<URL>/1.root.json`. -/
theorem C96_plain {s0 s1 s s' : CliSt} {h0 : CliHost} {a0 : CliArgs} {cwd norm : Str} {r : GetResult} (hw : WorkingDir cwd) (hu : RepoURL a0.repositoryURL norm)
    (hi : initCmd (std env) h0 a0 s0 = (.ok (), s1)) (hr : a0.rootPath = [])
    (hc0 : h0.cwd s0.world.trace = some cwd) (hl : Later (std env) cwd s1.world.fs s.world.fs) (hcwd : h.cwd s.world.trace = some cwd)
    (hg : getCmd (std env) h a target s = (.ok r, s')) :
    ∃ data tr first now, h0.httpGet tr (norm ++ b!"/1.root.json") = .ok data ∧ ParsesTo (std env) data first ∧ Delivered (std env) first now target r.file s'.world.fs := by
  obtain ⟨url, data, tr, first, now, h1, h2, h3, h4⟩ := C96_then_get hi hr hc0 hl (fun path => cli_no_overlap hw path) hcwd hg
  have h5 : urlJoinPath a0.repositoryURL b!"1.root.json" = some (norm ++ b!"/" ++ b!"1.root.json") := join_url hu (dirName_plain (by decide))
  have h6 : urlJoinPath a0.repositoryURL b!"1.root.json" = some url := h1
  rw [h5] at h6
  cases h6
  exact ⟨data, tr, first, now, by simpa using h2, h3, h4⟩

end

/-! ## C112 -/

theorem repoURL_slash {base norm : Str} (h : RepoURL base norm) : SlashBase base (norm ++ b!"/") := by
  have hn : ∀ (a b : Str), b ≠ [] → (47 : UInt8) ∉ b → ¬ b!"/" <:+ a ++ b := by
    intro a b hb hs hc
    obtain ⟨l, hl⟩ := hc
    rcases List.eq_nil_or_concat b with rfl | ⟨b', c, rfl⟩
    · exact hb rfl
    · rw [List.concat_eq_append, ← List.append_assoc] at hl
      have := List.append_inj_right' hl rfl
      simp only [List.cons.injEq, and_true] at this
      exact hs (by simp [this])
  have hps : ∀ (a : Str) (ps : List Str), ps ≠ [] → (∀ p ∈ ps, DirName p) → ¬ b!"/" <:+ a ++ slashed ps := by
    intro a ps hne hp
    rcases List.eq_nil_or_concat ps with rfl | ⟨ps', p, rfl⟩
    · exact absurd rfl hne
    · rw [List.concat_eq_append] at hp ⊢
      have hpp := hp p (by simp)
      rw [slashed_eq]
      by_cases hn' : ps' = []
      · subst hn'
        exact hn _ _ hpp.nonempty hpp.plain.noSlash
      · rw [joinWith_append_one _ _ hn']
        have := hn (a ++ joinWith 47 ps' ++ b!"/") p hpp.nonempty hpp.plain.noSlash
        simpa using this
  cases h with
  | bare hs =>
    obtain ⟨hs, hu, hh, hp⟩ := hs
    refine .inr ⟨rfl, hn _ _ ?_ (fun hm => (authority_bytes hu hh hp _ hm).1 rfl)⟩
    intro h
    obtain ⟨_, _, h2, h3⟩ := host_round hh hp
    rw [List.append_assoc] at h
    rw [List.append_eq_nil_iff.1 h |>.2] at h2
    exact h3 (escapeBy_nil h2)
  | bareSlash hs => exact .inl ⟨rfl, List.suffix_append _ _⟩
  | path hs hne hp => exact .inr ⟨rfl, hps _ _ hne hp⟩
  | pathSlash hs hne hp => exact .inl ⟨rfl, List.suffix_append _ _⟩

section
variable {env : Env}

/-- C112 for repository URLs: `config.New` succeeds; metadata are requested below the URL, targets below `<URL>/targets`; the limits and switches are the documented ones. -/
theorem C112_new_partial (hu : env.urlJoin = urlJoinPath) {url norm : Str} (h : RepoURL url norm) (root : Bytes) :
    ∃ c, Cfg.new env url root = .ok c ∧ c.localTrustedRoot = root ∧ SlashBase c.remoteMetadataURL (norm ++ b!"/") ∧ SlashBase c.remoteTargetsURL (norm ++ b!"/targets/") ∧
      (c.maxRootRotations, c.maxDelegations, c.rootMaxLength, c.timestampMaxLength, c.snapshotMaxLength, c.targetsMaxLength) = (32, 32, 512000, 16384, 2000000, 5000000) ∧
      (c.disableLocalCache, c.prefixTargetsWithHash, c.unsafeLocalMode) = (false, true, false) ∧ c.localMetadataDir = [] ∧ c.localTargetsDir = [] := by
  have hj := join_url h (e := b!"targets") (dirName_plain (by decide))
  unfold Cfg.new
  rw [hu, hj]
  refine ⟨_, rfl, rfl, repoURL_slash h, .inr ⟨by simp, ?_⟩, rfl, rfl, rfl, rfl⟩
  intro ⟨l, hl⟩
  have := congrArg List.getLast? hl
  simp at this

/-- C112: an updater with the URLs of such a configuration requests a target below `<URL>/targets`. -/
theorem C112_target_partial (hu : env.urlJoin = urlJoinPath) {url norm : Str} (hr : RepoURL url norm) {root : Bytes} {c : Cfg}
    (hc : Cfg.new env url root = .ok c) {x : Ctx} (hx : x.cfg.remoteTargetsURL = c.remoteTargetsURL) {tf : TargetFiles} {given file : Str} {data : Bytes} {s s' : St}
    (h : downloadTarget x tf given [] s = (.ok (file, data), s')) :
    ∃ name, downloads s'.world.trace = downloads s.world.trace ++ [(norm ++ b!"/targets/" ++ name, tf.length, .ok data)] ∧
      (s.trusted.root.signed.consistentSnapshot = false ∨ x.cfg.prefixTargetsWithHash = false → name = tf.path) ∧
      (s.trusted.root.signed.consistentSnapshot = true → x.cfg.prefixTargetsWithHash = true → tf.hashes.entries ≠ [] → tf.path.count 47 ≤ 1 →
        ∃ alg v, (alg, v) ∈ tf.hashes.entries ∧ PrefixedName tf.path (hexEncode v) name) := by
  obtain ⟨c', k1, _, _, k2, _⟩ := C112_new_partial hu hr root
  rw [hc] at k1
  cases k1
  rw [← hx] at k2
  have hb : ∀ {b}, TargetBase x [] b → b = norm ++ b!"/targets/" := by
    intro b h3
    cases h3 with
    | given h0 => exact absurd rfl h0
    | configured _ _ h4 => exact slashBase_unique h4 k2
  rcases downloadTarget_run (x := x) tf given [] s with ⟨e, h1, _⟩ | ⟨p, b, name, r, fs', pre, evs, h1, h2, h3, h4, h5, h6⟩
  · rw [h1] at h; cases h
  · have hd : downloads s'.world.trace = downloads s.world.trace ++ [(norm ++ b!"/targets/" ++ name, tf.length, .ok data)] := by
      rw [h1] at h
      cases h
      have hpre : downloads (s.world.trace ++ (pre ++ evs)) = downloads s.world.trace ++ downloads evs := by
        rcases h5 with rfl | ⟨o, rfl⟩ <;> simp [downloads]
      rw [hpre, ← hb h3]
      cases h6 <;> rfl
    refine ⟨name, hd, fun hp => ?_, fun hcs hp hh hone => ?_⟩
    · rcases h4 with ⟨h7, h8, _⟩ | ⟨_, h7⟩
      · rcases hp with hp | hp
        · rw [h7] at hp; cases hp
        · rw [h8] at hp; cases hp
      · exact h7
    · obtain ⟨b', alg, v, name', k3, k4, k5, k6⟩ := C46_prefix_partial h hcs hp hh hone
      rw [hd, hb k3] at k6
      have := List.append_cancel_left k6
      simp only [List.cons.injEq, Prod.mk.injEq, and_true] at this
      exact ⟨alg, v, k4, List.append_cancel_left this ▸ k5⟩

/-- C112: every metadata request of `Refresh` and `GetTargetInfo` is for a file directly below the URL. -/
theorem C112_metadata_partial (hu : env.urlJoin = urlJoinPath) {url norm : Str} (hr : RepoURL url norm) {root : Bytes} {c : Cfg}
    (hc : Cfg.new env url root = .ok c) {x : Ctx} (hx : x.cfg.remoteMetadataURL = c.remoteMetadataURL) {a : Api} (ha : a = .refresh ∨ ∃ path, a = .getTargetInfo path) (s : St) :
    ∃ evs, (a.run x s).2.world.trace = s.world.trace ++ evs ∧ ∀ e ∈ evs, ∀ u n r, e = .fetch u n r → ∃ name, (47 : UInt8) ∉ name ∧ u = norm ++ b!"/" ++ name ++ b!".json" := by
  obtain ⟨c', k1, _, k2, _⟩ := C112_new_partial hu hr root
  rw [hc] at k1
  cases k1
  rw [← hx] at k2
  have h1 : ∀ {role u}, PlainURL x.cfg.remoteMetadataURL role u → ∃ name, (47 : UInt8) ∉ name ∧ u = norm ++ b!"/" ++ name ++ b!".json" := by
    rintro role u ⟨b, hb, rfl⟩
    rw [slashBase_unique hb k2]
    exact ⟨_, queryEscape_noSlash role, rfl⟩
  have h2 : ∀ {role v u}, VersionedURL x.cfg.remoteMetadataURL role v u → ∃ name, (47 : UInt8) ∉ name ∧ u = norm ++ b!"/" ++ name ++ b!".json" := by
    rintro role v u ⟨b, hb, rfl⟩
    rw [slashBase_unique hb k2]
    refine ⟨formatInt 10 v ++ b!"." ++ queryEscape role, ?_, by simp⟩
    intro hm
    rw [List.append_assoc, List.mem_append, List.mem_append] at hm
    rcases hm with hm | hm | hm
    · rcases formatInt_mem hm with h | h
      · exact absurd h (by decide)
      · exact absurd h.1 (by decide)
    · exact absurd hm (by decide)
    · exact queryEscape_noSlash role hm
  have h3 : ∀ {t role v u}, RoleURL x t role v u → ∃ name, (47 : UInt8) ∉ name ∧ u = norm ++ b!"/" ++ name ++ b!".json" := by
    rintro t role v u (⟨_, h⟩ | ⟨_, h⟩)
    · exact h2 h
    · exact h1 h
  obtain ⟨evs, h4, h5⟩ := C33_urls (x := x) ha s
  refine ⟨evs, h4, fun e he u n r her => ?_⟩
  obtain ⟨t, _, h | h | ⟨_, _, _, _, h⟩ | ⟨_, _, _, _, _, h⟩⟩ := h5 e he u n r her
  · exact h2 h
  · exact h1 h
  · exact h3 h
  · exact h3 h

/-- C112, the limits for every URL: whenever `config.New` returns a configuration, it has the given root, the given URL for metadata, what `url.JoinPath` makes of the URL and `targets` for targets,
and the documented limits and switches; it fails exactly if `url.JoinPath` does. -/
theorem C112_defaults (url root : Bytes) :
    (∃ e, Cfg.new env url root = .err e ∧ env.urlJoin url b!"targets" = none) ∨
    ∃ c, Cfg.new env url root = .ok c ∧ c.localTrustedRoot = root ∧ c.remoteMetadataURL = url ∧ env.urlJoin url b!"targets" = some c.remoteTargetsURL ∧
      (c.maxRootRotations, c.maxDelegations, c.rootMaxLength, c.timestampMaxLength, c.snapshotMaxLength, c.targetsMaxLength) = (32, 32, 512000, 16384, 2000000, 5000000) ∧
      (c.disableLocalCache, c.prefixTargetsWithHash, c.unsafeLocalMode) = (false, true, false) ∧ c.localMetadataDir = [] ∧ c.localTargetsDir = [] := by
  unfold Cfg.new
  rcases h : env.urlJoin url b!"targets" with _ | u
  · exact .inl ⟨_, rfl, rfl⟩
  · exact .inr ⟨_, rfl, rfl, rfl, rfl, rfl, rfl, rfl, rfl⟩

/-- C112, metadata for every URL: whatever URL `config.New` was given, metadata are requested as files directly below it: all requests are the URL, a slash if it does not end with one, and a name
without slashes that ends with `.json`. (With a query or a fragment that is not below its path, `C112_tail_metadata`.) -/
theorem C112_metadata_any {url root : Bytes} {c : Cfg} (hc : Cfg.new env url root = .ok c) {x : Ctx} (hx : x.cfg.remoteMetadataURL = c.remoteMetadataURL) {a : Api}
    (ha : a = .refresh ∨ ∃ path, a = .getTargetInfo path) (s : St) :
    ∃ evs, (a.run x s).2.world.trace = s.world.trace ++ evs ∧
      ∀ e ∈ evs, ∀ u n r, e = .fetch u n r → ∃ b name, SlashBase url b ∧ (47 : UInt8) ∉ name ∧ u = b ++ name ++ b!".json" := by
  have hu : x.cfg.remoteMetadataURL = url := by
    rcases C112_defaults (env := env) url root with ⟨e, h1, _⟩ | ⟨c', h1, _, h2, _⟩
    · rw [hc] at h1; cases h1
    · rw [hc] at h1; cases h1; rw [hx, h2]
  have h1 : ∀ {role u}, PlainURL x.cfg.remoteMetadataURL role u → ∃ b name, SlashBase url b ∧ (47 : UInt8) ∉ name ∧ u = b ++ name ++ b!".json" := by
    rintro role u ⟨b, hb, rfl⟩
    exact ⟨b, _, hu ▸ hb, queryEscape_noSlash role, rfl⟩
  have h2 : ∀ {role v u}, VersionedURL x.cfg.remoteMetadataURL role v u → ∃ b name, SlashBase url b ∧ (47 : UInt8) ∉ name ∧ u = b ++ name ++ b!".json" := by
    rintro role v u ⟨b, hb, rfl⟩
    refine ⟨b, formatInt 10 v ++ b!"." ++ queryEscape role, hu ▸ hb, ?_, by simp⟩
    intro hm
    rw [List.append_assoc, List.mem_append, List.mem_append] at hm
    rcases hm with hm | hm | hm
    · rcases formatInt_mem hm with h | h
      · exact absurd h (by decide)
      · exact absurd h.1 (by decide)
    · exact absurd hm (by decide)
    · exact queryEscape_noSlash role hm
  have h3 : ∀ {t role v u}, RoleURL x t role v u → ∃ b name, SlashBase url b ∧ (47 : UInt8) ∉ name ∧ u = b ++ name ++ b!".json" := by
    rintro t role v u (⟨_, h⟩ | ⟨_, h⟩)
    · exact h2 h
    · exact h1 h
  obtain ⟨evs, h4, h5⟩ := C33_urls (x := x) ha s
  refine ⟨evs, h4, fun e he u n r her => ?_⟩
  obtain ⟨t, _, h | h | ⟨_, _, _, _, h⟩ | ⟨_, _, _, _, _, h⟩⟩ := h5 e he u n r her
  · exact h2 h
  · exact h1 h
  · exact h3 h
  · exact h3 h

end

namespace Sample

/-- `url.JoinPath` as in the standard library. -/
def urlEnv : Env := { repoEnv with urlJoin := urlJoinPath }

def urlCtx (dir : Str) : Ctx := { ctx with env := urlEnv, cfg := { cfg with localTargetsDir := dir } }

/-- Where `DownloadTarget` stores a target of the given name. -/
def storedAt (dir name : Str) : Option Str :=
  match (session { urlCtx dir with host := hostOf (fun _ => .ok [7, 7]) } [] (downloadTarget { urlCtx dir with host := hostOf (fun _ => .ok [7, 7]) } { infoF with path := name } [] [])).1 with
  | .ok (p, _) => some p
  | _ => none

/-- The URLs that an updater requests, with the given configuration and the directories `m` and `t`. -/
def asked {α : Type} (c : Cfg) (m : Ctx → M α) : List Str :=
  urls (session { ctx with env := urlEnv, cfg := { c with localMetadataDir := b!"m", localTargetsDir := b!"t" } } [] (m { ctx with env := urlEnv, cfg := { c with localMetadataDir := b!"m", localTargetsDir := b!"t" } })).2

end Sample

/-- C111 is false for other directories and for the target `..`: a directory with a space is written with `%20`; a leading `..` is dropped; with a colon in its first name all
targets share one file outside the directory; a directory `%2A` becomes `*`; nothing can be stored in a directory with a lone `%`; and the target `..` goes to the parent of the directory. -/
theorem C111_false :
    storedAt b!"/my dir" b!"f" = some b!"/my%20dir/f" ∧ storedAt b!"../x" b!"f" = some b!"x/f" ∧
    (storedAt b!"a:b" b!"f" = some b!"a:b" ∧ storedAt b!"a:b" b!"g" = some b!"a:b") ∧ storedAt b!"%2A" b!"f" = some b!"*/f" ∧ storedAt b!"/100%" b!"f" = none ∧ storedAt b!"/a/b" b!".." = some b!"/a" := by
  decide +kernel

/-- A plain directory, absolute or relative; a target with a slash is one file in it. -/
example : PlainDir b!"/a/b" ∧ PlainDir b!"t" ∧ urlEnv.urlJoin = urlJoinPath ∧
    storedAt b!"/a/b" b!"d/f" = some b!"/a/b/d%2Ff" ∧ storedAt b!"t" b!"f" = some b!"t/f" :=
  ⟨.absolute (ps := [b!"a", b!"b"]) (by decide) (by intro p hp; simp only [List.mem_cons, List.not_mem_nil, or_false] at hp; rcases hp with rfl | rfl <;> exact dirName_plain (by decide)),
    .relative (ps := [b!"t"]) (by decide) (by intro p hp; rw [List.mem_singleton] at hp; subst hp; exact dirName_plain (by decide)), rfl, by decide +kernel, by decide +kernel⟩

/-- Directories with escapes, in small and capital letters. -/
example : PlainDir b!"/my%20dir/%c3%Af" ∧ storedAt b!"/my%20dir/%c3%Af" b!"d/f" = some b!"/my%20dir/%c3%Af/d%2Ff" := by
  refine ⟨.absolute (ps := [b!"my%20dir", b!"%c3%Af"]) (by decide) ?_, by decide +kernel⟩
  intro p hp
  simp only [List.mem_cons, List.not_mem_nil, or_false] at hp
  rcases hp with rfl | rfl
  · exact ⟨by decide, by decide, by decide, by decide, .byte (by decide) (.byte (by decide) (.escape (by decide) (by decide) (encoded_plain (by decide))))⟩
  · exact ⟨by decide, by decide, by decide, by decide, .escape (by decide) (by decide) (.escape (by decide) (by decide) .nil)⟩

/-- The overlap that `cli_no_overlap` excludes is excluded in `/home/u`. -/
example : WorkingDir b!"/home/u" ∧ anchorFile b!"/home/u" = b!"/home/u/tuf_metadata/root.json" :=
  ⟨⟨[b!"home", b!"u"], by intro p hp; simp only [List.mem_cons, List.not_mem_nil, or_false] at hp; rcases hp with rfl | rfl <;> exact dirName_plain (by decide), by decide⟩,
    by decide +kernel⟩

/-- C112 is false for URLs with a query: the targets URL ends in the query, so a target is requested as part of the query, as is metadata. -/
theorem C112_false : ∃ c, Cfg.new urlEnv b!"http://h/m?x=1" [1, 1] = .ok c ∧
    asked c (fun x => downloadTarget x infoF b!"o" []) = [b!"http://h/m/targets?x=1/" ++ hexEncode (digest [7, 7]) ++ b!".f"] ∧
    asked c refresh = [b!"http://h/m?x=1/2.root.json", b!"http://h/m?x=1/timestamp.json"] := by
  refine ⟨{ localTrustedRoot := [1, 1], remoteMetadataURL := b!"http://h/m?x=1", remoteTargetsURL := b!"http://h/m/targets?x=1" }, ?_, by decide +kernel, by decide +kernel⟩
  have h : urlEnv.urlJoin b!"http://h/m?x=1" b!"targets" = some b!"http://h/m/targets?x=1" := by decide +kernel
  unfold Cfg.new
  rw [h]

/-- C112 is false for URLs with a fragment, for the same reason; an HTTP client sends nothing of a fragment. -/
theorem C112_false_fragment : ∃ c, Cfg.new urlEnv b!"http://h/m#f" [1, 1] = .ok c ∧
    asked c (fun x => downloadTarget x infoF b!"o" []) = [b!"http://h/m/targets#f/" ++ hexEncode (digest [7, 7]) ++ b!".f"] ∧
    asked c refresh = [b!"http://h/m#f/2.root.json", b!"http://h/m#f/timestamp.json"] := by
  refine ⟨{ localTrustedRoot := [1, 1], remoteMetadataURL := b!"http://h/m#f", remoteTargetsURL := b!"http://h/m/targets#f" }, ?_, by decide +kernel, by decide +kernel⟩
  have h : urlEnv.urlJoin b!"http://h/m#f" b!"targets" = some b!"http://h/m/targets#f" := by decide +kernel
  unfold Cfg.new
  rw [h]

/-- A repository URL with and without slash at the end, with user and IPv6 address, with a password, zone and port, and where a configured updater asks. -/
example : RepoURL b!"https://example.com:8080/r/m/" b!"https://example.com:8080/r/m" ∧ RepoURL b!"https://example.com" b!"https://example.com" ∧
    RepoURL b!"s3+v1://me@[2001:db8::1]/" b!"s3+v1://me@[2001:db8::1]" ∧ RepoURL b!"http://a:b@[fe80::1%25eth0]:80/r" b!"http://a:b@[fe80::1%25eth0]:80/r" ∧
    ∃ c, Cfg.new urlEnv b!"https://example.com" [1, 1] = .ok c ∧ asked c (fun x => downloadTarget x infoF b!"o" []) = [b!"https://example.com/targets/" ++ hexEncode (digest [7, 7]) ++ b!".f"] := by
  have hdir : ∀ p ∈ [b!"r", b!"m"], DirName p := by
    intro p hp
    simp only [List.mem_cons, List.not_mem_nil, or_false] at hp
    rcases hp with rfl | rfl <;> exact dirName_plain (by decide)
  refine ⟨?_, ?_, ?_, ?_, { localTrustedRoot := [1, 1], remoteMetadataURL := b!"https://example.com", remoteTargetsURL := b!"https://example.com/targets" }, ?_, by decide +kernel⟩
  · exact .pathSlash (server := b!"https://example.com:8080") (ps := [b!"r", b!"m"])
      (.mk (scheme := b!"https") (.mk (by decide) (by decide)) .none (.name (h := b!"example.com") (by decide) (by decide)) (.some (d := b!"8080") (by decide))) (by decide) hdir
  · exact .bare (server := b!"https://example.com") (.mk (scheme := b!"https") (.mk (by decide) (by decide)) .none (.name (h := b!"example.com") (by decide) (by decide)) .none)
  · exact .bareSlash (server := b!"s3+v1://me@[2001:db8::1]")
      (.mk (scheme := b!"s3+v1") (.mk (by decide) (by decide)) (.user (u := b!"me") (by decide)) (.address (a := b!"2001:db8::1") (by decide)) .none)
  · exact .path (server := b!"http://a:b@[fe80::1%25eth0]:80") (ps := [b!"r"])
      (.mk (scheme := b!"http") (.mk (by decide) (by decide)) (.password (u := b!"a") (p := b!"b") (by decide) (by decide))
        (.zoned (a := b!"fe80::1") (z := b!"eth0") (by decide) (by decide)) (.some (d := b!"80") (by decide)))
      (by decide) (fun p hp => hdir p (by rw [List.mem_singleton] at hp; subst hp; exact .head _))
  · have h : urlEnv.urlJoin b!"https://example.com" b!"targets" = some b!"https://example.com/targets" := by decide +kernel
    unfold Cfg.new
    rw [h]

end Tuf
