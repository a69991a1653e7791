import Verif.Proofs.Shared
import Verif.Props.Trusted
import Verif.Props.Targets
import Verif.Props.Sample

/-! # Clients that share a disk: properties C140 and C141 -/

namespace Tuf
open Small Spec

/-! ## C140: the code is that of the updater -/

/-- C140: the program of a call, run with nothing in between, is the call of the sequential model: same files, same events, same trusted set, and the process is gone exactly after a panic. -/
theorem C140_same_code (x : Ctx) (t : Trusted) (a : Api) (w : World) :
    (called x t a).run x.host w =
      ((match (a.run x ⟨t, w⟩).1 with
        | .panic => none
        | _ => some (a.run x ⟨t, w⟩).2.trusted), (a.run x ⟨t, w⟩).2.world) := by
  have hend : ∀ {α : Type} {c : Code Trusted α} {m : M α}, Same x.host c m → ((c t).bind callDone).run x.host w =
      ((match outcome (m ⟨t, w⟩).1 with
        | .panic => none
        | _ => some (m ⟨t, w⟩).2.trusted), (m ⟨t, w⟩).2.world) := by
    intro α c m h
    have h := h ⟨t, w⟩
    dsimp only at h
    rw [run_bind, h]
    rcases m ⟨t, w⟩ with ⟨r, s⟩
    cases r <;> rfl
  cases a with
  | refresh => exact hend same_refresh
  | getTargetInfo p => exact hend (same_getTargetInfo p)
  | downloadTarget tf f u => exact hend (same_downloadTarget tf f u)
  | findCachedTarget tf f => exact hend (same_findCachedTarget tf f)

/-- C140: likewise for `New`. -/
theorem C140_same_new (x : Ctx) (w : World) :
    (started x).run x.host w =
      ((match (Tuf.newUpdater x w).1 with
        | .ok t => some t
        | _ => none), (Tuf.newUpdater x w).2) := by
  unfold started
  rw [run_bind, same_new () w]
  rcases Tuf.newUpdater x w with ⟨r, s⟩
  cases r <;> rfl

theorem Small.set_getElem {l : List Proc} {i : Nat} {P Q : Proc} (h : l[i]? = some P) : (l.set i Q)[i]? = some Q := by
  rw [List.getElem?_set, if_pos rfl]
  have : i < l.length := by
    rcases Nat.lt_or_ge i l.length with h1 | h1
    · exact h1
    · rw [List.getElem?_eq_none h1] at h; cases h
  rw [if_pos this]

/-- Where a process is after its program. -/
def Small.Stage.after : Option Trusted → Stage
  | some t => .idle t
  | none => .gone

theorem Small.steps_alone (p : Prog (Option Trusted)) : ∀ (s : Sys) (i : Nat) (x : Ctx) (tr : List Event), s.procs[i]? = some ⟨x, tr, .busy p⟩ →
    ∃ n, s.run (List.replicate n (.step i)) = ⟨(p.run x.host ⟨s.fs, tr⟩).2.fs, s.procs.set i ⟨x, (p.run x.host ⟨s.fs, tr⟩).2.trace, .after (p.run x.host ⟨s.fs, tr⟩).1⟩⟩ := by
  induction p with
  | ret o =>
    intro s i x tr hP
    refine ⟨1, ?_⟩
    show (match s.procs[i]? with | some P => (⟨(P.step s.fs).1, s.procs.set i (P.step s.fs).2⟩ : Sys) | none => s) = _
    rw [hP]
    cases o <;> rfl
  | op o k ih =>
    intro s i x tr hP
    have hm : s.move (.step i) = ⟨(perform x.host ⟨s.fs, tr⟩ o).2.fs, s.procs.set i ⟨x, (perform x.host ⟨s.fs, tr⟩ o).2.trace, .busy (k (perform x.host ⟨s.fs, tr⟩ o).1)⟩⟩ := by
      show (match s.procs[i]? with | some P => (⟨(P.step s.fs).1, s.procs.set i (P.step s.fs).2⟩ : Sys) | none => s) = _
      rw [hP]; rfl
    obtain ⟨n, hn⟩ := ih (perform x.host ⟨s.fs, tr⟩ o).1 (s.move (.step i)) i x _ (by rw [hm]; exact set_getElem hP)
    refine ⟨n + 1, ?_⟩
    show (s.move (.step i)).run (List.replicate n (.step i)) = _
    rw [hn, hm]
    show Sys.mk _ ((s.procs.set i _).set i _) = _
    rw [List.set_set]
    rfl

/-- C140: a call during which no other process runs, in a system of any processes, is the call of the sequential model, and it ends. -/
theorem C140_alone {s : Sys} {i : Nat} {x : Ctx} {tr : List Event} {t : Trusted} (a : Api) (h : s.procs[i]? = some ⟨x, tr, .idle t⟩) (hp : (a.run x ⟨t, s.fs, tr⟩).1 ≠ .panic) :
    ∃ n, s.run (.call i a :: List.replicate n (.step i)) =
      ⟨(a.run x ⟨t, s.fs, tr⟩).2.world.fs, s.procs.set i ⟨x, (a.run x ⟨t, s.fs, tr⟩).2.world.trace, .idle (a.run x ⟨t, s.fs, tr⟩).2.trusted⟩⟩ := by
  have hm : s.move (.call i a) = ⟨s.fs, s.procs.set i ⟨x, tr, .busy (called x t a)⟩⟩ := by
    show (match s.procs[i]? with | some P => (⟨s.fs, s.procs.set i (P.call a)⟩ : Sys) | none => s) = _
    rw [h]; rfl
  obtain ⟨n, hn⟩ := steps_alone (called x t a) (s.move (.call i a)) i x tr (by rw [hm]; exact set_getElem h)
  refine ⟨n, ?_⟩
  show (s.move (.call i a)).run (List.replicate n (.step i)) = _
  rw [hn, hm, C140_same_code]
  dsimp only
  rw [List.set_set]
  rcases hr : a.run x ⟨t, s.fs, tr⟩ with ⟨r, s'⟩
  rw [hr] at hp
  cases r with
  | ok _ => rfl
  | err _ => rfl
  | panic => exact absurd rfl hp

/-! ## C140: files and trusted sets -/

section
variable {fs : FS} {moves : List Move}

theorem Small.inv_start (R : Nat → Ctx → Trusted → Prop) (X : Ctx → Prop) (F : Str → Prop) : Inv R X F fs (fun _ => none) ⟨fs, []⟩ :=
  ⟨fun i P h => by simp at h, fun _ _ _ h => by (cases h), fun _ _ _ _ _ h => by (cases h), fun _ _ _ => .inl rfl⟩

theorem Small.inv_reached (ht : ∀ p, TargetFile moves p → ¬ TempName p) :
    ∃ own, Inv (fun _ => Reached) (Runs moves) (TargetFile moves) fs own (Sys.run ⟨fs, []⟩ moves) :=
  inv_run (fun _ _ _ h => h) (fun _ _ _ _ h h2 => by obtain ⟨n, T, h0, h1⟩ := h; exact ⟨n, T, h0, h1.trans h2⟩) (fun _ _ _ _ h => h) ht moves (fun _ h => h)
    (fun i tf f u hm x p hX hp => ⟨i, tf, f, u, x, hm, hX, hp⟩) ⟨_, inv_start _ _ _⟩

/-- C140: whatever processes run in whatever order, and wherever they are killed, every file that is neither a temporary file nor the file of a downloaded target holds what it held before the
first process, or one whole document that belongs in the cache under the name of its role. -/
theorem C140_files (ht : ∀ p, TargetFile moves p → ¬ TempName p) (p : Str) (hp : ¬ TempName p) (hq : ¬ TargetFile moves p) :
    (Sys.run ⟨fs, []⟩ moves).fs p = fs p ∨
    ∃ x, Runs moves x ∧ ∃ role data, p = persistPath x.cfg role ∧ (Sys.run ⟨fs, []⟩ moves).fs p = some data ∧ Belongs x role data := by
  obtain ⟨own, h⟩ := inv_reached (fs := fs) ht
  exact h.files p hp hq

/-- C140: the trusted set of a process between calls is one that verified documents lead to from its configured root, whatever other processes do to the cache. -/
theorem C140_trusted (ht : ∀ p, TargetFile moves p → ¬ TempName p) {i : Nat} {x : Ctx} {tr : List Event} {t : Trusted}
    (h : (Sys.run ⟨fs, []⟩ moves).procs[i]? = some ⟨x, tr, .idle t⟩) : Runs moves x ∧ Reached x t := by
  obtain ⟨own, hI⟩ := inv_reached (fs := fs) ht
  exact hI.procs i _ h

/-- C140: from one moment between calls to a later one the trusted set of a process changes by updates with verified documents only. -/
theorem C140_evolves {later : List Move} (ht : ∀ p, TargetFile (moves ++ later) p → ¬ TempName p) {i : Nat} {x x' : Ctx} {tr tr' : List Event} {t t' : Trusted}
    (h : (Sys.run ⟨fs, []⟩ moves).procs[i]? = some ⟨x, tr, .idle t⟩) (h' : (Sys.run ⟨fs, []⟩ (moves ++ later)).procs[i]? = some ⟨x', tr', .idle t'⟩) :
    ClientHistory x'.env t t' := by
  have hX : ∀ y, Runs moves y → Runs (moves ++ later) y := fun y hy => List.mem_append_left _ hy
  have hI : ∃ own, Inv (fun _ => Reached) (Runs (moves ++ later)) (TargetFile (moves ++ later)) fs own (Sys.run ⟨fs, []⟩ moves) :=
    inv_run (fun _ _ _ h => h) (fun _ _ _ _ h h2 => by obtain ⟨n, T, h0, h1⟩ := h; exact ⟨n, T, h0, h1.trans h2⟩) (fun _ _ _ _ h => h) ht moves hX
      (fun i tf f u hm x p hX hp => ⟨i, tf, f, u, x, List.mem_append_left _ hm, hX, hp⟩) ⟨_, inv_start _ _ _⟩
  obtain ⟨own, hI⟩ := hI
  have hlen : i < (Sys.run ⟨fs, []⟩ moves).procs.length := by
    rcases Nat.lt_or_ge i (Sys.run ⟨fs, []⟩ moves).procs.length with h1 | h1
    · exact h1
    · rw [List.getElem?_eq_none h1] at h; cases h
  have hJ : Inv (fun j y u => Reached y u ∧ (j = i → ClientHistory y.env t u)) (Runs (moves ++ later)) (TargetFile (moves ++ later)) fs own (Sys.run ⟨fs, []⟩ moves) := by
    refine ⟨?_, hI.temps, hI.apart, hI.files⟩
    intro j P hP
    obtain ⟨h1, h2⟩ := hI.procs j P hP
    refine ⟨h1, ?_⟩
    by_cases hj : j = i
    · subst hj
      rw [h] at hP
      cases hP
      exact ⟨h2, fun _ => .refl⟩
    · obtain ⟨y, tr1, st⟩ := P
      cases st with
      | idle u => exact ⟨h2, fun hc => absurd hc hj⟩
      | gone => trivial
      | busy p => exact safe_mono h2 (fun o ho u hu => ⟨ho u hu, fun hc => absurd hc hj⟩)
  have hK := inv_run (s := Sys.run ⟨fs, []⟩ moves) (fun _ _ _ h => h.1)
    (fun _ _ _ _ h h2 => by obtain ⟨⟨n, T, h0, h1⟩, h3⟩ := h; exact ⟨⟨n, T, h0, h1.trans h2⟩, fun hj => (h3 hj).trans h2⟩)
    (fun j _ _ hj h => ⟨h, fun hc => by omega⟩) ht later (fun y hy => List.mem_append_right moves hy)
    (fun i tf f u hm x p hX hp => ⟨i, tf, f, u, x, List.mem_append_right _ hm, hX, hp⟩) ⟨_, hJ⟩
  obtain ⟨own', hK⟩ := hK
  have hrun : Sys.run ⟨fs, []⟩ (moves ++ later) = (Sys.run ⟨fs, []⟩ moves).run later := List.foldl_append
  rw [hrun] at h'
  exact (hK.procs i _ h').2.2 rfl

/-- C141 partial: each process by itself is protected, whatever the others do: its timestamp version and the snapshot version that it lists never decrease. What is missing: protection across
processes, which `C141_false` refutes. -/
theorem C141_process_partial {later : List Move} (ht : ∀ p, TargetFile (moves ++ later) p → ¬ TempName p) {i : Nat} {x x' : Ctx} {tr tr' : List Event} {t t' : Trusted}
    (h : (Sys.run ⟨fs, []⟩ moves).procs[i]? = some ⟨x, tr, .idle t⟩) (h' : (Sys.run ⟨fs, []⟩ (moves ++ later)).procs[i]? = some ⟨x', tr', .idle t'⟩)
    {old : Metadata TimestampType} (ho : t.timestamp = some old) : ∃ new, t'.timestamp = some new ∧ (new = old ∨ old.signed.version < new.signed.version) :=
  C13_no_timestamp_rollback (C140_evolves ht h h').history ho

end

/-! ## C142: target files -/

theorem Small.path_of {x : Ctx} {tf : TargetFiles} {given p : Str} (h : targetFilePath x tf given = .ok p) : TargetPath x tf given p := by
  rcases targetFilePath_cases (x := x) tf given with ⟨q, h1, h2⟩ | ⟨⟨e, h1⟩, _⟩
  · rw [h1] at h; cases h; exact h2
  · rw [h1] at h; cases h

/-- C142 partial: whatever other processes do to the file meanwhile, the data that `FindCachedTarget` returns with a path match the target info, and so are never part of a target or a mixture.
What is missing: that a downloaded target stays whole while others download to the same file, see `C142_false`. -/
theorem C142_found_partial {x : Ctx} {tf : TargetFiles} {given path : Str} {data : Bytes} {t t' : Trusted}
    (h : Ends (Small.findCachedTarget x tf given t) (.ok (path, data), t')) (hp : path ≠ []) : TargetPath x tf given path ∧ TargetMatches x.env tf data ∧ t' = t := by
  have hs : Safe x (fun _ => True) (fun _ _ => True) (Post (fun u => u = t) (fun (r : Str × Bytes) _ => r.1 ≠ [] → TargetPath x tf given r.1 ∧ TargetMatches x.env tf r.2)) none
      (Small.findCachedTarget x tf given t) := by
    unfold Small.findCachedTarget
    split
    · exact safe_pure rfl (fun h => absurd rfl h)
    · refine safe_next (safe_lift rfl) ?_
      intro p t1 hT1 h1
      refine safe_next (safe_try (safe_read hT1)) ?_
      intro a t2 hT2 _
      cases a with
      | error e => exact safe_pure hT2 (fun h => absurd rfl h)
      | ok d =>
        dsimp only
        cases hv : tf.verifyLengthHashes x.env d with
        | ok _ => exact safe_pure hT2 (fun _ => ⟨path_of h1.1, targetVerify_ok.1 hv⟩)
        | err _ => exact safe_pure hT2 (fun h => absurd rfl h)
        | panic => exact ⟨rfl, hT2⟩
  obtain ⟨h1, h2⟩ := safe_ends hs h
  exact ⟨(h2 hp).1, (h2 hp).2, h1⟩

/-- C142 partial: likewise the data that `DownloadTarget` returns. -/
theorem C142_downloaded_partial {x : Ctx} {tf : TargetFiles} {given base path : Str} {data : Bytes} {t t' : Trusted}
    (h : Ends (Small.downloadTarget x tf given base t) (.ok (path, data), t')) : TargetPath x tf given path ∧ TargetMatches x.env tf data ∧ t' = t := by
  have hs : Safe x (fun _ => True) (fun _ _ => True) (Post (fun u => u = t) (fun (r : Str × Bytes) _ => TargetPath x tf given r.1 ∧ TargetMatches x.env tf r.2)) none
      (Small.downloadTarget x tf given base t) := by
    unfold Small.downloadTarget
    refine safe_next (safe_lift rfl) ?_
    intro p t1 hT1 h1
    refine safe_next (safe_lift hT1) ?_
    intro b t2 hT2 _
    refine safe_next (safe_get hT2) ?_
    intro t3 t3' hT3 _
    have hp : Safe x (fun _ => True) (fun _ _ => True) (Post (fun u => u = t) (fun _ _ => True)) none ((Small.targetURLPath x t3 tf : Code Trusted Str) t3') := by
      unfold Small.targetURLPath
      split
      · refine safe_next (safe_iterate hT3) ?_
        intro _ t4 hT4 _
        exact safe_pure hT4 trivial
      · exact safe_pure hT3 trivial
    refine safe_next hp ?_
    intro path t4 hT4 _
    refine safe_next (safe_fetch hT4) ?_
    intro d t5 hT5 _
    refine safe_next (safe_lift hT5) ?_
    intro u t6 hT6 h6
    have hst : Safe x (fun _ => True) (fun _ _ => True) (Post (fun u => u = t) (fun _ _ => True)) none ((Small.storeTarget x p d : Code Trusted Unit) t6) := by
      unfold Small.storeTarget
      split
      · exact safe_pure hT6 trivial
      · exact safe_mono (safe_writeFile trivial hT6) (fun _ => post_any)
    refine safe_next hst ?_
    intro _ t7 hT7 _
    exact safe_pure hT7 ⟨path_of h1.1, targetVerify_ok.1 h6.1⟩
  obtain ⟨h1, h2⟩ := safe_ends hs h
  exact ⟨h2.1, h2.2, h1⟩

/-! ## Cases -/

end Tuf

namespace Tuf.Sample
open Small Spec

/-- A server at which everything but the root has version `v`, in front of a host without failures whose temporary names begin at `k`. -/
def sharedCtx (v : UInt8) (k : Nat) : Ctx :=
  ⟨repoEnv, { host with
    tempName := fun tr => some (k + tr.length)
    fetch := fun _ url _ =>
      if url = b!"u/timestamp.json" then .ok [2, v]
      else if url = b!"u/" ++ formatInt 10 v.toNat ++ b!".snapshot.json" then .ok [3, v]
      else if url = b!"u/" ++ formatInt 10 v.toNat ++ b!".targets.json" then .ok [4, v]
      else if url = b!"u/targets/f" then .ok [7, 7]
      else .error (.downloadHTTP 404 url) }, cfg⟩

/-- Steps of one process. -/
def steps (n i : Nat) : List Move := List.replicate n (.step i)

/-- What a process is doing: idle with these versions of timestamp and top-level targets, busy or gone. -/
def seen (s : Sys) (i : Nat) : Option (Option (Option Int × Option Int)) :=
  match s.procs[i]? with
  | some ⟨_, _, .idle t⟩ => some (some (t.timestamp.map (·.signed.version), (t.targets.get? b!"targets").map (·.signed.version)))
  | some ⟨_, _, .busy _⟩ => some none
  | _ => none

/-- Processes 0 and 1, whose server has version 4, are about to move their verified timestamp and snapshot into the cache when process 2, whose server has version 5, refreshes. -/
def sharedBefore : List Move :=
  [.start (sharedCtx 4 0)] ++ steps 8 0 ++ [.start (sharedCtx 4 100)] ++ steps 8 1 ++ [.start (sharedCtx 5 200)] ++ steps 8 2 ++
    [.call 0 .refresh] ++ steps 6 0 ++ [.call 1 .refresh] ++ steps 12 1 ++ [.call 2 .refresh] ++ steps 30 2

/-- Processes 0 and 1 go on, and then a new process, whose server has version 4, refreshes. -/
def sharedAfter : List Move := steps 1 0 ++ steps 1 1 ++ [.start (sharedCtx 4 300)] ++ steps 8 3 ++ [.call 3 .refresh] ++ steps 30 3

/-- The same new process without processes 0 and 1. -/
def sharedAlone : List Move := [.start (sharedCtx 5 200)] ++ steps 8 0 ++ [.call 0 .refresh] ++ steps 30 0 ++ [.start (sharedCtx 4 300)] ++ steps 8 1 ++ [.call 1 .refresh] ++ steps 30 1

/-- What can be seen of the end. -/
def sharedEnd (moves : List Move) : List (Option (Option (Option Int × Option Int))) × List (Option Bytes) :=
  let s := Sys.run ⟨disk [], []⟩ moves
  ([seen s 0, seen s 1, seen s 2, seen s 3], [s.fs b!"m/root.json", s.fs b!"m/timestamp.json", s.fs b!"m/snapshot.json", s.fs b!"m/targets.json"])

/-- Process 0 is killed while its temporary file is there; process 1 is not affected. -/
def sharedKilled : List Move :=
  [.start (sharedCtx 4 0)] ++ steps 8 0 ++ [.call 0 .refresh] ++ steps 5 0 ++ [.kill 0, .start (sharedCtx 5 100)] ++ steps 8 1 ++ [.call 1 .refresh] ++ steps 30 1

end Tuf.Sample

namespace Tuf
open Small Spec Sample

/-- No targets are downloaded in these cases. -/
theorem Small.noTargets {moves : List Move} (h : (moves.all fun m => match m with | .call _ (.downloadTarget ..) => false | _ => true) = true) (p : Str) : ¬ TargetFile moves p := by
  rintro ⟨i, tf, f, u, x, hm, _⟩
  have := List.all_eq_true.1 h _ hm
  cases this

/-- A case of C140: interleaved, killed and alone. In all of them the files are whole documents. -/
theorem C140_example :
    sharedEnd sharedBefore = ([some none, some none, some (some (some 5, some 5)), none], [some [1, 1], some [2, 5], some [3, 5], some [4, 5]]) ∧
    sharedEnd sharedKilled = ([none, some (some (some 5, some 5)), none, none], [some [1, 1], some [2, 5], some [3, 5], some [4, 5]]) ∧
    (∀ p, ¬ TargetFile sharedBefore p) ∧ ∀ p, ¬ TargetFile sharedKilled p :=
  ⟨by decide +kernel, by decide +kernel, noTargets (by decide +kernel), noTargets (by decide +kernel)⟩

/-- A case of `C140_files`: the cached timestamp of the interleaved processes. -/
example : ∃ x, Runs sharedBefore x ∧ ∃ role, b!"m/timestamp.json" = persistPath x.cfg role ∧ Belongs x role [2, 5] := by
  have hn : ∀ p, ¬ TargetFile sharedBefore p := C140_example.2.2.1
  have hf : (Sys.run ⟨disk [], []⟩ sharedBefore).fs b!"m/timestamp.json" = some [2, 5] := by decide +kernel
  have hj : ¬ TempName b!"m/timestamp.json" := json_not_temp b!"m/timestamp"
  rcases C140_files (fs := disk []) (fun p hp => absurd hp (hn p)) b!"m/timestamp.json" hj (hn _) with h | ⟨x, h1, role, data, h2, h3, h4⟩
  · rw [hf] at h; cases h
  · rw [hf] at h3
    cases h3
    exact ⟨x, h1, role, h2, h4⟩

/-- C141 is false without `_partial`: there are processes with one configuration, cache and environment, none of which downloads targets, such that process 2 completes a refresh with timestamp and
targets of version 5, the cache then holds version 5, and a process that is started later completes a refresh with version 4: processes that were slower than process 2 have moved the older documents
that they had verified over the newer ones. -/
theorem C141_false : ∃ (fs : FS) (before later : List Move),
    (∀ x y, Runs (before ++ later) x → Runs (before ++ later) y → x.cfg = y.cfg ∧ x.env = y.env) ∧ (∀ p, ¬ TargetFile (before ++ later) p) ∧
    (∃ x tr t ts tg, (Sys.run ⟨fs, []⟩ before).procs[2]? = some ⟨x, tr, .idle t⟩ ∧ t.timestamp = some ts ∧ ts.signed.version = 5 ∧ t.targets.get? b!"targets" = some tg ∧ tg.signed.version = 5) ∧
    (Sys.run ⟨fs, []⟩ before).procs.length = 3 ∧
    ∃ x tr t ts tg, (Sys.run ⟨fs, []⟩ (before ++ later)).procs[3]? = some ⟨x, tr, .idle t⟩ ∧ t.timestamp = some ts ∧ ts.signed.version = 4 ∧
      t.targets.get? b!"targets" = some tg ∧ tg.signed.version = 4 := by
  have hseen : ∀ (s : Sys) (i : Nat) (v : Int), seen s i = some (some (some v, some v)) →
      ∃ x tr t ts tg, s.procs[i]? = some ⟨x, tr, .idle t⟩ ∧ t.timestamp = some ts ∧ ts.signed.version = v ∧ t.targets.get? b!"targets" = some tg ∧ tg.signed.version = v := by
    intro s i v h
    unfold seen at h
    split at h
    · next x tr t hP =>
      cases h1 : t.timestamp with
      | none => rw [h1] at h; cases h
      | some ts =>
        cases h2 : t.targets.get? b!"targets" with
        | none => rw [h1, h2] at h; cases h
        | some tg =>
          rw [h1, h2] at h
          have h := Option.some.inj (Option.some.inj h)
          exact ⟨x, tr, t, ts, tg, hP, h1, Option.some.inj (congrArg Prod.fst h), h2, Option.some.inj (congrArg Prod.snd h)⟩
    · cases h
    · cases h
  refine ⟨disk [], sharedBefore, sharedAfter, ?_, noTargets (by decide +kernel), hseen _ _ _ (by decide +kernel), by decide +kernel, hseen _ _ _ (by decide +kernel)⟩
  have hrun : ∀ x, Runs (sharedBefore ++ sharedAfter) x → x.cfg = cfg ∧ x.env = repoEnv := by
    intro x hx
    unfold Runs sharedBefore sharedAfter steps at hx
    simp only [List.mem_append, List.mem_replicate, List.mem_cons, List.not_mem_nil, or_false, Move.start.injEq, reduceCtorEq, and_false, false_or] at hx
    rcases hx with ((h | h) | h) | h <;> (rw [h]; exact ⟨rfl, rfl⟩)
  intro x y hx hy
  exact ⟨(hrun x hx).1.trans (hrun y hy).1.symm, (hrun x hx).2.trans (hrun y hy).2.symm⟩

/-- Without the slower processes the later process is protected: it refuses version 4. -/
theorem C141_alone_example : (sharedEnd sharedAlone).1 = [some (some (some 5, some 5)), some (some (some 5, none)), none, none] := by decide +kernel

/-! ## Target files that are mixed -/

namespace Sample

/-- Two versions of a target. -/
def shortTarget : TargetFiles := { length := 2, hashes := some [(b!"sha256", digest [7, 7])], path := b!"f" }
def longTarget : TargetFiles := { length := 3, hashes := some [(b!"sha256", digest [8, 8, 8])], path := b!"f" }

/-- A server of one target. -/
def targetCtx (data : Bytes) (k : Nat) : Ctx :=
  ⟨repoEnv, { host with
    tempName := fun tr => some (k + tr.length)
    fetch := fun _ url _ => if url = b!"u/targets/f" then .ok data else .error (.downloadHTTP 404 url) }, cfg⟩

/-- A download of the target, by a client that has no metadata but its root. -/
def download (data : Bytes) (tf : TargetFiles) (t : Trusted) : Running (Res (Str × Bytes) × Trusted) :=
  ⟨targetCtx data 0, [], Small.downloadTarget (targetCtx data 0) tf b!"t/f" [] t⟩

/-- The first has opened and truncated the file when the second opens, truncates and writes it; then the first writes. -/
def mixedTurns : List Bool := [true, true, false, false, false, true]

/-- What a call has returned. -/
def returned : Running (Res (Str × Bytes) × Trusted) → Option (Str × Bytes)
  | ⟨_, _, .ret (.ok r, _)⟩ => some r
  | _ => none

/-- Both downloads, on an empty disk. -/
def mixed (t : Trusted) : FS × Running (Res (Str × Bytes) × Trusted) × Running (Res (Str × Bytes) × Trusted) :=
  together mixedTurns (disk []) (download [7, 7] shortTarget t) (download [8, 8, 8] longTarget t)

def mixedSeen : Option (Option (Str × Bytes) × Option (Str × Bytes) × Option Bytes) :=
  match Trusted.new repoEnv (host.now []) cfg.localTrustedRoot with
  | .ok t => some (returned (mixed t).2.1, returned (mixed t).2.2, (mixed t).1 b!"t/f")
  | _ => none

end Sample

open Sample in
/-- C142 is false without `_partial`: two clients download different versions of a target to the same file, both calls return data that match and the path of the file, and the file holds the
beginning of the one and the end of the other, which matches neither: targets are not written to a temporary file first. -/
theorem C142_false : ∃ (x y : Ctx) (tf tg : TargetFiles) (given path d e c : Bytes) (t u v : Trusted) (fs : FS) (turns : List Bool),
    Reached x t ∧ Reached y t ∧ x.cfg = y.cfg ∧ x.env = y.env ∧
    (together turns fs ⟨x, [], Small.downloadTarget x tf given [] t⟩ ⟨y, [], Small.downloadTarget y tg given [] t⟩).2.1.rest = .ret (.ok (path, d), u) ∧
    (together turns fs ⟨x, [], Small.downloadTarget x tf given [] t⟩ ⟨y, [], Small.downloadTarget y tg given [] t⟩).2.2.rest = .ret (.ok (path, e), v) ∧
    (together turns fs ⟨x, [], Small.downloadTarget x tf given [] t⟩ ⟨y, [], Small.downloadTarget y tg given [] t⟩).1 path = some c ∧
    TargetMatches x.env tf d ∧ TargetMatches y.env tg e ∧ ¬ TargetMatches x.env tf c ∧ ¬ TargetMatches y.env tg c := by
  have hret : ∀ (c : Running (Res (Str × Bytes) × Trusted)) (r : Str × Bytes), returned c = some r → ∃ u, c.rest = .ret (.ok r, u) := by
    intro c r h
    unfold returned at h
    split at h
    · cases h; exact ⟨_, rfl⟩
    · cases h
  have hm : mixedSeen = some (some (b!"t/f", [7, 7]), some (b!"t/f", [8, 8, 8]), some [7, 7, 8]) := by decide +kernel
  unfold mixedSeen at hm
  split at hm
  · next t ht =>
    simp only [Option.some.injEq, Prod.mk.injEq] at hm
    obtain ⟨h1, h2, h3⟩ := hm
    obtain ⟨u, hu⟩ := hret _ _ h1
    obtain ⟨v, hv⟩ := hret _ _ h2
    refine ⟨targetCtx [7, 7] 0, targetCtx [8, 8, 8] 0, shortTarget, longTarget, b!"t/f", b!"t/f", [7, 7], [8, 8, 8], [7, 7, 8], t, u, v, disk [], mixedTurns,
      ⟨_, t, ht, .refl⟩, ⟨_, t, ht, .refl⟩, rfl, rfl, hu, hv, h3, targetVerify_ok.1 (by decide +kernel), targetVerify_ok.1 (by decide +kernel), fun h => ?_, fun h => ?_⟩
    · exact absurd (targetVerify_ok.2 h) (by decide +kernel)
    · exact absurd (targetVerify_ok.2 h) (by decide +kernel)
  · cases hm

open Sample in
/-- The hypotheses of `C142_found_partial` are met: the file is read whole, and found. -/
theorem C142_found_example (t : Trusted) : Ends (Small.findCachedTarget (targetCtx [7, 7] 0) shortTarget b!"t/f" t) (.ok (b!"t/f", [7, 7]), t) :=
  .op (some [7, 7]) (.ret _)

theorem Small.ends_step {α : Type} {fs : FS} {a : Running α} {r : α} (h : Ends (a.step fs).2.rest r) : Ends a.rest r := by
  unfold Running.step at h
  split at h
  · exact h
  · next he => rw [he]; exact .op _ h

theorem Small.ends_together {α : Type} {r : α} {turns : List Bool} {fs : FS} {a b : Running α} (h : Ends (together turns fs a b).2.1.rest r) : Ends a.rest r := by
  induction turns generalizing fs a b with
  | nil => exact h
  | cons t l ih =>
    cases t with
    | true => exact ends_step (ih h)
    | false => exact ih h

/-- The hypotheses of `C142_downloaded_partial` are met, by the downloads of `C142_false`. -/
theorem C142_downloaded_example : ∃ (x : Ctx) (tf : TargetFiles) (given path d : Bytes) (t u : Trusted), Ends (Small.downloadTarget x tf given [] t) (.ok (path, d), u) := by
  obtain ⟨x, _, tf, _, given, path, d, _, _, t, u, _, _, _, _, _, _, _, h, _⟩ := C142_false
  have he := Ends.ret ((.ok (path, d), u) : Res (Str × Bytes) × Trusted)
  rw [← h] at he
  exact ⟨x, tf, given, path, d, t, u, ends_together he⟩

end Tuf
