import Verif.Spec.Sound
import Verif.Props.Refresh
import Verif.Props.SearchOrder
import Verif.Props.Targets

/-! # What a client may rely on in any state (C82) -/

namespace Tuf
open Spec Sample

theorem authentic_add {env : Env} {t : Trusted} {r role : Str} {m n : Metadata TargetsType} (h : Authentic env t r m)
    (hn : t.targets.get? role = none) : Authentic env { t with targets := t.targets.set role n } r m := by
  have keep : ∀ {a : Str} {b : Metadata TargetsType}, t.targets.get? a = some b → (t.targets.set role n).get? a = some b := by
    intro a b hab
    refine (Entries.get?_set_ne _ _ ?_).trans hab
    rintro rfl
    rw [hn] at hab
    cases hab
  induction h with
  | byRoot h1 h2 => exact .byRoot (keep h1) h2
  | byRole h1 _ h3 ih => exact .byRole (keep h1) ih h3

/-- The invariant is kept by the calls an updater makes. -/
theorem sound_call {env : Env} {t t' : Trusted} {c : Call} (inv : SoundSet env t) (hu : UpdaterCall t c) (hc : Change env t c t') : SoundSet env t' := by
  cases hc with
  | none => exact inv
  | root hr =>
    refine ⟨hr.byNew, ?_, ?_, ?_⟩
    · intro ts h; exact absurd h (by simp [hr.early])
    · intro sn h
      obtain ⟨⟨ts, h3, _⟩, _⟩ := inv.snapshot sn h
      exact absurd h3 (by simp [hr.early])
    · intro role m h
      obtain ⟨⟨_, ts, _, _, h3, _⟩, _⟩ := inv.targets role m h
      exact absurd h3 (by simp [hr.early])
  | timestamp hr =>
    refine ⟨inv.root, ?_, ?_, ?_⟩
    · intro ts h
      cases h
      exact ⟨hr.rootFresh, hr.signed⟩
    · intro sn h; exact absurd h (by simp [hr.early])
    · intro role m h
      obtain ⟨⟨_, _, sn, _, _, h3, _⟩, _⟩ := inv.targets role m h
      exact absurd h3 (by simp [hr.early])
  | snapshot hr =>
    refine ⟨inv.root, inv.timestamp, ?_, ?_⟩
    · intro sn h
      cases h
      obtain ⟨ts, h3, h4, _⟩ := hr.timestamp
      exact ⟨⟨ts, h3, h4⟩, hr.signed⟩
    · intro role m h
      obtain ⟨⟨_, _, _, tg, _, _, h3, _⟩, _⟩ := inv.targets role m h
      exact absurd h3 (by simp [hr.early])
  | @targets data role p new hr =>
    obtain ⟨hnew, hu⟩ := hu
    refine ⟨inv.root, inv.timestamp, inv.snapshot, ?_⟩
    obtain ⟨sn, ts, f, D, h4, h5, h6, h7, h8, h9, h10, h11, h12⟩ := hr.snapshot
    obtain ⟨h13, h14⟩ := inv.timestamp ts h5
    obtain ⟨⟨ts', h15, h16⟩, h17⟩ := inv.snapshot sn h4
    rw [h5] at h15
    cases h15
    have hcomplete : CompleteSet env { t with targets := t.targets.set role new } := by
      rcases hu with ⟨rfl, rfl⟩ | hu
      · have hD : D = .root t.root := by
          cases h11 with
          | root => rfl
          | targets h _ => exact absurd rfl h
        subst hD
        exact ⟨h13, ts, sn, new, h5, h4, Entries.get?_set_self _ _ _, h16, h6, hr.fresh, h14, h17, h12, h7, f, h8, h10.symm⟩
      · obtain ⟨tg, htg⟩ := Option.isSome_iff_exists.1 hu
        obtain ⟨⟨c1, ts', sn', tg', c2, c3, c4, c5⟩, _⟩ := inv.targets _ _ htg
        have hne : b!"targets" ≠ role := by
          rintro rfl
          rw [htg] at hnew
          cases hnew
        exact ⟨c1, ts', sn', tg', c2, c3, (Entries.get?_set_ne _ _ (Ne.symm hne)).trans c4, c5⟩
    intro r m h
    refine ⟨hcomplete, ?_⟩
    by_cases hrr : r = role
    · subst hrr
      have hm : m = new := by
        have : (t.targets.set r new).get? r = some m := h
        rw [Entries.get?_set_self] at this
        exact (Option.some.inj this).symm
      subst hm
      refine ⟨?_, hr.fresh, sn, h4, f, h8, h10.symm⟩
      cases h11 with
      | root => exact .byRoot h h12
      | targets _ hp => exact .byRole h (authentic_add (inv.targets _ _ hp).2.1 hnew) h12
    · have h' : t.targets.get? r = some m := by
        have : (t.targets.set role new).get? r = some m := h
        rwa [Entries.get?_set_ne _ _ (Ne.symm hrr)] at this
      obtain ⟨_, a2, a3, a4⟩ := inv.targets r m h'
      exact ⟨authentic_add a2 hnew, a3, a4⟩

theorem sound_exec {x : Ctx} {P : St → Event → Prop} {s s' : St} (inv : SoundSet x.env s.trusted) (h : Exec x P s s') : SoundSet x.env s'.trusted := by
  induction h with
  | refl => exact inv
  | event e _ _ ih => exact ih
  | call c _ hc ih => exact sound_call ih hc (run_change _ _ c)

/-- C82: after `New` and any API calls with any outcomes, whatever is trusted is authentic, current and consistent. -/
theorem C82_always_sound {x : Ctx} {now : Time} {w : World} {t0 : Trusted} {s : St}
    (h0 : Trusted.new x.env now x.cfg.localTrustedRoot = .ok t0) (hs : Session x ⟨t0, w⟩ s) : SoundSet x.env s.trusted := by
  refine sound_exec ?_ (session_exec hs)
  obtain ⟨_, _, h1, h2, h3, h4, _⟩ := new_root h0
  exact ⟨h1, by simp [h2], by simp [h3], by simp [h4]⟩

/-- Delegated roles are loaded; a later search that fails leaves them. -/
example : (session cyclic [] (getTargetInfo cyclic b!"g")).2.map (fun s => s.trusted.targets.map Prod.fst) = some [b!"p", b!"q", b!"targets"] ∧
    (session unlisted [] (getTargetInfo unlisted b!"g")).1.isOk = false ∧
    (session unlisted [] (getTargetInfo unlisted b!"g")).2.map (fun s => s.trusted.targets.map Prod.fst) = some [b!"targets"] := by decide +kernel

/-! ## C83 -/

/-- C83: bytes returned by `DownloadTarget` or `FindCachedTarget` for an info from `GetTargetInfo` have the length and the hashes that authentic, unexpired metadata
of the current snapshot lists for the requested path. -/
theorem C83_end_to_end {x : Ctx} {now : Time} {w : World} {t0 : Trusted} {s s1 : St} {path : Str} {o : Option TargetFiles}
    (h0 : Trusted.new x.env now x.cfg.localTrustedRoot = .ok t0) (hs : Session x ⟨t0, w⟩ s) (h1 : getTargetInfo x path s = (.ok o, s1)) :
    ∃ tf role m sn, o = some tf ∧ tf.path = path ∧ Authentic x.env s1.trusted role m ∧ Reached x.env s1.trusted path (· = b!"targets") role ∧
      m.signed.targets.get? path = some (some tf) ∧ ¬ Expired m.signed.expires now ∧ s1.trusted.snapshot = some sn ∧
      Lists sn.signed.metas (role ++ b!".json") m.signed.version ∧ CompleteSet x.env s1.trusted ∧
      ∀ s2 s3 given file data, (∃ base, downloadTarget x tf given base s2 = (.ok (file, data), s3)) ∨
        (findCachedTarget x tf given s2 = (.ok (file, data), s3) ∧ file ≠ []) → TargetMatches x.env tf data := by
  obtain ⟨tf, rfl, hp⟩ := C42_path h0 hs h1
  obtain ⟨role, m, a1, a2, a3⟩ := C38_delegation_chain h1
  have hs1 : Session x ⟨t0, w⟩ s1 := by
    have := hs.step (.getTargetInfo path)
    simp only [Api.run, h1] at this
    exact this
  obtain ⟨b1, b2, b3, sn, b4, b5⟩ := (C82_always_sound h0 hs1).targets role m a2
  refine ⟨tf, role, m, sn, rfl, hp, b2, a1, a3, ?_, b4, b5, b1, ?_⟩
  · rwa [C20_reference_time h0 (session_history hs1).history] at b3
  · rintro s2 s3 given file data (⟨base, h⟩ | ⟨h, hne⟩)
    · exact (C43_matching h).1
    · exact (C44_matching h hne).2.2

/-- A target of a delegated role is looked up, downloaded and found again. -/
example :
    let y := { cyclic with host := hostOf (fun url => if url = b!"u/targets/g" then .ok [7, 7] else cyclic.host.fetch [] url 0) }
    (session y [] (lookup y b!"g")).1 = .ok (b!"t/g", [7, 7]) ∧
    fileAt (session y [] (lookup y b!"g")).2 b!"t/g" = some [7, 7] := by decide +kernel

/-! ## C84 -/

/-- The trusted set accepted the bytes as metadata of this top-level role. -/
def AcceptedAs (env : Env) (t : Trusted) (role : Str) (data : Bytes) : Prop :=
  (role = b!"root" ∧ ∃ new, RootAccepted env t data new) ∨ (role = b!"timestamp" ∧ ∃ new, TimestampAccepted env t data new) ∨
  (role = b!"snapshot" ∧ ∃ new, SnapshotAccepted env t data false new)

theorem exec_at {x : Ctx} {P : St → Event → Prop} {a b : St} (h : Exec x P a b) {before : List Event} {e : Event} {after : List Event}
    (ht : b.world.trace = a.world.trace ++ (before ++ e :: after)) :
    ∃ s, ClientHistory x.env s.trusted b.trusted ∧ s.world.fs = replay a.world.fs before ∧ P s e := by
  induction h generalizing after with
  | refl => exact absurd ht (by simp)
  | event e' h hp ih =>
    rename_i s'
    simp only [World.emit] at ht
    rcases List.eq_nil_or_concat after with rfl | ⟨l, last, rfl⟩
    · have h2 : s'.world.trace ++ [e'] = (a.world.trace ++ before) ++ [e] := by rw [ht]; simp
      obtain ⟨h3, h4⟩ := List.append_inj' h2 rfl
      injection h4 with h4
      subst h4
      obtain ⟨evs, h5, h6⟩ := h.events
      have : evs = before := by rw [h3] at h5; exact (List.append_cancel_left h5).symm
      subst this
      exact ⟨s', .refl, h6, hp⟩
    · have h2 : s'.world.trace ++ [e'] = (a.world.trace ++ (before ++ e :: l)) ++ [last] := by rw [ht]; simp
      obtain ⟨h3, _⟩ := List.append_inj' h2 rfl
      exact ih h3
  | call c _ hc ih =>
    obtain ⟨s, h1, h2⟩ := ih ht
    exact ⟨s, .step c h1 hc.client, h2⟩

/-- C84, provided no targets role of that name was loaded: whatever is moved to the cache file of root, timestamp or snapshot was accepted for that role. -/
theorem C84_own_type_partial {x : Ctx} {s s' : St} (h : Session x s s') {before after : List Event} {src role : Str}
    (hr : role ∈ [b!"root", b!"timestamp", b!"snapshot"])
    (ht : s'.world.trace = s.world.trace ++ (before ++ .rename src (joinPath x.cfg.localMetadataDir (role ++ b!".json")) :: after))
    (hn : s'.trusted.targets.get? role = none) :
    ∃ data t, replay s.world.fs before src = some data ∧ History x.env s.trusted t ∧ AcceptedAs x.env t role data := by
  obtain ⟨s1, hh, hfs, hp⟩ := exec_at (session_exec h) ht
  obtain ⟨_, _, role', data, h1, h2, c, t, h3, h4, _, h5⟩ := hp
  have hrole : role = role' := by
    refine persistPath_inj (cfg := x.cfg) ?_
    show joinPath _ (queryEscape role ++ b!".json") = joinPath _ (queryEscape role' ++ b!".json")
    rw [← h1]
    have hq : ∀ r ∈ [b!"root", b!"timestamp", b!"snapshot"], queryEscape r = r := by decide
    rw [hq role hr]
  subst hrole
  refine ⟨data, t, by rw [← hfs]; exact h2, h4.history, ?_⟩
  cases c with
  | root d =>
    obtain ⟨h6, rfl⟩ := h3
    rcases updateRoot_cases x.env t d with ⟨n, a, ha⟩ | ⟨e, a⟩ | a
    · exact .inl ⟨h6, _, ha⟩
    · rw [Call.run, a] at h5; cases h5
    · rw [Call.run, a] at h5; cases h5
  | timestamp d =>
    obtain ⟨h6, rfl⟩ := h3
    rcases updateTimestamp_cases x.env t d with ⟨n, ha, _⟩ | ⟨e, a⟩ | a
    · exact .inr (.inl ⟨h6, _, ha⟩)
    · rw [Call.run, a] at h5; cases h5
    · rw [Call.run, a] at h5; cases h5
  | snapshot d b =>
    obtain ⟨h6, rfl, rfl⟩ := h3
    rcases updateSnapshot_cases x.env t d false with ⟨n, ha, _⟩ | ⟨e, a⟩ | a
    · exact .inr (.inr ⟨h6, _, ha⟩)
    · rw [Call.run, a] at h5; cases h5
    · rw [Call.run, a] at h5; cases h5
  | targets d r p =>
    obtain ⟨rfl, rfl⟩ := h3
    rcases updateTargets_cases x.env t d role p with ⟨n, a, _⟩ | ⟨e, a⟩ | a
    · have hsome : (s1.trusted.targets.get? role).isSome := by
        rw [Call.run, a, Prod.mk.injEq] at h5
        rw [← h5.2]
        exact Option.isSome_iff_exists.2 ⟨n, Entries.get?_set_self _ _ _⟩
      have := history_isSome hh hsome
      rw [hn] at this
      cases this
    · rw [Call.run, a] at h5; cases h5
    · rw [Call.run, a] at h5; cases h5

namespace Sample

/-- `targets` delegates to a role of the given name, and the snapshot lists its hash. -/
def squatter (name : Str) : Ctx :=
  let g := graph [(TARGETS, delegatingDoc [] [delegationJ name b!"a" false b!"*"]), (name, delegatingDoc [(b!"g", targetJ 2)] [])]
  { g with env := { g.env with parse := fun b => match b with
      | [3, 4] => some (doc SNAPSHOT 4 b!"2030" [(b!"meta", .obj [metaJ b!"targets.json" 4,
          (name ++ b!".json", .obj [(b!"version", .num 4), (b!"hashes", .obj [(b!"sha256", .str (hexEncode (digest [9, 1])))])])])])
      | b => g.env.parse b } }

/-- The moves to a file. -/
def movesTo (p : Str) (s : Option St) : Nat :=
  match s with
  | none => 0
  | some s => s.world.trace.countP (fun e => match e with
    | .rename _ q => decide (q = p)
    | _ => false)

end Sample

/-- A search that moves a file for the timestamp, without a targets role of that name. -/
example : movesTo b!"m/timestamp.json" (session cyclic [] (getTargetInfo cyclic b!"g")).2 = 1 ∧
    (session cyclic [] (getTargetInfo cyclic b!"g")).2.map (fun s => s.trusted.targets.get? b!"timestamp" |>.isSome) = some false := by decide +kernel

/-- C84 is false for delegated roles with such names: a successful lookup replaces the cached timestamp by targets metadata, and every later refresh fails; or it
replaces the cached root, which is then no root of trust. -/
theorem C84_false : infoOf (session (squatter TIMESTAMP) [] (getTargetInfo (squatter TIMESTAMP) b!"g")).1 = .ok (some (b!"g", 2)) ∧
    fileAt (session (squatter TIMESTAMP) [] (getTargetInfo (squatter TIMESTAMP) b!"g")).2 b!"m/timestamp.json" = some [9, 1] ∧
    isErr (session (squatter TIMESTAMP) [(b!"m/timestamp.json", [9, 1])] (refresh (squatter TIMESTAMP))).1 = true ∧
    fileAt (session (squatter ROOT) [] (getTargetInfo (squatter ROOT) b!"g")).2 b!"m/root.json" = some [9, 1] ∧
    isErr (Trusted.new (squatter ROOT).env now [9, 1]) = true := by decide +kernel

end Tuf
