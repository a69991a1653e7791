import Verif.Props.SimulatorSteps

/-! # The repository simulator: publishing -/

namespace Tuf
open Tuf.Spec Tuf.Std

section
variable {env : Env} {q : SimEnv} {mat : Nat → Bytes} {e : Time}

/-! ## Root -/

/-- The published roots; the last one is the current one. -/
structure Roots (env : Env) (s : Sim) (l : List PubRoot) : Prop where
  chain : Chain env l
  data : s.signedRoots = l.map PubRoot.data
  last : ∃ p, l.getLast? = some p ∧ p.root = s.root.signed

theorem chain_last {l : List PubRoot} (h : Chain env l) {p : PubRoot} (hp : l.getLast? = some p) : p.root.version = (l.length : Int) := by
  rw [List.getLast?_eq_getElem?] at hp
  have := (h.each _ _ hp).2.2.2
  cases l with
  | nil => simp at hp
  | cons a l =>
    simp only [List.length_cons, Nat.add_sub_cancel] at this ⊢
    omega

theorem next_root (hk : SimKeys env q mat) {s : Sim} (h : Base env q mat e s) {l : List PubRoot} (hc : Chain env l) (hd : s.signedRoots = l.map PubRoot.data) {last : PubRoot}
    (hl : l.getLast? = some last) (hv : last.root.version = s.root.signed.version) (hlen : l.length < 2 ^ 62)
    (hold : ∃ n es, HasKey env mat last.root ROOT n ∧ s.signers.get? ROOT = some es ∧ (sid env mat n, q.fresh n) ∈ es) :
    ∃ s' p, nextRoot q s = (.ok (), s') ∧ Base env q mat e s' ∧ Roots env s' (l ++ [p]) ∧
      s' = { s with root := s'.root, signedRoots := s'.signedRoots, iterations := s'.iterations } := by
  have hv' : wrap64 (s.root.signed.version + 1) = (l.length : Int) + 1 := by
    rw [← hv, chain_last hc hl]
    exact wrap64_of_range (by unfold inInt64; simp only [Bool.and_eq_true, decide_eq_true_eq]; omega)
  have hb : Base env q mat e { s with root := { s.root with signed := { s.root.signed with version := wrap64 (s.root.signed.version + 1) } } } := by
    have hr : RootInv env { s.root.signed with version := wrap64 (s.root.signed.version + 1) } := by
      have := h.root
      exact ⟨this.fields, this.type, this.spec, by
        show inInt64 (wrap64 _) = true
        rw [hv']
        unfold inInt64; simp only [Bool.and_eq_true, decide_eq_true_eq]; omega, this.expires, this.keys, this.roles⟩
    refine { h with root := hr, rootKey := ?_, roleKey := ?_ }
    · obtain ⟨n, es, h1, h2, h3⟩ := h.rootKey
      exact ⟨n, es, h1, ⟨h2.role, h2.key⟩, h3⟩
    · intro role hr
      obtain ⟨n, h1, h2, h3⟩ := h.roleKey role hr
      exact ⟨n, h1, ⟨h2.role, h2.key⟩, h3⟩
  obtain ⟨ss, m, d, p1, p2, p3, p4, p5, p6⟩ := publish_root hk hb
  have hrun : nextRoot q s = _ := p1
  refine ⟨_, ⟨m.signed, ss, d⟩, hrun, ?_, ⟨hc.snoc ?_ ?_ ?_ ?_ ?_, ?_, ⟨_, List.getLast?_concat .., rfl⟩⟩, rfl⟩
  · have hb' := hb
    dsimp only at p2
    refine { hb' with root := ?_, rootFields := p3, consistent := ?_, rootExpires := ?_, rootKey := ?_, roleKey := ?_ }
    · show RootInv env m.signed
      rw [p2]; exact hb.root
    · show m.signed.consistentSnapshot = true
      rw [p2]; exact hb.consistent
    · show m.signed.expires = e
      rw [p2]; exact hb.rootExpires
    · have := hb.rootKey
      dsimp only at this ⊢
      rw [p2]
      exact this
    · have := hb.roleKey
      dsimp only at this ⊢
      rw [p2]
      exact this
  · show GoodRoot (std env) m.signed
    rw [p2]
    exact rootInv_good hb.root
  · show Publishes (std env) m.signed ss d
    rw [p2]
    exact p4
  · obtain ⟨n, es, h1, h2, h3, h4⟩ := hb.rootKey
    dsimp only at p2
    refine suffice_key hk (n := n) (r := m.signed) ?_ (p5 n es h3 h4) p6 rfl
    rw [p2]
    exact h2
  · show m.signed.version = _
    rw [p2]
    exact hv'
  · intro p' hp'
    rw [hl] at hp'
    cases hp'
    obtain ⟨n, es, h1, h2, h3⟩ := hold
    exact suffice_key hk h1 (p5 n es h2 h3) p6 rfl
  · show s.signedRoots ++ [d] = _
    rw [hd, List.map_append]
    rfl

/-! ## Delegations and target files -/

/-- The state after delegations and target files were added. -/
structure SimGrown (env : Env) (q : SimEnv) (mat : Nat → Bytes) (e : Time) (s s' : Sim) : Prop where
  base : Base env q mat e s'
  others : s' = { s with targets := s'.targets, delegates := s'.delegates, signers := s'.signers, files := s'.files, created := s'.created }
  version : s'.targets.signed.version = s.targets.signed.version
  delegates : ∀ role md, s.delegates.get? role = some md → s'.delegates.get? role = some md
  signers : ∀ role ∈ [ROOT, TIMESTAMP, SNAPSHOT, TARGETS], s'.signers.get? role = s.signers.get? role
  created : s.created ≤ s'.created

theorem SimGrown.refl {s : Sim} (h : Base env q mat e s) : SimGrown env q mat e s s := ⟨h, rfl, rfl, fun _ _ h => h, fun _ _ => rfl, Nat.le_refl _⟩

theorem SimGrown.trans {a b c : Sim} (h : SimGrown env q mat e a b) (h' : SimGrown env q mat e b c) : SimGrown env q mat e a c :=
  ⟨h'.base, by rw [h'.others, h.others], h'.version.trans h.version, fun r m hm => h'.delegates r m (h.delegates r m hm), fun r hr => (h'.signers r hr).trans (h.signers r hr),
    Nat.le_trans h.created h'.created⟩

theorem inTurn_grown {α : Type} {f : α → SM Sim Unit} : ∀ {as : List α} {s : Sim}, (∀ a ∈ as, ∀ s, Base env q mat e s → ∃ s', f a s = (.ok (), s') ∧ SimGrown env q mat e s s') →
    Base env q mat e s → ∃ s', inTurn f as s = (.ok (), s') ∧ SimGrown env q mat e s s'
  | [], s, _, h => ⟨s, rfl, .refl h⟩
  | a :: as, s, hf, h => by
    obtain ⟨s1, h1, h2⟩ := hf a (by simp) s h
    obtain ⟨s2, h3, h4⟩ := inTurn_grown (as := as) (fun b hb => hf b (by simp [hb])) h2.base
    exact ⟨s2, by rw [inTurn, SM.bind_ok h1]; exact h3, h2.trans h4⟩

theorem addTarget_grown (hk : SimKeys env q mat) {s : Sim} {f : Str × Bytes} (hf : Utf8 f.1 ∧ f.2.length < 2 ^ 63) (h : Base env q mat e s) :
    ∃ s', Sim.addTarget q TARGETS f.2 f.1 s = (.ok (), s') ∧ SimGrown env q mat e s s' := by
  obtain ⟨es, hes⟩ := h.targetsMap
  have hrun : Sim.addTarget q TARGETS f.2 f.1 s = (.ok (), { s with
      targets := { s.targets with signed := { s.targets.signed with targets := some (es.set f.1 (some (basicFile q.env f.1 f.2))) } }, files := s.files.set f.1 (f.2, basicFile q.env f.1 f.2) }) := by
    unfold Sim.addTarget
    rw [basicFile_made]
    dsimp only
    rw [if_pos rfl, hes]
    rfl
  refine ⟨_, hrun, ⟨?_, rfl, rfl, fun _ _ h => h, fun _ _ => rfl, Nat.le_refl _⟩⟩
  have hst : StoredTarget (std env) (basicFile q.env f.1 f.2) := by
    refine ⟨⟨goodFields_nil _, ?_, List.pairwise_singleton _ _, fun c hc => by cases hc⟩, ?_, ?_⟩
    · show inInt64 (f.2.length : Int) = true
      have := hf.2
      unfold inInt64; simp only [Bool.and_eq_true, decide_eq_true_eq]; omega
    · exact ⟨wholeNil, fun c hc => by cases hc⟩
    · refine ⟨fun e he => ?_, fun c hc => (by cases hc), fieldsText_nil⟩
      rw [List.mem_singleton.1 (show e ∈ [(b!"sha256", q.env.sha256 f.2)] from he)]
      exact ⟨utf8_name (by rfl), trivial⟩
  have ht : TargetsInv env { s.targets.signed with targets := some (es.set f.1 (some (basicFile q.env f.1 f.2))) } := by
    have := h.targets
    have hm := this.targets
    rw [hes] at hm
    exact ⟨this.fields, this.type, this.spec, this.version, this.expires, hm.set hf.1 hst, this.delegations⟩
  exact { h with targets := ht, targetsMap := ⟨_, rfl⟩ }

theorem addDelegation_grown (hk : SimKeys env q mat) {s : Sim} {r : DelegatedRole × TargetsType}
    (hf : r.1.name ∉ [b!"root", b!"timestamp", b!"snapshot", b!"targets"] ∧ Utf8 r.1.name ∧ GoodDelegations (std env) { keys := some [], roles := some [r.1] } ∧
      WholeDelegations { keys := some [], roles := some [r.1] } ∧ DelegationsText 9994 { keys := some [], roles := some [r.1] } ∧ inInt64 r.2.version = true) (h : Base env q mat e s) :
    ∃ s', Sim.addDelegation q TARGETS r.1 r.2 s = (.ok (), s') ∧ SimGrown env q mat e s s' := by
  obtain ⟨f1, f2, f3, f4, f5, f6⟩ := hf
  -- the delegations before the key is added
  obtain ⟨d, hd, hdi, hsr, ⟨ks, hks⟩, ⟨rs, hrs⟩⟩ : ∃ d, s.targets.signed.delegations.getD { keys := some [], roles := some [] } = d ∧ DelegationsInv (std env) d ∧ d.succinctRoles = none ∧
      (∃ ks, d.keys = some ks) ∧ ∃ rs, d.roles = some rs := by
    cases hdd : s.targets.signed.delegations with
    | none =>
      refine ⟨_, rfl, ⟨⟨goodFields_nil _, f3.keys, fun r hr => (by cases hr), fun s hs => (by cases hs), .inr rfl⟩, ⟨wholeNil, f4.2.1, fun r hr => (by cases hr), fun s hs => (by cases hs)⟩,
        ⟨f5.keys, fun r hr => (by cases hr), fun s hs => (by cases hs), fieldsText_nil⟩⟩, rfl, ⟨_, rfl⟩, ⟨_, rfl⟩⟩
    | some d =>
      obtain ⟨h1, h2, h3⟩ := h.delegations d hdd
      exact ⟨d, rfl, h.targets.delegations d hdd, h1, h2, h3⟩
  have hany : (Sim.delegator s TARGETS).delegations.any (fun d => d.succinctRoles.isSome) = false := by
    show s.targets.signed.delegations.any _ = false
    cases hdd : s.targets.signed.delegations with
    | none => rfl
    | some d => show d.succinctRoles.isSome = false; rw [(h.delegations d hdd).1]; rfl
  have hd1 : DelegationsInv (std env) { d with roles := some (rs ++ [r.1]) } := by
    refine ⟨⟨hdi.good.fields, hdi.good.keys, ?_, hdi.good.succinct, .inr hsr⟩, ⟨hdi.whole.1, hdi.whole.2.1, ?_, hdi.whole.2.2.2⟩, ⟨hdi.text.keys, ?_, hdi.text.succinct, hdi.text.fields⟩⟩
    · intro r' hr'
      rcases List.mem_append.1 (show r' ∈ rs ++ [r.1] from hr') with hr' | hr'
      · exact hdi.good.roles r' (by rw [hrs]; exact hr')
      · exact f3.roles r' hr'
    · intro r' hr'
      rcases List.mem_append.1 (show r' ∈ rs ++ [r.1] from hr') with hr' | hr'
      · exact hdi.whole.2.2.1 r' (by rw [hrs]; exact hr')
      · exact f4.2.2.1 r' hr'
    · intro r' hr'
      rcases List.mem_append.1 (show r' ∈ rs ++ [r.1] from hr') with hr' | hr'
      · exact hdi.text.roles r' (by rw [hrs]; exact hr')
      · exact f5.roles r' hr'
  have ht1 := targetsInv_withDelegations h.targets hd1
  have hid : (edPlain (mat s.created)).ID (std env) = .ok (sid env mat s.created, edFiled (std env) (mat s.created)) := edPlain_id
  obtain ⟨rs', ks', ha, _⟩ := C59_add_to_role (std env) { s.targets.signed with delegations := some { d with roles := some (rs ++ [r.1]) } } _ _ ks _ _ r.1.name _ rfl rfl hks hid ⟨r.1, by simp, rfl⟩
  have ht2 := targetsInv_run ht1 (e := .add (edPlain (mat s.created)) r.1.name) (fineKey_ed (mat s.created) 9994)
  simp only [TargetsEdit.run] at ht2
  rw [ha] at ht2
  let s1 : Sim := { s with
    created := s.created + 1
    targets := { s.targets with signed := { s.targets.signed with delegations := some { d with roles := some rs', keys := some ks' } } }
    signers := s.signers.set r.1.name (((s.signers.get? r.1.name).getD []).set (sid env mat s.created) (q.fresh s.created)) }
  have hrun : Sim.addDelegation q TARGETS r.1 r.2 s = (.ok (), if (s1.delegates.get? r.1.name).isSome then s1 else { s1 with delegates := s1.delegates.set r.1.name { signed := r.2 } }) := by
    unfold Sim.addDelegation
    dsimp only
    rw [hany, if_neg (by decide), createKey_eq hk s]
    dsimp only
    rw [hk.same, hid, show (Sim.delegator s TARGETS).delegations = s.targets.signed.delegations from rfl, hd, hrs]
    have : ({ Sim.delegator s TARGETS with delegations := some { d with roles := some (Slice.elems (some rs) ++ [r.1]) } } : TargetsType) =
      { s.targets.signed with delegations := some { d with roles := some (rs ++ [r.1]) } } := rfl
    rw [this, ha]
    rfl
  have hne : ∀ role ∈ [ROOT, TIMESTAMP, SNAPSHOT, TARGETS], role ≠ r.1.name := by
    rintro role hr rfl
    exact f1 hr
  have hsig : ∀ role ∈ [ROOT, TIMESTAMP, SNAPSHOT, TARGETS], s1.signers.get? role = s.signers.get? role := fun role hr => Entries.get?_set_ne _ _ (Ne.symm (hne role hr))
  have b1 : Base env q mat e s1 := by
    refine { h with targets := ht2, rootKey := ?_, roleKey := ?_, signers := ?_, delegations := ?_ }
    · obtain ⟨n, es, h1, h2, h3, h4⟩ := h.rootKey
      exact ⟨n, es, Nat.lt_succ_of_lt h1, h2, by rw [hsig _ (by simp)]; exact h3, h4⟩
    · intro role hr
      obtain ⟨n, h1, h2, h3⟩ := h.roleKey role hr
      exact ⟨n, Nat.lt_succ_of_lt h1, h2, by rw [hsig _ (List.mem_cons_of_mem _ hr)]; exact h3⟩
    · intro role es hg
      by_cases hr : r.1.name = role
      · subst hr
        have hg : (Entries.set s.signers r.1.name _).get? r.1.name = some es := hg
        rw [Entries.get?_set_self] at hg
        cases hg
        have hold : Entries.Sorted ((s.signers.get? r.1.name).getD []) ∧ ∀ x ∈ (s.signers.get? r.1.name).getD [], ∃ n, n < s.created ∧ x = (sid env mat n, q.fresh n) := by
          cases ho : s.signers.get? r.1.name with
          | none => exact ⟨.nil, fun x hx => by cases hx⟩
          | some es => exact h.signers _ es ho
        refine ⟨hold.1.set _ _, fun x hx => ?_⟩
        rcases Entries.mem_set hx with hx | hx
        · exact ⟨s.created, Nat.lt_succ_self _, hx⟩
        · obtain ⟨n, h1, h2⟩ := hold.2 x hx
          exact ⟨n, Nat.lt_succ_of_lt h1, h2⟩
      · have hg : (Entries.set s.signers r.1.name _).get? role = some es := hg
        rw [Entries.get?_set_ne _ _ hr] at hg
        obtain ⟨h1, h2⟩ := h.signers role es hg
        refine ⟨h1, fun x hx => ?_⟩
        obtain ⟨n, h3, h4⟩ := h2 x hx
        exact ⟨n, Nat.lt_succ_of_lt h3, h4⟩
    · intro d' hd'
      cases hd'
      exact ⟨hsr, ⟨_, rfl⟩, ⟨_, rfl⟩⟩
  refine ⟨_, hrun, ?_⟩
  cases hex : s.delegates.get? r.1.name with
  | some md =>
    rw [if_pos (by rfl : (some md).isSome = true)]
    exact ⟨b1, rfl, rfl, fun _ _ h => h, hsig, Nat.le_succ _⟩
  | none =>
    rw [if_neg (by simp)]
    have hkeep : ∀ role md, s.delegates.get? role = some md → (s1.delegates.set r.1.name { signed := r.2 }).get? role = some md := by
      intro role md hm
      rw [Entries.get?_set_ne _ _ (by rintro rfl; rw [hex] at hm; cases hm)]
      exact hm
    refine ⟨?_, rfl, rfl, hkeep, hsig, Nat.le_succ _⟩
    refine { b1 with delegates := ?_, listed := ?_, delegatesSorted := Entries.Sorted.set h.delegatesSorted _ _ }
    · intro role md hm
      by_cases hr : r.1.name = role
      · subst hr
        have hm : (Entries.set s1.delegates r.1.name { signed := r.2 }).get? r.1.name = some md := hm
        rw [Entries.get?_set_self] at hm
        cases hm
        exact ⟨f1, f2, f6⟩
      · have hm : (Entries.set s1.delegates r.1.name { signed := r.2 }).get? role = some md := hm
        rw [Entries.get?_set_ne _ _ hr] at hm
        exact h.delegates role md hm
    · intro name f hn
      rcases h.listed name f hn with hl | ⟨role, md, h1, h2, h3⟩
      · exact .inl hl
      · exact .inr ⟨role, md, h1, hkeep role md h2, h3⟩

/-! ## Entries of snapshot and timestamp -/

/-- The data of a result, nothing for errors. -/
def dataOf : Res Bytes → Bytes
  | .ok d => d
  | _ => []

/-- The entry has no length and hashes, or those of the data. -/
def IsEntry (env : Env) (r : Res Bytes) (f : MetaFiles) : Prop :=
  (f.length = 0 ∧ f.hashes.entries = []) ∨ (f.length = ((dataOf r).length : Int) ∧ f.hashes = some [(b!"sha256", env.sha256 (dataOf r))])

theorem payload_np_targets (a : TargetsType) : payload a ≠ .panic := AnyMeta.payload_np (.targets { signed := a })
theorem payload_np_snapshot (a : SnapshotType) : payload a ≠ .panic := AnyMeta.payload_np (.snapshot { signed := a })

/-- What the entry is for. -/
def Fits (s : Sim) (x : Str × Int) : Prop := (x.1 = TARGETS ∧ x.2 = s.targets.signed.version) ∨ ∃ md, s.delegates.get? x.1 = some md ∧ x.2 = md.signed.version

theorem fits_same {s s' : Sim} (h : Same s s') {x : Str × Int} (hx : Fits s x) : Fits s' x := by
  unfold Fits at hx ⊢
  rw [h.targets.1, h.delegates]
  exact hx

theorem fetch_np (hk : SimKeys env q mat) {s : Sim} (h : Base env q mat e s) {role : Str} (hr : role = SNAPSHOT ∨ role = TARGETS ∨ ∃ md, s.delegates.get? role = some md) :
    (Sim.fetchMetadata q role (-1) s).1 ≠ .panic := by
  have hw : ∀ role, ∀ x ∈ (s.signers.get? role).getD [], Works q.env x.2 := by
    intro role x hx
    cases hs : s.signers.get? role with
    | none => rw [hs] at hx; cases hx
    | some es =>
      rw [hs] at hx
      obtain ⟨n, _, rfl⟩ := (h.signers role es hs).2 x hx
      exact simKeys_works hk n
  obtain ⟨_, e2, e3⟩ := fetch_top q (-1) s
  rcases hr with rfl | rfl | ⟨md, hmd⟩
  · rw [e2]
    exact signFor_panics q _ _ _ (fun m s => { s with snapshot := m }) (hw SNAPSHOT) (payload_np_snapshot _)
  · rw [e3]
    exact signFor_panics q _ _ _ (fun m s => { s with targets := m }) (hw TARGETS) (payload_np_targets _)
  · rw [fetch_delegated q (h.delegates role md hmd).1, hmd]
    exact signFor_panics q _ _ _ (fun _ => id) (hw role) (payload_np_targets _)

theorem entryFor_eq (hk : SimKeys env q mat) {s : Sim} (h : Base env q mat e s) {role : Str} (hr : role = SNAPSHOT ∨ role = TARGETS ∨ ∃ md, s.delegates.get? role = some md) {v : Int}
    (hv : inInt64 v = true) : ∃ f s', Sim.entryFor q role v s = (.ok f, s') ∧ Same s s' ∧ f.version = v ∧ LooseMeta f ∧ IsEntry q.env (Sim.fetchMetadata q role (-1) s).1 f := by
  unfold Sim.entryFor
  rw [get_bind]
  split
  · have hf := fetch_np hk h hr
    have hs := fetch_same q role (-1) s
    have hc : Sim.computeHashesAndLength q role s =
        (.ok (some [(b!"sha256", q.env.sha256 (dataOf (Sim.fetchMetadata q role (-1) s).1))], ((dataOf (Sim.fetchMetadata q role (-1) s).1).length : Int)), (Sim.fetchMetadata q role (-1) s).2) := by
      unfold Sim.computeHashesAndLength
      cases hm : Sim.fetchMetadata q role (-1) s with
      | mk r s1 =>
        rw [hm] at hf
        cases r with
        | ok d => rw [SM.bind_ok (SM.try_ok hm)]; rfl
        | err e => rw [SM.bind_ok (SM.try_err hm)]; rfl
        | panic => exact absurd rfl hf
    rw [SM.bind_ok hc]
    refine ⟨_, _, rfl, hs, rfl, ⟨rfl, Int.natCast_nonneg _, hv, List.pairwise_singleton _ _, fun e he => ?_⟩, .inr ⟨rfl, rfl⟩⟩
    rw [List.mem_singleton.1 (show e ∈ [(b!"sha256", q.env.sha256 (dataOf (Sim.fetchMetadata q role (-1) s).1))] from he)]
    exact utf8_name (by rfl)
  · exact ⟨_, s, rfl, .refl s, rfl, ⟨rfl, Int.le_refl _, hv, List.Pairwise.nil, fun e he => by cases he⟩, .inl ⟨rfl, rfl⟩⟩

/-- The snapshot with other entries. -/
def withMetas (s : Sim) (es : Entries (Option MetaFiles)) : Sim := { s with snapshot := { s.snapshot with signed := { s.snapshot.signed with metas := some es } } }

theorem withMetas_same {s s' : Sim} (h : Same s s') (es : Entries (Option MetaFiles)) : Same (withMetas s es) (withMetas s' es) := by
  obtain ⟨h1, h2, h3, h4, h5, h6, h7, h8, h9, ⟨h10, h10'⟩, h11, h12⟩ := h
  refine ⟨h1, h2, h3, h4, h5, h6, h7, h8, h9, ⟨?_, h10'⟩, h11, h12⟩
  show ({ s'.snapshot.signed with metas := some es } : SnapshotType) = { s.snapshot.signed with metas := some es }
  rw [h10]

theorem base_metas {s : Sim} (h : Base env q mat e s) {es : Entries (Option MetaFiles)} (h1 : FineMap LooseMeta (some es)) (h2 : ∀ name f, es.get? name = some (some f) → Listed s name f) :
    Base env q mat e (withMetas s es) := { h with snapshotMetas := h1, snapshotMap := ⟨es, rfl⟩, listed := h2 }

/-- The top-level targets are listed in the snapshot. -/
def TargetsListed (env : Env) (s : Sim) (es : Entries (Option MetaFiles)) : Prop :=
  ∃ x f, s.signers.get? TARGETS = some [x] ∧ es.get? b!"targets.json" = some (some f) ∧ f.version = s.targets.signed.version ∧ IsEntry env (docBytes env [x.2] s.targets.signed) f

/-- No name disappears, and no version gets smaller. -/
def NewerEntries (es es' : Entries (Option MetaFiles)) : Prop := ∀ name f, es.get? name = some (some f) → ∃ f', es'.get? name = some (some f') ∧ f.version ≤ f'.version

theorem fetch_targets {s : Sim} {x : Str × Signer} (hx : s.signers.get? TARGETS = some [x]) (hu : s.targets.unrec = []) (v : Int) :
    (Sim.fetchMetadata q TARGETS v s).1 = docBytes q.env [x.2] s.targets.signed := by
  rw [(fetch_top q v s).2.2]
  exact signFor_result q TARGETS s.targets _ (fun m s => { s with targets := m }) hx hu

theorem fetch_snapshot {s : Sim} {x : Str × Signer} (hx : s.signers.get? SNAPSHOT = some [x]) (hu : s.snapshot.unrec = []) (v : Int) :
    (Sim.fetchMetadata q SNAPSHOT v s).1 = docBytes q.env [x.2] s.snapshot.signed := by
  rw [(fetch_top q v s).2.1]
  exact signFor_result q SNAPSHOT s.snapshot _ (fun m s => { s with snapshot := m }) hx hu

theorem fetch_timestamp {s : Sim} {x : Str × Signer} (hx : s.signers.get? TIMESTAMP = some [x]) (hu : s.timestamp.unrec = []) (v : Int) :
    (Sim.fetchMetadata q TIMESTAMP v s).1 = docBytes q.env [x.2] s.timestamp.signed := by
  rw [(fetch_top q v s).1]
  exact signFor_result q TIMESTAMP s.timestamp _ (fun m s => { s with timestamp := m }) hx hu

theorem json_inj {a b : Str} (h : a ++ b!".json" = b ++ b!".json") : a = b := List.append_cancel_right h

theorem utf8_json {a : Str} (h : Utf8 a) : Utf8 (a ++ b!".json") := utf8_append h (utf8_name (by rfl))

theorem listAll_eq (hk : SimKeys env q mat) : ∀ {xs : List (Str × Int)} {s : Sim} {es : Entries (Option MetaFiles)}, Base env q mat e s → s.snapshot.signed.metas = some es → (∀ x ∈ xs, Fits s x) →
    ∃ es' s', Sim.listAll q xs s = (.ok (), s') ∧ Same (withMetas s es') s' ∧ Base env q mat e s' ∧ NewerEntries es es' ∧
      ((∃ x ∈ xs, x.1 = TARGETS) ∨ TargetsListed q.env s es → TargetsListed q.env s es')
  | [], s, es, h, hes, _ => by
    refine ⟨es, s, rfl, ?_, h, fun _ f hf => ⟨f, hf, Int.le_refl _⟩, ?_⟩
    · have : withMetas s es = s := by
        unfold withMetas
        rw [← hes]
      rw [this]
      exact .refl s
    · rintro (⟨x, hx, _⟩ | h)
      · cases hx
      · exact h
  | x :: xs, s, es, h, hes, hxs => by
    have hx := hxs x (by simp)
    have hv : inInt64 x.2 = true := by
      rcases hx with ⟨_, hv⟩ | ⟨md, h1, hv⟩
      · rw [hv]; exact h.targets.version
      · rw [hv]; exact (h.delegates _ _ h1).2.2
    have hu : Utf8 x.1 := by
      rcases hx with ⟨hu, _⟩ | ⟨md, h1, _⟩
      · rw [hu]; exact top_utf8 (by simp)
      · exact (h.delegates _ _ h1).2.1
    obtain ⟨f, s1, r1, r2, r3, r4, r5⟩ := entryFor_eq hk h (role := x.1) (v := x.2)
      (hx.elim (fun h1 => .inr (.inl h1.1)) fun ⟨md, h1, _⟩ => .inr (.inr ⟨md, h1⟩)) hv
    have b1 := h.same r2
    have hes1 : s1.snapshot.signed.metas = some es := by rw [r2.snapshot.1]; exact hes
    have hm := h.snapshotMetas
    rw [hes] at hm
    have hlist : ∀ name g, (es.set (x.1 ++ b!".json") (some f)).get? name = some (some g) → Listed s name g := by
      intro name g hg
      by_cases hn : x.1 ++ b!".json" = name
      · subst hn
        rw [Entries.get?_set_self] at hg
        cases hg
        rcases hx with ⟨h1, h2⟩ | ⟨md, h1, h2⟩
        · exact .inl ⟨by rw [h1], by rw [r3, h2]; exact Int.le_refl _⟩
        · exact .inr ⟨x.1, md, rfl, h1, by rw [r3, h2]⟩
      · rw [Entries.get?_set_ne _ _ hn] at hg
        exact h.listed name g (by rw [hes]; exact hg)
    have b2 : Base env q mat e (withMetas s1 (es.set (x.1 ++ b!".json") (some f))) := (base_metas h (hm.set (utf8_json hu) r4) hlist).same (withMetas_same r2 _)
    obtain ⟨es', s', k1, k2, k3, k4, k5⟩ := listAll_eq hk (xs := xs) (s := withMetas s1 (es.set (x.1 ++ b!".json") (some f))) (es := es.set (x.1 ++ b!".json") (some f)) b2 rfl
      (fun y hy => fits_same r2 (hxs y (by simp [hy])))
    refine ⟨es', s', ?_, ?_, k3, ?_, ?_⟩
    · show (Sim.entryFor q x.1 x.2 >>= _) s = _
      rw [SM.bind_ok r1]
      refine (SM.bind_ok (s1 := withMetas s1 (es.set (x.1 ++ b!".json") (some f))) (a := ()) ?_).trans k1
      rw [hes1]
      rfl
    · exact (withMetas_same r2 es').trans k2
    · intro name g hg
      by_cases hn : x.1 ++ b!".json" = name
      · subst hn
        obtain ⟨f', h1, h2⟩ := k4 _ f (Entries.get?_set_self _ _ _)
        refine ⟨f', h1, Int.le_trans ?_ h2⟩
        rw [r3]
        rcases h.listed _ g (by rw [hes]; exact hg) with ⟨l1, l2⟩ | ⟨role, md, l1, l2, l3⟩
        · have l1 := json_inj l1
          rcases hx with ⟨_, hx⟩ | ⟨md, hx, _⟩
          · rw [hx]; exact l2
          · exact absurd (by rw [l1]; simp) (h.delegates _ _ hx).1
        · have l1 := json_inj l1
          rcases hx with ⟨hx, _⟩ | ⟨md', hx, hx2⟩
          · rw [← l1, hx] at l2
            exact absurd (by simp) (h.delegates _ _ l2).1
          · rw [← l1, hx] at l2
            cases l2
            rw [hx2, l3]
            exact Int.le_refl _
      · exact k4 name g (by rw [Entries.get?_set_ne _ _ hn]; exact hg)
    · intro ht
      have hs1 : ∀ es0 : Entries (Option MetaFiles), TargetsListed q.env (withMetas s1 es0) es' → TargetsListed q.env s es' := by
        rintro es0 ⟨y, g, g1, g2, g3, g4⟩
        refine ⟨y, g, ?_, g2, ?_, ?_⟩
        · rw [← r2.signers]; exact g1
        · rw [g3]; show s1.targets.signed.version = _; rw [r2.targets.1]
        · rw [← r2.targets.1]; exact g4
      refine hs1 _ (k5 ?_)
      by_cases hT : x.1 = TARGETS
      · right
        obtain ⟨n, _, _, hsig⟩ := h.roleKey TARGETS (by simp)
        refine ⟨_, f, by show s1.signers.get? TARGETS = _; rw [r2.signers]; exact hsig, by rw [hT]; exact Entries.get?_set_self _ _ _, ?_, ?_⟩
        · show f.version = s1.targets.signed.version
          rw [r2.targets.1, r3]
          rcases hx with ⟨_, hx⟩ | ⟨md, hx, _⟩
          · exact hx
          · exact absurd (by rw [hT]; simp) (h.delegates _ _ hx).1
        · show IsEntry q.env (docBytes q.env _ s1.targets.signed) f
          rw [r2.targets.1, ← fetch_targets hsig h.targetsFields (-1), ← hT]
          exact r5
      · rcases ht with ⟨y, hy, hyt⟩ | ⟨y, g, g1, g2, g3, g4⟩
        · rcases List.mem_cons.1 hy with rfl | hy
          · exact absurd hyt hT
          · exact .inl ⟨y, hy, hyt⟩
        · refine .inr ⟨y, g, by show s1.signers.get? TARGETS = _; rw [r2.signers]; exact g1, ?_, ?_, ?_⟩
          · exact (Entries.get?_set_ne _ _ (fun hc => hT (json_inj (b := TARGETS) hc))).trans g2
          · show g.version = s1.targets.signed.version
            rw [r2.targets.1]; exact g3
          · show IsEntry q.env (docBytes q.env _ s1.targets.signed) g
            rw [r2.targets.1]; exact g4

/-- All but snapshot and timestamp stays, except for signatures. -/
structure SimKeeps (s s' : Sim) : Prop where
  delegates : s'.delegates = s.delegates
  signedRoots : s'.signedRoots = s.signedRoots
  signers : s'.signers = s.signers
  computeHashes : s'.computeHashes = s.computeHashes
  localDir : s'.localDir = s.localDir
  created : s'.created = s.created
  targets : s'.targets.signed = s.targets.signed
  root : s'.root = s.root

theorem Same.keeps {s s' : Sim} (h : Same s s') : SimKeeps s s' := ⟨h.delegates, h.signedRoots, h.signers, h.computeHashes, h.localDir, h.created, h.targets.1, h.root⟩

theorem SimKeeps.trans {a b c : Sim} (h : SimKeeps a b) (h' : SimKeeps b c) : SimKeeps a c :=
  ⟨h'.delegates.trans h.delegates, h'.signedRoots.trans h.signedRoots, h'.signers.trans h.signers, h'.computeHashes.trans h.computeHashes, h'.localDir.trans h.localDir,
    h'.created.trans h.created, h'.targets.trans h.targets, h'.root.trans h.root⟩

/-- The snapshot is listed in the timestamp. -/
def SnapshotListed (env : Env) (s : Sim) : Prop :=
  ∃ x f, s.signers.get? SNAPSHOT = some [x] ∧ s.timestamp.signed.metas.get? b!"snapshot.json" = some (some f) ∧ f.version = s.snapshot.signed.version ∧
    IsEntry env (docBytes env [x.2] s.snapshot.signed) f

theorem sim_bump {v : Int} (h : 1 ≤ v ∧ v < 2 ^ 62) : wrap64 (v + 1) = v + 1 ∧ inInt64 (v + 1) = true := by
  have : inInt64 (v + 1) = true := by unfold inInt64; simp only [Bool.and_eq_true, decide_eq_true_eq]; omega
  exact ⟨wrap64_of_range this, this⟩

theorem update_timestamp (hk : SimKeys env q mat) {s : Sim} (h : Base env q mat e s) (hv : 1 ≤ s.timestamp.signed.version ∧ s.timestamp.signed.version < 2 ^ 62) :
    ∃ s', Sim.updateTimestamp q s = (.ok (), s') ∧ Base env q mat e s' ∧ SimKeeps s s' ∧ s'.snapshot.signed = s.snapshot.signed ∧ SnapshotListed q.env s' ∧
      s'.timestamp.signed.version = s.timestamp.signed.version + 1 := by
  obtain ⟨f, s1, r1, r2, r3, r4, r5⟩ := entryFor_eq hk h (.inl rfl) (v := s.snapshot.signed.version) h.snapshot.version
  obtain ⟨es, hes⟩ := h.timestampMap
  obtain ⟨n, _, _, hsig⟩ := h.roleKey SNAPSHOT (by simp)
  have b1 := h.same r2
  have hes1 : s1.timestamp.signed.metas = some es := by rw [r2.timestamp.1]; exact hes
  have hv1 : s1.timestamp.signed.version = s.timestamp.signed.version := by rw [r2.timestamp.1]
  have hrun : Sim.updateTimestamp q s = (.ok (), { s1 with
      timestamp := { s1.timestamp with signed := { s1.timestamp.signed with metas := some (es.set b!"snapshot.json" (some f)), version := wrap64 (s1.timestamp.signed.version + 1) } } }) := by
    unfold Sim.updateTimestamp
    rw [get_bind]
    rw [SM.bind_ok r1]
    dsimp only
    rw [hes1]
    rfl
  obtain ⟨w1, w2⟩ := sim_bump hv
  refine ⟨_, hrun, ?_, ?_, ?_, ?_, ?_⟩
  · have ht := b1.timestamp
    have hm := b1.timestampMetas
    rw [hes1] at hm
    refine { b1 with
      timestamp := ⟨ht.fields, ht.type, ht.spec, ?_, ht.expires, ht.metas⟩
      timestampMetas := hm.set (utf8_name (by rfl)) r4
      timestampMap := ⟨_, rfl⟩ }
    show inInt64 (wrap64 (s1.timestamp.signed.version + 1)) = true
    rw [hv1, w1]
    exact w2
  · exact ⟨r2.delegates, r2.signedRoots, r2.signers, r2.computeHashes, r2.localDir, r2.created, r2.targets.1, r2.root⟩
  · exact r2.snapshot.1
  · refine ⟨_, f, by show s1.signers.get? SNAPSHOT = _; rw [r2.signers]; exact hsig, Entries.get?_set_self _ _ _, ?_, ?_⟩
    · show f.version = s1.snapshot.signed.version
      rw [r2.snapshot.1]
      exact r3
    · show IsEntry q.env (docBytes q.env _ s1.snapshot.signed) f
      rw [r2.snapshot.1, ← fetch_snapshot hsig h.snapshotFields (-1)]
      exact r5
  · show wrap64 (s1.timestamp.signed.version + 1) = _
    rw [hv1, w1]

theorem update_snapshot (hk : SimKeys env q mat) {s : Sim} (h : Base env q mat e s) (hv : 1 ≤ s.timestamp.signed.version ∧ s.timestamp.signed.version < 2 ^ 62)
    (hv' : 1 ≤ s.snapshot.signed.version ∧ s.snapshot.signed.version < 2 ^ 62) :
    ∃ s', Sim.updateSnapshot q s = (.ok (), s') ∧ Base env q mat e s' ∧ SimKeeps s s' ∧ SnapshotListed q.env s' ∧ TargetsListed q.env s' s'.snapshot.signed.metas.entries ∧
      s'.timestamp.signed.version = s.timestamp.signed.version + 1 ∧ s'.snapshot.signed.version = s.snapshot.signed.version + 1 ∧
      NewerEntries s.snapshot.signed.metas.entries s'.snapshot.signed.metas.entries := by
  obtain ⟨rs, h1, h2⟩ := iterate_eq q (s.delegates.map (fun e => (e.1, e.2.signed.version))) s
  let s1 : Sim := { s with iterations := s.iterations + 1 }
  have hs1 : Same s s1 := ⟨rfl, rfl, rfl, rfl, rfl, rfl, rfl, rfl, ⟨rfl, rfl⟩, ⟨rfl, rfl⟩, ⟨rfl, rfl⟩, rfl⟩
  obtain ⟨es, hes⟩ := h.snapshotMap
  obtain ⟨es', s2, k1, k2, k3, k4, k5⟩ := listAll_eq hk (xs := (TARGETS, s.targets.signed.version) :: rs) (h.same hs1) (show s1.snapshot.signed.metas = some es from hes) (by
    intro x hx
    rcases List.mem_cons.1 hx with rfl | hx
    · exact .inl ⟨rfl, rfl⟩
    · obtain ⟨y, hy, rfl⟩ := List.mem_map.1 (h1.mem_iff.1 hx)
      exact .inr ⟨y.2, Entries.get?_of_mem h.delegatesSorted.nodup hy, rfl⟩)
  have e1 : s2.snapshot.signed = { s.snapshot.signed with metas := some es' } := k2.snapshot.1
  obtain ⟨w1, w2⟩ := sim_bump hv'
  have b3 : Base env q mat e { s2 with snapshot := { s2.snapshot with signed := { s2.snapshot.signed with version := wrap64 (s2.snapshot.signed.version + 1) } } } := by
    have ht := k3.snapshot
    refine { k3 with snapshot := ⟨ht.fields, ht.type, ht.spec, ?_, ht.expires, ht.metas⟩ }
    show inInt64 (wrap64 (s2.snapshot.signed.version + 1)) = true
    rw [e1]
    show inInt64 (wrap64 (s.snapshot.signed.version + 1)) = true
    rw [w1]
    exact w2
  obtain ⟨s3, u1, u2, u3, u4, u5, u6⟩ := update_timestamp hk b3 (by
    show 1 ≤ s2.timestamp.signed.version ∧ s2.timestamp.signed.version < 2 ^ 62
    rw [show s2.timestamp.signed = s.timestamp.signed from k2.timestamp.1]
    exact hv)
  have hk2 : SimKeeps s s2 := hs1.keeps.trans ((⟨rfl, rfl, rfl, rfl, rfl, rfl, rfl, rfl⟩ : SimKeeps s1 (withMetas s1 es')).trans k2.keeps)
  have hk3 : SimKeeps s s3 := hk2.trans ((⟨rfl, rfl, rfl, rfl, rfl, rfl, rfl, rfl⟩ :
    SimKeeps s2 { s2 with snapshot := { s2.snapshot with signed := { s2.snapshot.signed with version := wrap64 (s2.snapshot.signed.version + 1) } } }).trans u3)
  have e3 : s3.snapshot.signed.metas = some es' := by
    rw [u4]
    show s2.snapshot.signed.metas = _
    rw [e1]
  refine ⟨s3, ?_, u2, hk3, u5, ?_, ?_, ?_, ?_⟩
  · unfold Sim.updateSnapshot
    rw [get_bind, SM.bind_ok h2, get_bind]
    rw [show ((s1.targets.signed.type, s1.targets.signed.version) : Str × Int) = (TARGETS, s.targets.signed.version) by rw [show s1.targets.signed.type = TARGETS from h.targets.type]]
    rw [SM.bind_ok k1, modify_bind]
    exact u1
  · rw [e3]
    obtain ⟨x, f, f1, f2, f3, f4⟩ := k5 (.inl ⟨_, List.mem_cons_self, rfl⟩)
    exact ⟨x, f, by rw [hk3.signers]; exact f1, f2, by rw [hk3.targets]; exact f3, by rw [hk3.targets]; exact f4⟩
  · rw [u6]
    show s2.timestamp.signed.version + 1 = _
    rw [show s2.timestamp.signed = s.timestamp.signed from k2.timestamp.1]
  · rw [u4]
    show wrap64 (s2.snapshot.signed.version + 1) = _
    rw [e1]
    exact w1
  · rw [hes, e3]
    exact k4

end

end Tuf
