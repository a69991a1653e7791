import Verif.Props.SimulatorUpdates

/-! # The repository simulator: whatever tests do, it has a release -/

namespace Tuf
open Tuf.Spec Tuf.Std

section
variable {env : Env} {q : SimEnv} {mat : Nat → Bytes} {e : Time} {N : Int}

/-- The simulator has a release, with versions from 1 to `N`. -/
structure Settled (env : Env) (q : SimEnv) (mat : Nat → Bytes) (e : Time) (N : Int) (s : Sim) : Prop where
  base : Base env q mat e s
  roots : ∃ l, Roots env s l ∧ (l.length : Int) ≤ N
  targetsListed : TargetsListed q.env s s.snapshot.signed.metas.entries
  snapshotListed : SnapshotListed q.env s
  timestamp : 1 ≤ s.timestamp.signed.version ∧ s.timestamp.signed.version ≤ N
  snapshot : 1 ≤ s.snapshot.signed.version ∧ s.snapshot.signed.version ≤ N
  targets : 1 ≤ s.targets.signed.version ∧ s.targets.signed.version ≤ N

theorem Settled.mono {s : Sim} (h : Settled env q mat e N s) {N' : Int} (hn : N ≤ N') : Settled env q mat e N' s := by
  obtain ⟨l, h1, h2⟩ := h.roots
  exact ⟨h.base, ⟨l, h1, Int.le_trans h2 hn⟩, h.targetsListed, h.snapshotListed, ⟨h.timestamp.1, Int.le_trans h.timestamp.2 hn⟩, ⟨h.snapshot.1, Int.le_trans h.snapshot.2 hn⟩,
    ⟨h.targets.1, Int.le_trans h.targets.2 hn⟩⟩

theorem roots_same {s s' : Sim} {l : List PubRoot} (h : Roots env s l) (h1 : s'.signedRoots = s.signedRoots) (h2 : s'.root = s.root) : Roots env s' l :=
  ⟨h.chain, by rw [h1]; exact h.data, by rw [h2]; exact h.last⟩

theorem Settled.same {s s' : Sim} (h : Settled env q mat e N s) (hs : Same s s') : Settled env q mat e N s' := by
  obtain ⟨l, h1, h2⟩ := h.roots
  have ht := h.targetsListed
  have hsn := h.snapshotListed
  refine ⟨h.base.same hs, ⟨l, roots_same h1 hs.signedRoots hs.root, h2⟩, ?_, ?_, by rw [hs.timestamp.1]; exact h.timestamp, by rw [hs.snapshot.1]; exact h.snapshot, by rw [hs.targets.1]; exact h.targets⟩
  · unfold TargetsListed at ht ⊢
    rw [hs.snapshot.1, hs.targets.1, hs.signers]
    exact ht
  · unfold SnapshotListed at hsn ⊢
    rw [hs.snapshot.1, hs.timestamp.1, hs.signers]
    exact hsn

/-- What the simulator has later. -/
structure Later (s s' : Sim) : Prop where
  localDir : s'.localDir = s.localDir
  timestamp : s.timestamp.signed.version < s'.timestamp.signed.version ∨ (s'.timestamp.signed = s.timestamp.signed ∧ s'.signers.get? TIMESTAMP = s.signers.get? TIMESTAMP)
  snapshot : s.snapshot.signed.version < s'.snapshot.signed.version ∨ (s'.snapshot.signed = s.snapshot.signed ∧ s'.signers.get? SNAPSHOT = s.signers.get? SNAPSHOT)
  targets : s.targets.signed.version < s'.targets.signed.version ∨ (s'.targets.signed = s.targets.signed ∧ s'.signers.get? TARGETS = s.signers.get? TARGETS)
  listed : NewerEntries s.snapshot.signed.metas.entries s'.snapshot.signed.metas.entries

theorem NewerEntries.refl (es : Entries (Option MetaFiles)) : NewerEntries es es := fun _ f hf => ⟨f, hf, Int.le_refl _⟩

theorem Later.same {s s' : Sim} (h : Same s s') : Later s s' := by
  refine ⟨h.localDir, .inr ⟨h.timestamp.1, by rw [h.signers]⟩, .inr ⟨h.snapshot.1, by rw [h.signers]⟩, .inr ⟨h.targets.1, by rw [h.signers]⟩, ?_⟩
  rw [h.snapshot.1]
  exact .refl _

theorem later_trans {T : Type} {v : T → Int} {a b c : T} {x y z : Option (Entries Signer)} (h : v a < v b ∨ (b = a ∧ y = x)) (h' : v b < v c ∨ (c = b ∧ z = y)) : v a < v c ∨ (c = a ∧ z = x) := by
  rcases h with h | ⟨rfl, rfl⟩
  · rcases h' with h' | ⟨rfl, rfl⟩
    · exact .inl (Int.lt_trans h h')
    · exact .inl h
  · exact h'

theorem Later.trans {a b c : Sim} (h : Later a b) (h' : Later b c) : Later a c where
  localDir := h'.localDir.trans h.localDir
  timestamp := later_trans (v := fun t : TimestampType => t.version) h.timestamp h'.timestamp
  snapshot := later_trans (v := fun t : SnapshotType => t.version) h.snapshot h'.snapshot
  targets := later_trans (v := fun t : TargetsType => t.version) h.targets h'.targets
  listed := fun name f hf => by
    obtain ⟨f', h1, h2⟩ := h.listed name f hf
    obtain ⟨f'', h3, h4⟩ := h'.listed name f' h1
    exact ⟨f'', h3, Int.le_trans h2 h4⟩

theorem base_bump_targets {s : Sim} (h : Base env q mat e s) (hv : 1 ≤ s.targets.signed.version ∧ s.targets.signed.version < 2 ^ 62) :
    Base env q mat e { s with targets := { s.targets with signed := { s.targets.signed with version := wrap64 (s.targets.signed.version + 1) } } } := by
  obtain ⟨w1, w2⟩ := sim_bump hv
  have ht := h.targets
  refine { h with targets := ⟨ht.fields, ht.type, ht.spec, ?_, ht.expires, ht.targets, ht.delegations⟩, listed := ?_ }
  · show inInt64 (wrap64 (s.targets.signed.version + 1)) = true
    rw [w1]; exact w2
  · intro name f hf
    rcases h.listed name f hf with ⟨h1, h2⟩ | h1
    · refine .inl ⟨h1, ?_⟩
      show f.version ≤ wrap64 (s.targets.signed.version + 1)
      rw [w1]
      omega
    · exact .inr h1

/-- Rotating the keys of some roles, and publishing a root. -/
theorem rotate_publish (hk : SimKeys env q mat) {s : Sim} (h : Base env q mat e s) {l : List PubRoot} (hl : Roots env s l) (hlen : l.length < 2 ^ 62) {roles : List Str}
    (hr : ∀ role ∈ roles, role ∈ [TIMESTAMP, SNAPSHOT, TARGETS]) :
    ∃ s1 s' l', inTurn (Sim.rotateKeys q) roles s = (.ok (), s1) ∧ (if roles = [] then pure () else nextRoot q) s1 = (.ok (), s') ∧ Base env q mat e s' ∧ Roots env s' l' ∧ l'.length ≤ l.length + 1 ∧
      s' = { s with root := s'.root, signers := s'.signers, created := s'.created, signedRoots := s'.signedRoots, iterations := s'.iterations } := by
  obtain ⟨s1, k1, k2, k3, k4, k5, k6, k7, k8⟩ := rotate_all hk h hr
  by_cases h0 : roles = []
  · obtain rfl := k8 h0
    refine ⟨_, _, l, k1, ?_, h, hl, Nat.le_succ _, rfl⟩
    rw [if_pos h0]
    rfl
  · obtain ⟨last, p1, p2⟩ := hl.last
    obtain ⟨n, es, n1, n2, n3, n4⟩ := h.rootKey
    obtain ⟨s2, p, r1, r2, r3, r4⟩ := next_root hk k2 hl.chain (by rw [k3]; exact hl.data) p1 (by rw [p2, k4]) hlen ⟨n, es, by rw [p2]; exact n2, by rw [k6]; exact n3, n4⟩
    refine ⟨s1, s2, l ++ [p], k1, ?_, r2, r3, by simp, ?_⟩
    · rw [if_neg h0]
      exact r1
    · rw [r4, k3]

theorem release_settled (hk : SimKeys env q mat) (hn : N < 2 ^ 62) {s : Sim} (h : Settled env q mat e N s) {rotated : List Str} {roles : List (DelegatedRole × TargetsType)}
    {files : List (Str × Bytes)} (hf : (SimStep.release rotated roles files).Fine q.env) :
    ∃ s', (SimStep.release rotated roles files).run q s = (.ok (), s') ∧ Settled env q mat e (N + 1) s' ∧ Later s s' := by
  obtain ⟨f1, f2, f3⟩ := hf
  obtain ⟨l, l1, l2⟩ := h.roots
  have v1 := h.timestamp
  have v2 := h.snapshot
  have v3 := h.targets
  obtain ⟨s1, s2, l', a1, a1', a2, a3, a4, a5⟩ := rotate_publish hk h.base l1 (by omega) f1
  obtain ⟨s3, b1, b2⟩ := inTurn_grown (f := fun r : DelegatedRole × TargetsType => Sim.addDelegation q TARGETS r.1 r.2) (as := roles) (fun r hr s hb => addDelegation_grown hk (by rw [hk.same] at f2; exact f2 r hr) hb) a2
  obtain ⟨s4, c1, c2⟩ := inTurn_grown (f := fun f : Str × Bytes => Sim.addTarget q TARGETS f.2 f.1) (as := files) (fun f hf s hb => addTarget_grown hk (f3 f hf) hb) b2.base
  have g := b2.trans c2
  have t1 : s4.targets.signed.version = s.targets.signed.version := by rw [g.version, a5]
  have t2 : s4.snapshot = s.snapshot := by rw [g.others, a5]
  have t3 : s4.timestamp = s.timestamp := by rw [g.others, a5]
  have t4 : s4.localDir = s.localDir := by rw [g.others, a5]
  have t5 : s4.root = s2.root := by rw [g.others]
  have t6 : s4.signedRoots = s2.signedRoots := by rw [g.others]
  obtain ⟨s6, d1, d2, d3, d4, d5, d6, d7, d8⟩ := update_snapshot hk (base_bump_targets g.base (by rw [t1]; omega)) (by dsimp only; rw [t3]; omega) (by dsimp only; rw [t2]; omega)
  dsimp only at d6 d7 d8
  rw [t3] at d6
  rw [t2] at d7 d8
  have t7 : s6.targets.signed.version = s.targets.signed.version + 1 := by
    rw [d3.targets]
    show wrap64 (s4.targets.signed.version + 1) = _
    rw [t1]
    exact (sim_bump (by omega)).1
  refine ⟨s6, ?_, ⟨d2, ⟨l', roots_same a3 (by rw [d3.signedRoots]; exact t6) (by rw [d3.root]; exact t5), by omega⟩, d5, d4, by omega, by omega, by omega⟩,
    ⟨by rw [d3.localDir]; exact t4, .inl (by omega), .inl (by omega), .inl (by omega), d8⟩⟩
  have hend : (do
      inTurn (fun r : DelegatedRole × TargetsType => Sim.addDelegation q TARGETS r.1 r.2) roles
      inTurn (fun f : Str × Bytes => Sim.addTarget q TARGETS f.2 f.1) files
      Sim.modify (fun s => { s with targets := { s.targets with signed := { s.targets.signed with version := wrap64 (s.targets.signed.version + 1) } } })
      Sim.updateSnapshot q : SM Sim Unit) s2 = (.ok (), s6) := by
    rw [SM.bind_ok b1, SM.bind_ok c1, modify_bind]
    exact d1
  show (inTurn (Sim.rotateKeys q) rotated >>= _) s = _
  rw [SM.bind_ok a1]
  dsimp only
  by_cases h0 : rotated = []
  · rw [if_pos h0] at a1' ⊢
    cases a1'
    exact hend
  · rw [if_neg h0] at a1' ⊢
    rw [SM.bind_ok a1']
    exact hend

theorem rotateRoot_settled (hk : SimKeys env q mat) (hn : N < 2 ^ 62) {s : Sim} (h : Settled env q mat e N s) :
    ∃ s', SimStep.rotateRoot.run q s = (.ok (), s') ∧ Settled env q mat e (N + 1) s' ∧ Later s s' := by
  obtain ⟨l, l1, l2⟩ := h.roots
  obtain ⟨n, old, n1, n2, n3, n4⟩ := h.base.rootKey
  obtain ⟨s1, r1, r2⟩ := rotate_eq hk h.base.root n2 (top_utf8 (by simp))
  have b1 := base_rotated hk h.base (by simp) r2
  obtain ⟨o1, o2⟩ := h.base.signers ROOT old n3
  obtain ⟨s2, es, k1, k2, k3, k4, k5, k6⟩ := addSigners hk (old := old) (fun x hx => by obtain ⟨n, _, h⟩ := o2 x hx; exact ⟨n, h⟩) r2.signers (List.pairwise_singleton _ _)
    (fun x hx => ⟨s.created, List.mem_singleton.1 hx⟩)
  have b2 : Base env q mat e s2 := by
    have e1 : ∃ n es, n < s2.created ∧ HasKey env mat s2.root.signed ROOT n ∧ s2.signers.get? ROOT = some es ∧ (sid env mat n, q.fresh n) ∈ es := by
      refine ⟨s.created, es, ?_, ?_, k3, (k5 _).2 (.inl (by simp))⟩
      · rw [k2, r2.created]; exact Nat.lt_succ_self _
      · rw [k2]; exact r2.new
    have e2 : ∀ role ∈ [TIMESTAMP, SNAPSHOT, TARGETS], ∃ n, n < s2.created ∧ HasKey env mat s2.root.signed role n ∧ s2.signers.get? role = some [(sid env mat n, q.fresh n)] := by
      intro role hr
      obtain ⟨m, h1, h2, h3⟩ := b1.roleKey role hr
      exact ⟨m, by rw [k2]; exact h1, by rw [k2]; exact h2, by rw [k6 _ (by rintro rfl; exact absurd hr (by decide))]; exact h3⟩
    have e3 : ∀ role es, s2.signers.get? role = some es → Entries.Sorted es ∧ ∀ x ∈ es, ∃ n, n < s2.created ∧ x = (sid env mat n, q.fresh n) := by
      intro role es' hes
      by_cases hr : role = ROOT
      · subst hr
        rw [k3] at hes
        cases hes
        refine ⟨k4, fun x hx => ?_⟩
        rcases (k5 x).1 hx with hx | hx
        · exact ⟨s.created, by rw [k2, r2.created]; exact Nat.lt_succ_self _, List.mem_singleton.1 hx⟩
        · obtain ⟨m, h1, h2⟩ := o2 x hx
          exact ⟨m, by rw [k2, r2.created]; exact Nat.lt_succ_of_lt h1, h2⟩
      · rw [k6 _ hr] at hes
        obtain ⟨h1, h2⟩ := b1.signers role es' hes
        refine ⟨h1, fun x hx => ?_⟩
        rw [k2]
        exact h2 x hx
    clear k3 k5 k6
    rw [k2] at e1 e2 e3 ⊢
    exact { b1 with rootKey := e1, roleKey := e2, signers := e3 }
  obtain ⟨last, p1, p2⟩ := l1.last
  obtain ⟨s3, p, u1, u2, u3, u4⟩ := next_root hk b2 l1.chain (by rw [k2, r2.others]; exact l1.data) p1 (by rw [p2, k2]; show _ = s1.root.signed.version; rw [r2.root]) (by omega)
    ⟨n, es, by rw [p2]; exact n2, k3, (k5 _).2 (.inr n4)⟩
  have t1 : s3.targets = s.targets := by rw [u4, k2, r2.others]
  have t2 : s3.snapshot = s.snapshot := by rw [u4, k2, r2.others]
  have t3 : s3.timestamp = s.timestamp := by rw [u4, k2, r2.others]
  have t4 : s3.localDir = s.localDir := by rw [u4, k2, r2.others]
  have t5 : ∀ role, role ≠ ROOT → s3.signers.get? role = s.signers.get? role := by
    intro role hr
    rw [show s3.signers = s2.signers by rw [u4], k6 _ hr, r2.otherSigners _ hr]
  have ht := h.targetsListed
  have hsn := h.snapshotListed
  refine ⟨s3, ?_, ⟨u2, ⟨_, u3, by simp; omega⟩, ?_, ?_, by rw [t3]; have := h.timestamp; omega, by rw [t2]; have := h.snapshot; omega, by rw [t1]; have := h.targets; omega⟩,
    ⟨t4, .inr ⟨by rw [t3], t5 _ (by decide)⟩, .inr ⟨by rw [t2], t5 _ (by decide)⟩, .inr ⟨by rw [t1], t5 _ (by decide)⟩, by rw [t2]; exact .refl _⟩⟩
  · show (Sim.get _ >>= _) s = _
    rw [get_bind, n3, SM.bind_ok r1]
    rw [show (some old).getD [] = old from rfl, SM.bind_ok k1]
    exact u1
  · unfold TargetsListed at ht ⊢
    rw [t1, t2, t5 _ (by decide)]
    exact ht
  · unfold SnapshotListed at hsn ⊢
    rw [t3, t2, t5 _ (by decide)]
    exact hsn

theorem step_settled (hk : SimKeys env q mat) (hn : N < 2 ^ 62) {s : Sim} (h : Settled env q mat e N s) {st : SimStep} (hf : st.Fine q.env) :
    ∃ s', st.run q s = (.ok (), s') ∧ Settled env q mat e (N + 1) s' ∧ Later s s' := by
  cases st with
  | release rotated roles files => exact release_settled hk hn h hf
  | rotateRoot => exact rotateRoot_settled hk hn h
  | timestamp =>
    have v1 := h.timestamp
    have v2 := h.snapshot
    have v3 := h.targets
    obtain ⟨l, l1, l2⟩ := h.roots
    obtain ⟨s', u1, u2, u3, u4, u5, u6⟩ := update_timestamp hk h.base (by omega)
    refine ⟨s', u1, ⟨u2, ⟨l, roots_same l1 u3.signedRoots u3.root, by omega⟩, ?_, u5, by omega, by rw [u4]; omega, by rw [u3.targets]; omega⟩,
      ⟨u3.localDir, .inl (by omega), .inr ⟨u4, by rw [u3.signers]⟩, .inr ⟨u3.targets, by rw [u3.signers]⟩, by rw [u4]; exact .refl _⟩⟩
    have ht := h.targetsListed
    unfold TargetsListed at ht ⊢
    rw [u4, u3.targets, u3.signers]
    exact ht
  | hashes on =>
    have v1 := h.timestamp
    have v2 := h.snapshot
    have v3 := h.targets
    obtain ⟨l, l1, l2⟩ := h.roots
    exact ⟨_, rfl, ⟨{ h.base with }, ⟨l, ⟨l1.chain, l1.data, l1.last⟩, by omega⟩, h.targetsListed, h.snapshotListed, ⟨v1.1, Int.le_trans v1.2 (by omega)⟩, ⟨v2.1, Int.le_trans v2.2 (by omega)⟩, ⟨v3.1, Int.le_trans v3.2 (by omega)⟩⟩,
      ⟨rfl, .inr ⟨rfl, rfl⟩, .inr ⟨rfl, rfl⟩, .inr ⟨rfl, rfl⟩, .refl _⟩⟩

theorem steps_settled (hk : SimKeys env q mat) : ∀ {sts : List SimStep} {N : Int} {s : Sim}, N + sts.length < 2 ^ 62 → Settled env q mat e N s → (∀ st ∈ sts, st.Fine q.env) →
    ∃ s', inTurn (SimStep.run q) sts s = (.ok (), s') ∧ Settled env q mat e (N + sts.length) s' ∧ Later s s'
  | [], N, s, _, h, _ => ⟨s, rfl, by simpa using h, .same (.refl s)⟩
  | st :: sts, N, s, hn, h, hf => by
    simp only [List.length_cons] at hn ⊢
    obtain ⟨s1, a1, a2, a3⟩ := step_settled hk (by omega) h (hf st (by simp))
    obtain ⟨s2, b1, b2, b3⟩ := steps_settled hk (sts := sts) (by omega) a2 (fun x hx => hf x (by simp [hx]))
    refine ⟨s2, by rw [inTurn, SM.bind_ok a1]; exact b1, ?_, a3.trans b3⟩
    have : N + ((sts.length + 1 : Nat) : Int) = N + 1 + sts.length := by omega
    rw [this]
    exact b2

end

end Tuf
