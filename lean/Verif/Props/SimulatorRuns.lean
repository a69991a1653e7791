import Verif.Spec.Simulator
import Verif.Props.Edits
import Verif.Props.Example
import Verif.Props.Parsing
import Verif.Props.BasicClients

/-! # The repository simulator: how it signs, and what downloads leave -/

namespace Tuf
open Tuf.Spec Tuf.Std

section
variable {q : SimEnv} {s s' : Sim}

theorem get_bind {α β : Type} (f : Sim → α) (g : α → SM Sim β) (s : Sim) : (Sim.get f >>= g) s = g (f s) s := rfl
theorem modify_bind {β : Type} (f : Sim → Sim) (g : Unit → SM Sim β) (s : Sim) : (Sim.modify f >>= g) s = g () (f s) := rfl

/-! ## Signing -/

theorem filterMap_same {α β : Type} {f g : α → Option β} {l : List α} (h : ∀ a ∈ l, f a = g a) : l.filterMap f = l.filterMap g := by
  induction l with
  | nil => rfl
  | cons a l ih => rw [List.filterMap_cons, List.filterMap_cons, h a (by simp), ih fun a ha => h a (by simp [ha])]

theorem range_get {α : Type} (es : List α) : (List.range es.length).filterMap (fun i => es[i]?) = es := by
  induction es using snoc_induction with
  | h0 => rfl
  | hs es a ih =>
    rw [List.length_append, List.length_singleton, List.range_succ, List.filterMap_append]
    have : (List.range es.length).filterMap (fun i => (es ++ [a])[i]?) = es := by
      refine (filterMap_same fun i hi => ?_).trans ih
      rw [List.getElem?_append_left (List.mem_range.1 hi)]
    rw [this]
    simp

theorem iterate_eq {α : Type} (q : SimEnv) (es : List α) (s : Sim) : ∃ es', es'.Perm es ∧ Sim.iterate q es s = (.ok es', { s with iterations := s.iterations + 1 }) := by
  refine ⟨_, ?_, rfl⟩
  have h : ∀ o : List Nat, o.Perm (List.range es.length) → (o.filterMap (fun i => es[i]?)).Perm es := fun o ho => by
    have := ho.filterMap (fun i => es[i]?)
    rw [range_get] at this
    exact this
  split
  · next hp => exact h _ (List.isPerm_iff.1 hp)
  · exact h _ (.refl _)

variable {T : Type} [RoleType T] {env : Env}

theorem signLoop_keeps {ss : List Signer} {m m' : Metadata T} (h : Sim.signLoop env ss m = .ok m') : m'.signed = m.signed ∧ m'.unrec = m.unrec := by
  induction ss generalizing m with
  | nil => cases h; exact ⟨rfl, rfl⟩
  | cons s ss ih =>
    rw [Sim.signLoop] at h
    split at h
    · next r hr =>
      obtain ⟨h1, h2⟩ := ih h
      obtain ⟨k1, k2, _⟩ := C08_sign_appends (sig := r.1) (m' := r.2) hr
      exact ⟨h1.trans k1, h2.trans k2⟩
    · exact ih h
    · cases h

theorem signLoop_runs {ss : List Signer} (hs : ∀ s ∈ ss, Works env s) {m : Metadata T} (hp : payload m.signed ≠ .panic) : ∃ m', Sim.signLoop env ss m = .ok m' := by
  induction ss generalizing m with
  | nil => exact ⟨_, rfl⟩
  | cons s ss ih =>
    rw [Sim.signLoop]
    cases hm : payload m.signed with
    | ok p =>
      obtain ⟨⟨sig, m1⟩, h⟩ := (sign_iff (m := m) (hs s (by simp))).2 ⟨p, hm⟩
      rw [h]
      refine ih (fun s h => hs s (by simp [h])) ?_
      rw [(C08_sign_appends h).1]
      exact hp
    | err e =>
      have : sign env m s = .err e := by
        unfold sign
        rw [hm]
        rfl
      rw [this]
      exact ih (fun s h => hs s (by simp [h])) hp
    | panic => exact absurd hm hp

theorem signLoop_signs {ss : List Signer} (hs : ∀ s ∈ ss, Works env s) {m : Metadata T} (hp : ∃ p, payload m.signed = .ok p) {m0 : Metadata T} {pre : List Signer} (h0 : SignedBy env m0 pre m) :
    ∃ m', Sim.signLoop env ss m = .ok m' ∧ SignedBy env m0 (pre ++ ss) m' := by
  induction ss generalizing m pre with
  | nil => exact ⟨m, rfl, by rw [List.append_nil]; exact h0⟩
  | cons s ss ih =>
    obtain ⟨⟨sig, m1⟩, h⟩ := (sign_iff (m := m) (hs s (by simp))).2 hp
    obtain ⟨m', h1, h2⟩ := ih (fun s h => hs s (by simp [h])) (m := m1) (by rw [(C08_sign_appends h).1]; exact hp) (h0.snoc h)
    refine ⟨m', ?_, by simpa using h2⟩
    rw [Sim.signLoop, h]
    exact h1

/-- The file that the signers make of a document. -/
def docBytes (env : Env) (ss : List Signer) (a : T) : Res Bytes := Sim.signLoop env ss { signed := a, signatures := some [] } >>= fun m => toBytes env m false

theorem toBytes_ok {m : Metadata T} (hp : ∃ p, payload m.signed = .ok p) (b : Bool) : ∃ d, toBytes env m b = .ok d := by
  obtain ⟨p, hp⟩ := hp
  obtain ⟨j, hj, _⟩ := Res.bind_eq_ok.1 hp
  unfold toBytes Metadata.marshal
  rw [hj]
  exact ⟨_, rfl⟩

theorem docBytes_ok {ss : List Signer} (hs : ∀ s ∈ ss, Works env s) {a : T} (hp : ∃ p, payload a = .ok p) :
    ∃ m d, docBytes env ss a = .ok d ∧ SignedBy env { signed := a, signatures := some [] } ss m ∧ toBytes env m false = .ok d := by
  obtain ⟨m, h1, h2⟩ := signLoop_signs hs (m := { signed := a, signatures := some [] }) hp .nil
  obtain ⟨d, hd⟩ := toBytes_ok (env := env) (m := m) (by rw [signedBy_signed h2]; exact hp) false
  refine ⟨m, d, ?_, h2, hd⟩
  unfold docBytes
  rw [h1]
  exact hd

theorem signFor_eq (q : SimEnv) (role : Str) (md : Metadata T) (s : Sim) : ∃ ss : List Signer, ss.Perm (((s.signers.get? role).getD []).map Prod.snd) ∧
    Sim.signFor q role md s = (Sim.signLoop q.env ss { md with signatures := some [] } >>= fun m => .ok (m, toBytes q.env m false), { s with iterations := s.iterations + 1 }) := by
  obtain ⟨es', h1, h2⟩ := iterate_eq q ((s.signers.get? role).getD []) s
  refine ⟨es'.map Prod.snd, h1.map _, ?_⟩
  unfold Sim.signFor
  rw [get_bind, SM.bind_ok h2, SM.bind_apply]
  unfold SM.lift clearSignatures
  cases Sim.signLoop q.env (es'.map Prod.snd) { md with signatures := some [] } <;> rfl

/-! ## What downloads leave -/

/-- Only what was fetched, the iterations, and the signatures of the documents differ. -/
structure Same (s s' : Sim) : Prop where
  delegates : s'.delegates = s.delegates
  signedRoots : s'.signedRoots = s.signedRoots
  signers : s'.signers = s.signers
  files : s'.files = s.files
  computeHashes : s'.computeHashes = s.computeHashes
  safeExpiry : s'.safeExpiry = s.safeExpiry
  localDir : s'.localDir = s.localDir
  created : s'.created = s.created
  targets : s'.targets.signed = s.targets.signed ∧ s'.targets.unrec = s.targets.unrec
  snapshot : s'.snapshot.signed = s.snapshot.signed ∧ s'.snapshot.unrec = s.snapshot.unrec
  timestamp : s'.timestamp.signed = s.timestamp.signed ∧ s'.timestamp.unrec = s.timestamp.unrec
  root : s'.root = s.root

theorem Same.refl (s : Sim) : Same s s := ⟨rfl, rfl, rfl, rfl, rfl, rfl, rfl, rfl, ⟨rfl, rfl⟩, ⟨rfl, rfl⟩, ⟨rfl, rfl⟩, rfl⟩

theorem Same.trans {a b c : Sim} (h : Same a b) (h' : Same b c) : Same a c where
  delegates := h'.delegates.trans h.delegates
  signedRoots := h'.signedRoots.trans h.signedRoots
  signers := h'.signers.trans h.signers
  files := h'.files.trans h.files
  computeHashes := h'.computeHashes.trans h.computeHashes
  safeExpiry := h'.safeExpiry.trans h.safeExpiry
  localDir := h'.localDir.trans h.localDir
  created := h'.created.trans h.created
  targets := ⟨h'.targets.1.trans h.targets.1, h'.targets.2.trans h.targets.2⟩
  snapshot := ⟨h'.snapshot.1.trans h.snapshot.1, h'.snapshot.2.trans h.snapshot.2⟩
  timestamp := ⟨h'.timestamp.1.trans h.timestamp.1, h'.timestamp.2.trans h.timestamp.2⟩
  root := h'.root.trans h.root

theorem signFor_out (q : SimEnv) (role : Str) (md : Metadata T) (s : Sim) (f : Metadata T → Sim → Sim) :
    ∃ ss : List Signer, ss.Perm (((s.signers.get? role).getD []).map Prod.snd) ∧
      (Sim.signFor q role md >>= fun m => Sim.modify (f m.1) >>= fun _ => SM.lift m.2) s =
        match Sim.signLoop q.env ss { md with signatures := some [] } with
        | .ok m => (toBytes q.env m false, f m { s with iterations := s.iterations + 1 })
        | .err e => (.err e, { s with iterations := s.iterations + 1 })
        | .panic => (.panic, { s with iterations := s.iterations + 1 }) := by
  obtain ⟨ss, h1, h2⟩ := signFor_eq q role md s
  refine ⟨ss, h1, ?_⟩
  rw [SM.bind_apply, h2]
  cases Sim.signLoop q.env ss { md with signatures := some [] } <;> rfl

theorem signFor_result (q : SimEnv) (role : Str) (md : Metadata T) (s : Sim) (f : Metadata T → Sim → Sim) {x : Str × Signer} (hx : s.signers.get? role = some [x]) (hu : md.unrec = []) :
    ((Sim.signFor q role md >>= fun m => Sim.modify (f m.1) >>= fun _ => SM.lift m.2) s).1 = docBytes q.env [x.2] md.signed := by
  obtain ⟨ss, h1, h2⟩ := signFor_out q role md s f
  rw [hx] at h1
  obtain rfl := List.perm_singleton.1 h1
  rw [h2]
  unfold docBytes
  have : ({ md with signatures := some [] } : Metadata T) = { signed := md.signed, signatures := some [] } := by rw [← hu]
  rw [this]
  cases Sim.signLoop q.env [x.2] { signed := md.signed, signatures := some [] } <;> rfl

theorem signFor_same (q : SimEnv) (role : Str) (md : Metadata T) (s : Sim) (f : Metadata T → Sim → Sim)
    (hf : ∀ m : Metadata T, m.signed = md.signed ∧ m.unrec = md.unrec → Same s (f m { s with iterations := s.iterations + 1 })) :
    Same s ((Sim.signFor q role md >>= fun m => Sim.modify (f m.1) >>= fun _ => SM.lift m.2) s).2 := by
  obtain ⟨ss, h1, h2⟩ := signFor_out q role md s f
  rw [h2]
  have h0 : Same s { s with iterations := s.iterations + 1 } := ⟨rfl, rfl, rfl, rfl, rfl, rfl, rfl, rfl, ⟨rfl, rfl⟩, ⟨rfl, rfl⟩, ⟨rfl, rfl⟩, rfl⟩
  cases hl : Sim.signLoop q.env ss { md with signatures := some [] } with
  | ok m =>
    have := signLoop_keeps hl
    exact hf m this
  | err e => exact h0
  | panic => exact h0

theorem signFor_panics (q : SimEnv) (role : Str) (md : Metadata T) (s : Sim) (f : Metadata T → Sim → Sim) (hw : ∀ x ∈ (s.signers.get? role).getD [], Works q.env x.2)
    (hp : payload md.signed ≠ .panic) : ((Sim.signFor q role md >>= fun m => Sim.modify (f m.1) >>= fun _ => SM.lift m.2) s).1 ≠ .panic := by
  obtain ⟨ss, h1, h2⟩ := signFor_out q role md s f
  rw [h2]
  have : ∀ y ∈ ss, Works q.env y := by
    intro y hy
    obtain ⟨x, hx, rfl⟩ := List.mem_map.1 (h1.mem_iff.1 hy)
    exact hw x hx
  obtain ⟨m, hm⟩ := signLoop_runs this (m := { md with signatures := some [] }) hp
  rw [hm]
  have hs := (signLoop_keeps hm).1
  dsimp only
  unfold toBytes Metadata.marshal
  rw [hs]
  dsimp only
  intro h
  apply hp
  unfold payload
  cases hj : RoleType.marshal md.signed with
  | panic => rfl
  | ok j => rw [hj] at h; cases h
  | err e => rw [hj] at h; cases h

theorem fetch_top (q : SimEnv) (v : Int) (s : Sim) :
    let s1 := { s with fetchedMetadata := s.fetchedMetadata ++ [(TIMESTAMP, v)] }
    let s2 := { s with fetchedMetadata := s.fetchedMetadata ++ [(SNAPSHOT, v)] }
    let s3 := { s with fetchedMetadata := s.fetchedMetadata ++ [(TARGETS, v)] }
    Sim.fetchMetadata q TIMESTAMP v s = (Sim.signFor q TIMESTAMP s.timestamp >>= fun m => Sim.modify (fun s => { s with timestamp := m.1 }) >>= fun _ => SM.lift m.2) s1 ∧
    Sim.fetchMetadata q SNAPSHOT v s = (Sim.signFor q SNAPSHOT s.snapshot >>= fun m => Sim.modify (fun s => { s with snapshot := m.1 }) >>= fun _ => SM.lift m.2) s2 ∧
    Sim.fetchMetadata q TARGETS v s = (Sim.signFor q TARGETS s.targets >>= fun m => Sim.modify (fun s => { s with targets := m.1 }) >>= fun _ => SM.lift m.2) s3 := by
  refine ⟨?_, ?_, ?_⟩ <;> unfold Sim.fetchMetadata <;> rw [modify_bind]
  · rw [if_neg (by decide), if_pos rfl, get_bind]
  · rw [if_neg (by decide), if_neg (by decide), if_pos rfl, get_bind]
  · rw [if_neg (by decide), if_neg (by decide), if_neg (by decide), if_pos rfl, get_bind]

theorem fetch_delegated (q : SimEnv) {role : Str} (hr : role ∉ [ROOT, TIMESTAMP, SNAPSHOT, TARGETS]) (v : Int) (s : Sim) :
    let s1 := { s with fetchedMetadata := s.fetchedMetadata ++ [(role, v)] }
    Sim.fetchMetadata q role v s = match s.delegates.get? role with
      | none => (.err Sim.notFound, s1)
      | some md => (Sim.signFor q role md >>= fun m => Sim.modify id >>= fun _ => SM.lift m.2) s1 := by
  simp only [List.mem_cons, List.not_mem_nil, or_false, not_or] at hr
  unfold Sim.fetchMetadata
  rw [modify_bind, if_neg hr.1, if_neg hr.2.1, if_neg hr.2.2.1, if_neg hr.2.2.2, get_bind]
  dsimp only
  cases s.delegates.get? role <;> rfl

theorem fetch_same (q : SimEnv) (role : Str) (v : Int) (s : Sim) : Same s (Sim.fetchMetadata q role v s).2 := by
  have h0 : Same s { s with fetchedMetadata := s.fetchedMetadata ++ [(role, v)] } := ⟨rfl, rfl, rfl, rfl, rfl, rfl, rfl, rfl, ⟨rfl, rfl⟩, ⟨rfl, rfl⟩, ⟨rfl, rfl⟩, rfl⟩
  obtain ⟨e1, e2, e3⟩ := fetch_top q v s
  by_cases h2 : role = TIMESTAMP
  · subst h2
    rw [e1]
    exact h0.trans (signFor_same q _ _ _ (fun m s => { s with timestamp := m }) fun m hm => ⟨rfl, rfl, rfl, rfl, rfl, rfl, rfl, rfl, ⟨rfl, rfl⟩, ⟨rfl, rfl⟩, hm, rfl⟩)
  by_cases h3 : role = SNAPSHOT
  · subst h3
    rw [e2]
    exact h0.trans (signFor_same q _ _ _ (fun m s => { s with snapshot := m }) fun m hm => ⟨rfl, rfl, rfl, rfl, rfl, rfl, rfl, rfl, ⟨rfl, rfl⟩, hm, ⟨rfl, rfl⟩, rfl⟩)
  by_cases h4 : role = TARGETS
  · subst h4
    rw [e3]
    exact h0.trans (signFor_same q _ _ _ (fun m s => { s with targets := m }) fun m hm => ⟨rfl, rfl, rfl, rfl, rfl, rfl, rfl, rfl, hm, ⟨rfl, rfl⟩, ⟨rfl, rfl⟩, rfl⟩)
  by_cases h1 : role = ROOT
  · subst h1
    unfold Sim.fetchMetadata
    rw [modify_bind, if_pos rfl]
    dsimp only
    split
    · exact h0
    · split
      · exact h0
      · split <;> exact h0
  · rw [fetch_delegated q (by simp [h1, h2, h3, h4])]
    split
    · exact h0
    · exact h0.trans (signFor_same q _ _ _ (fun _ s => s) fun m hm => ⟨rfl, rfl, rfl, rfl, rfl, rfl, rfl, rfl, ⟨rfl, rfl⟩, ⟨rfl, rfl⟩, ⟨rfl, rfl⟩, rfl⟩)

/-- Downloads change nothing that matters. -/
theorem download_same (q : SimEnv) (url : Str) (n : Int) (s : Sim) : Same s (Sim.downloadFile q url n s).2 := by
  have ht : ∀ (path hash : Str), Same s (Sim.fetchTarget path hash s).2 := by
    intro path hash
    have h0 : Same s { s with fetchedTargets := s.fetchedTargets ++ [(path, hash)] } := ⟨rfl, rfl, rfl, rfl, rfl, rfl, rfl, rfl, ⟨rfl, rfl⟩, ⟨rfl, rfl⟩, ⟨rfl, rfl⟩, rfl⟩
    unfold Sim.fetchTarget
    dsimp only
    split
    · exact h0
    · split <;> exact h0
  have hf : Same s (Sim.fetch q url s).2 := by
    unfold Sim.fetch
    split
    · exact .refl s
    · dsimp only
      split
      · split <;> exact fetch_same _ _ _ _
      · split
        · split
          · split <;> exact ht _ _
          · exact .refl s
        · exact .refl s
  unfold Sim.downloadFile
  rw [SM.bind_apply]
  rcases h : Sim.fetch q url s with ⟨r, s1⟩
  rw [h] at hf
  cases r with
  | ok d =>
    dsimp only
    split <;> exact hf
  | err e => exact hf
  | panic => exact hf

theorem after_same (q : SimEnv) (ds : List (Str × Int)) (s : Sim) : Same s (afterDownloads q ds s) := by
  induction ds generalizing s with
  | nil => exact .refl s
  | cons d ds ih => exact (download_same q d.1 d.2 s).trans (ih _)

end

end Tuf
