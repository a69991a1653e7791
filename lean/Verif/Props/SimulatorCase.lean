import Verif.Props.SimulatorTargets

/-! # Cases of C131, C132 and C133 -/

namespace Tuf
open Tuf.Spec Tuf.Sample Tuf.Std

namespace Sample

/-- Twelve keys, used over and over. -/
def simKey (n : Nat) : UInt8 := UInt8.ofNat (n % 12 + 1)
/-- Maps are iterated over backwards. -/
def simEnv : SimEnv := ⟨std env0, fun n => signer (simKey n), fun _ n => (List.range n).reverse⟩
def simExpiry : Time := timeOf (exCivil 2030)
def simNew : Res Sim := Sim.new simEnv simExpiry
/-- The repository is at `/a/b`. -/
def simDir : Str := b!"/a/b"
def simStart : Sim := match simNew with
  | .ok s => { s with localDir := simDir }
  | _ => { safeExpiry := simExpiry, targets := newTargets simExpiry, snapshot := newSnapshot simExpiry, timestamp := newTimestamp simExpiry, root := newRoot simExpiry }

/-- A client whose root is the first one. -/
def simCtx (s : Sim) : Ctx :=
  ⟨std env0, { hostOf (fun _ => .ok []) with fetch := fun _ url n => answer (Sim.downloadFile simEnv url n s).1 }, { cfg with localTrustedRoot := s.signedRoots.headD [], remoteMetadataURL := simDir ++ b!"/metadata" }⟩

/-- A delegated role. -/
def simRole : DelegatedRole := { name := b!"role", keyIDs := some [], threshold := 1, terminating := false, paths := some [b!"p/*"] }

/-- First, nothing; then hashes, new timestamp and targets keys, a delegation and a file; then new root keys; then a timestamp. -/
def simSteps : List (List SimStep) :=
  [[], [.hashes true, .release [b!"timestamp", b!"targets"] [(simRole, (newTargets simExpiry).signed)] [(b!"x/y", [1, 2, 3])]], [.rotateRoot, .rotateRoot], [.timestamp]]

def simAfter (sts : List SimStep) (s : Sim) : Sim := (inTurn (SimStep.run simEnv) sts s).2

def simVisits : Sim → List (List SimStep) → List SimVisit
  | _, [] => []
  | s, sts :: rest =>
    let s1 := simAfter sts s
    let ds := [(simDir ++ b!"/metadata/timestamp.json", 100000)]
    ⟨sts, simCtx s1, now, ds⟩ :: simVisits (afterDownloads simEnv ds s1) rest

/-- What the clients need of the state, checked. -/
def simCheck (s : Sim) : Bool :=
  s.signedRoots.headD [] ∈ s.signedRoots && s.localDir == simDir && s.signedRoots.length ≤ 32 && s.signedRoots.all (fun d => d.length ≤ 16384) &&
    [TIMESTAMP, SNAPSHOT, TARGETS].all (fun role => match (Sim.fetchMetadata simEnv role (-1) s).1 with | .ok d => d.length ≤ 16384 | _ => true) &&
    s.snapshot.signed.metas.entries.all (fun e => match e.2 with | some f => f.length < 2 ^ 63 | none => true) &&
    s.timestamp.signed.metas.entries.all (fun e => match e.2 with | some f => f.length < 2 ^ 63 | none => true) && !decide (s.safeExpiry.instant < now.instant)

def simStates : Sim → List (List SimStep) → List Sim
  | _, [] => []
  | s, sts :: rest => simAfter sts s :: simStates (afterDownloads simEnv [(simDir ++ b!"/metadata/timestamp.json", 100000)] (simAfter sts s)) rest

end Sample

theorem simIDs : ((List.range 12).map (fun n => exID (simKey n))).Nodup := by decide +kernel

theorem simFresh : FreshKeys simEnv where
  work := fun n => ⟨_, exSigner (simKey n)⟩
  distinct := by
    intro n n' id h1 h2
    have e := (exID_of h1).symm.trans (exID_of h2)
    have hs : ∀ n, simKey n = simKey (n % 12) := fun n => by unfold simKey; rw [Nat.mod_mod]
    show signer (simKey n) = signer (simKey n')
    rw [hs n, hs n'] at e ⊢
    have hp := List.pairwise_map.1 simIDs
    have l1 : n % 12 < 12 := Nat.mod_lt _ (by decide)
    have l2 : n' % 12 < 12 := Nat.mod_lt _ (by decide)
    rcases Nat.lt_trichotomy (n % 12) (n' % 12) with h | h | h
    · have := List.pairwise_iff_getElem.1 hp (n % 12) (n' % 12) (by simpa using l1) (by simpa using l2) h
      simp only [List.getElem_range] at this
      exact absurd e this
    · rw [h]
    · have := List.pairwise_iff_getElem.1 hp (n' % 12) (n % 12) (by simpa using l2) (by simpa using l1) h
      simp only [List.getElem_range] at this
      exact absurd e.symm this

theorem simCalendar : CalendarTime simExpiry := by
  refine ⟨_, ⟨?_, ?_, ?_, ?_, ?_, ?_, ?_, ?_⟩, rfl⟩ <;> simp only [exCivil] <;> first | omega | decide

theorem simDir_ok : SimDir simDir := ⟨[b!"a", b!"b"], by
  intro p hp
  simp only [List.mem_cons, List.not_mem_nil, or_false] at hp
  rcases hp with rfl | rfl
  all_goals
    refine ⟨fun c hc => ?_, by simp, by decide, by decide⟩
    simp only [List.mem_cons, List.not_mem_nil, or_false] at hc
    subst hc
    exact .inr (.inr (.inl (by decide))), rfl⟩

theorem simClient {s : Sim} (h : simCheck s = true) : SimClient simEnv b!"m" s (simCtx s) now := by
  simp only [simCheck, Bool.and_eq_true, decide_eq_true_eq, beq_iff_eq, List.all_eq_true, Bool.not_eq_true', decide_eq_false_iff_not] at h
  obtain ⟨⟨⟨⟨⟨⟨⟨h1, h2⟩, h3⟩, h4⟩, h5⟩, h6⟩, h7⟩, h8⟩ := h
  exact {
    sameEnv := rfl
    root := h1
    url := by rw [h2]; rfl
    online := rfl
    caching := rfl
    sameDir := rfl
    dirs := ⟨by simp, by simp [simCtx, cfg]⟩
    disk := ⟨fun _ => rfl, fun _ => rfl, fun _ _ => rfl, fun _ _ => Nat.le_refl _, fun _ _ _ => rfl⟩
    mkdir := fun _ _ => rfl
    clock := fun _ => rfl
    network := ⟨fun url n => answer (Sim.downloadFile simEnv url n s).1, fun _ _ _ => rfl, fun _ _ => ⟨[], rfl⟩⟩
    rotations := ⟨by simp only [simCtx, cfg]; omega, by simp [simCtx, cfg]⟩
    rootLimit := fun d hd => by have := h4 d hd; simp only [simCtx, cfg]; omega
    limits := by
      intro role n hm d hd
      have hr : role ∈ [TIMESTAMP, SNAPSHOT, TARGETS] ∧ 16384 ≤ n := by
        simp only [List.mem_cons, List.not_mem_nil, or_false, Prod.mk.injEq, simCtx, cfg] at hm
        rcases hm with ⟨rfl, rfl⟩ | ⟨rfl, rfl⟩ | ⟨rfl, rfl⟩ <;> exact ⟨by decide, by decide⟩
      have := h5 role hr.1
      rw [hd] at this
      simp only [decide_eq_true_eq] at this
      omega
    lengths := by
      intro name f hf
      rcases hf with hf | hf
      · simpa using h6 _ (Entries.mem_of_get? hf)
      · simpa using h7 _ (Entries.mem_of_get? hf)
    fresh := h8 }

theorem simGood : ∀ {stss : List (List SimStep)} {s : Sim}, (∀ sts ∈ stss, ∀ st ∈ sts, st.Fine (std env0)) → (∀ s1 ∈ simStates s stss, simCheck s1 = true) → GoodVisits simEnv b!"m" s (simVisits s stss)
  | [], _, _, _ => trivial
  | sts :: stss, s, h1, h2 => by
    refine ⟨h1 sts (by simp), fun s1 hs1 => ?_⟩
    have he : s1 = simAfter sts s := by unfold simAfter; rw [hs1]
    subst he
    exact ⟨simClient (h2 _ (by simp [simStates])), simGood (fun t ht => h1 t (by simp [ht])) (fun t ht => h2 t (by simp [simStates, ht]))⟩

theorem simFine : ∀ sts ∈ simSteps, ∀ st ∈ sts, st.Fine (std env0) := by
  intro sts hsts st hst
  simp only [simSteps, List.mem_cons, List.not_mem_nil, or_false] at hsts
  rcases hsts with rfl | rfl | rfl | rfl
  · cases hst
  · simp only [List.mem_cons, List.not_mem_nil, or_false] at hst
    rcases hst with rfl | rfl
    · trivial
    · refine ⟨by decide, ?_, ?_⟩
      · intro r hr
        obtain rfl := List.mem_singleton.1 hr
        refine ⟨by decide, utf8_name (by rfl), ⟨goodFields_nil _, ⟨List.Pairwise.nil, fun e he => (by cases he)⟩, ?_, fun s hs => (by cases hs), .inr rfl⟩, ?_, ?_, by decide⟩
        · intro r hr
          obtain rfl := List.mem_singleton.1 hr
          exact ⟨goodFields_nil _, by decide, .inr rfl⟩
        · refine ⟨wholeNil, fun e he => (by cases he), fun r hr => ?_, fun s hs => (by cases hs)⟩
          obtain rfl := List.mem_singleton.1 hr
          exact wholeNil
        · refine ⟨fun e he => (by cases he), fun r hr => ?_, fun s hs => (by cases hs), fieldsText_nil⟩
          obtain rfl := List.mem_singleton.1 hr
          refine ⟨utf8_name (by rfl), fun x hx => (by cases hx), fun x hx => (by cases hx), fun x hx => ?_, fieldsText_nil⟩
          obtain rfl := List.mem_singleton.1 hx
          exact utf8_name (by rfl)
      · intro f hf
        obtain rfl := List.mem_singleton.1 hf
        exact ⟨utf8_name (by rfl), by decide⟩
  · simp only [List.mem_cons, List.not_mem_nil, or_false] at hst
    rcases hst with rfl | rfl <;> trivial
  · obtain rfl := List.mem_singleton.1 hst
    trivial

theorem simStates_ok : (simStates simStart simSteps).all simCheck = true := by decide +kernel

/-- C131: the hypotheses are met by four visits: to the new repository, after new keys, a delegation and a file, after new root keys, and after a timestamp. -/
example : VisitsSucceed simEnv simStart { fs := disk [] } (simVisits simStart simSteps) := by
  obtain ⟨s, d, h1, _⟩ := C131_new (env := env0) (q := simEnv) rfl simFresh simCalendar
  have hs : simStart = { s with localDir := simDir } := by
    unfold simStart simNew
    rw [h1]
  have hgood := simGood simFine (fun s1 h => List.all_eq_true.1 simStates_ok s1 h)
  rw [hs] at hgood ⊢
  exact C131_keeps_up rfl simFresh simCalendar h1 simDir_ok (by simp [simVisits, simSteps]) hgood (fun _ _ => rfl) (fun _ => rfl)

namespace Sample

/-- New root keys and a new root, without the old signers. -/
def simLost : Sim := (nextRoot simEnv ((Sim.rotateKeys simEnv ROOT) simStart).2).2
/-- A first visit. -/
def simVisit (s : Sim) : Res Unit := match newUpdater (simCtx s) { fs := disk [] } with
  | (.ok t, w) => (refresh (simCtx s) ⟨t, w⟩).1
  | (.err e, _) => .err e
  | (.panic, _) => .panic

end Sample

/-- C131 is false if the root keys are rotated (`RotateKeys`, `PublishRoot`) without adding the old signers again: the root is then only signed by new keys, and clients do not accept it. -/
theorem C131_false_lost : (simVisit simLost matches .err (.unsignedMetadata _)) ∧ simVisit simStart = .ok () := by decide +kernel

namespace Sample

/-- A simulator with a file. -/
def simWith (path : Str) (pre : Bool) : Sim := { (Sim.addTarget simEnv TARGETS [5] path simStart).2 with prefixTargets := pre }
def simGet (path : Str) (s : Sim) : Res Bytes := (Sim.downloadFile simEnv (simDir ++ b!"/targets/" ++ path) 100 s).1

end Sample

/-- C132: a file is not found; one with an empty part is, under another path; and without two slashes, the simulator crashes. -/
example : (simGet b!"x/y/z" (simWith b!"x/y/z" false) matches .err _) ∧ simGet b!"x/y/z" (simWith b!"x//y/z" false) = .ok [5] ∧ simGet b!"file.txt" (simWith b!"file.txt" false) = .panic := by decide +kernel

/-- C132: a hash prefix is not recognised. -/
example : (Sim.fetchTarget b!"f" (hexEncode ((std env0).sha256 [5])) (simWith b!"f" true)).1 = .err (.other "hash mismatch") ∧ (Sim.fetchTarget b!"f" [] (simWith b!"f" true)).1 = .ok [5] := by decide +kernel

/-- C132: `root.json` without a version crashes the simulator; other files are empty. -/
example : (Sim.downloadFile simEnv (simDir ++ b!"/metadata/root.json") 100 simStart).1 = .panic ∧ (Sim.downloadFile simEnv (simDir ++ b!"/other") 100 simStart).1 = .ok [] := by decide +kernel

namespace Sample

/-- A delegated role, and one that it delegates to. -/
def simDelegated : Sim := (Sim.addDelegation simEnv TARGETS simRole (newTargets simExpiry).signed simStart).2
def simNested : Res Unit × Sim := Sim.addDelegation simEnv b!"role" { simRole with name := b!"inner" } (newTargets simExpiry).signed simDelegated

end Sample

/-- C133: delegating from the top level works, from a delegated role it says so but does nothing, and hash bins crash. -/
example : (simDelegated.targets.signed.delegations.map (fun d => d.roles.elems.map DelegatedRole.name)) = some [b!"role"] ∧ simNested.1 = .ok () ∧
    (simNested.2.delegates.get? b!"role").map (fun m => m.signed.delegations.isSome) = some false ∧ (Sim.addSuccinctRoles simEnv TARGETS 1 b!"bin" simStart).1 = .panic := by decide +kernel

end Tuf
