import Verif.Props.SimulatorDump
import Verif.Props.SimulatorCase

/-! # Cases of C146 -/

namespace Tuf
open Tuf.Spec Tuf.Sample Tuf.Std

namespace Sample

def dumpHost : Host := hostOf (fun _ => .ok [])
/-- The simulator after all steps of the visits of C131, dumped for the second time, into `/d`. -/
def simDumped : Sim := simAfter simSteps.flatten simStart
def dumpOf (s : Sim) : Res Unit × DumpSt := Sim.dump simEnv dumpHost b!"/tmp" ⟨s, b!"/d", 1, { fs := disk [] }⟩
/-- A client in local mode with a dump. -/
def dumpCtx (s : Sim) : Ctx := ⟨std env0, dumpHost, { cfg with localTrustedRoot := s.signedRoots.getLastD [], localMetadataDir := b!"/d/2", unsafeLocalMode := true, disableLocalCache := true }⟩
def dumpVisit (s : Sim) : Res Unit := match newUpdater (dumpCtx s) { fs := (dumpOf s).2.world.fs } with
  | (.ok t, w) => (refresh (dumpCtx s) ⟨t, w⟩).1
  | (.err e, _) => .err e
  | (.panic, _) => .panic
def hasFile (s : Sim) (path : Str) : Bool := ((dumpOf s).2.world.fs path).isSome
/-- A delegated role with another name. -/
def simNamed (name : Str) : Sim := (Sim.addDelegation simEnv TARGETS { simRole with name := name } (newTargets simExpiry).signed simStart).2

end Sample

theorem dumpDisk : GoodDisk dumpHost := ⟨fun _ => rfl, fun _ => rfl, fun _ _ => rfl, fun _ _ => Nat.le_refl _, fun _ _ _ => rfl⟩

theorem simDumped_check : simCheck simDumped = true ∧ simDumped.signedRoots.length = 4 ∧ (simDumped.delegates.get? b!"role").isSome ∧ simDumped.delegates.map Prod.fst = [b!"role"] ∧
    (inTurn (SimStep.run simEnv) simSteps.flatten simStart).1 = .ok () := by decide +kernel

theorem simDumped_short : ShortFiles simDumped := (simClient simDumped_check.1).lengths

theorem simDumped_eq {s s1 : Sim} (hs : simStart = { s with localDir := simDir }) (h : inTurn (SimStep.run simEnv) simSteps.flatten { s with localDir := simDir } = (.ok (), s1)) : s1 = simDumped := by
  unfold simDumped simAfter
  rw [hs, h]

theorem simDumped_fresh : ¬ Expired simExpiry now := by unfold Expired; decide +kernel

section
attribute [local irreducible] simDumped simStart

/-- C146: the hypotheses are met by the repository after the steps of C131, with three new roots and a delegated role, and a client of it. -/
example : ∃ st' t0 w1 c, dumpOf simDumped = (.ok (), st') ∧ st'.world.fs b!"/d/2/1.root.json" = simDumped.signedRoots[0]? ∧
    newUpdater (dumpCtx simDumped) { fs := st'.world.fs } = (.ok t0, w1) ∧ refresh (dumpCtx simDumped) ⟨t0, w1⟩ = (.ok (), c) ∧ TrustsSim simDumped c.trusted := by
  obtain ⟨s, d, h1, _⟩ := C131_new (env := env0) (q := simEnv) rfl simFresh simCalendar
  have hs : simStart = { s with localDir := simDir } := by
    unfold simStart simNew
    rw [h1]
  obtain ⟨s1, h2, h3⟩ := C146_dump_partial (env := env0) (q := simEnv) rfl simFresh simCalendar h1 (loc := simDir) (steps := simSteps.flatten) (by decide) (fun st hst => by
    obtain ⟨sts, h3, h4⟩ := List.mem_flatten.1 hst
    exact simFine sts h3 st h4)
  obtain rfl := simDumped_eq hs h2
  obtain ⟨st', h4, h5⟩ := h3 simDumped_short dumpHost b!"/tmp" b!"/d" 1 { fs := disk [] } dumpDisk
  obtain ⟨h6, _, h7⟩ := h5 b!"/d/2" (by decide +kernel)
  have hlen := simDumped_check.2.1
  obtain ⟨d0, hd0⟩ : ∃ d0, simDumped.signedRoots[0]? = some d0 := ⟨_, List.getElem?_eq_getElem (by omega)⟩
  obtain ⟨t0, w1, c, h8⟩ := h7 (dumpCtx simDumped) { fs := st'.world.fs } rfl (by
      show _ = some (simDumped.signedRoots.getLastD [])
      cases hx : simDumped.signedRoots with
      | nil => rw [hx] at hlen; cases hlen
      | cons a b => simp [List.getLast?_cons]) (by decide) rfl rfl (fun _ _ => rfl) rfl
    simDumped_fresh (.inl rfl)
  refine ⟨st', t0, w1, c, h4, ?_, h8⟩
  have hp : joinPath b!"/d/2" (formatInt 10 (((0 : Nat) : Int) + 1) ++ b!".root.json") = b!"/d/2/1.root.json" := by decide +kernel
  rw [hd0, ← hp]
  refine h6 0 d0 hd0 ?_
  have hn := simDumped_check.2.2.2.1
  cases hg : simDumped.delegates.get? (formatInt 10 (((0 : Nat) : Int) + 1) ++ b!".root") with
  | none => rfl
  | some md =>
    have := List.mem_map_of_mem (f := Prod.fst) (Entries.mem_of_get? hg)
    rw [hn] at this
    dsimp only at this
    clear hg
    exact absurd this (by decide +kernel)

end

/-- C146: everything of it is there. -/
example : [b!"/d/2/1.root.json", b!"/d/2/4.root.json", b!"/d/2/timestamp.json", b!"/d/2/role.json"].all (hasFile simDumped) = true ∧ hasFile simDumped b!"/d/2/5.root.json" = false := by decide +kernel

/-- C146 is false if a delegated role is called `1.root`: it is dumped over the first root. -/
theorem C146_false : (dumpOf (simNamed b!"1.root")).1 = .ok () ∧ (dumpOf (simNamed b!"1.root")).2.world.fs b!"/d/2/1.root.json" ≠ (simNamed b!"1.root").signedRoots[0]? ∧
    (dumpOf simStart).2.world.fs b!"/d/2/1.root.json" = simStart.signedRoots[0]? := by decide +kernel

/-- C146: a role whose name is escaped is dumped where a client in local mode does not look for it. -/
theorem C146_escaped : hasFile (simNamed b!"a b") b!"/d/2/a%20b.json" = true ∧ hasFile (simNamed b!"a b") (localPath (dumpCtx simStart).cfg b!"a b") = false ∧
    hasFile simDumped (localPath (dumpCtx simStart).cfg b!"role") = true := by decide +kernel

/-- C146: with a delegated role that is called `root`, the dump crashes. -/
theorem C146_crash : (dumpOf (simNamed b!"root")).1 = .panic := by decide +kernel

end Tuf
