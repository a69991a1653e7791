import Verif.Model.SimulatorDump
import Verif.Spec.Simulator

/-! # Specification of the dump of the repository simulator -/

namespace Tuf.Spec
open Tuf

/-- The simulator after calls of `FetchMetadata`, whatever their results. Maps may have been iterated over in between. -/
inductive AfterFetches (q : SimEnv) (s : Sim) : Sim → Prop
  | start : AfterFetches q s s
  | fetch {s1 : Sim} (role : Str) (version : Int) : AfterFetches q s s1 → AfterFetches q s (Sim.fetchMetadata q role version s1).2
  | iterated {s1 : Sim} (n : Nat) : AfterFetches q s s1 → AfterFetches q s { s1 with iterations := n }

/-- `FetchMetadata` answers with this data after some other calls; or it fails, and the data is empty. -/
def Fetched (q : SimEnv) (s : Sim) (role : Str) (version : Int) (data : Bytes) : Prop :=
  ∃ s1, AfterFetches q s s1 ∧ ((Sim.fetchMetadata q role version s1).1 = .ok data ∨ ((∃ e, (Sim.fetchMetadata q role version s1).1 = .err e) ∧ data = []))

/-- The lengths that snapshot and timestamp list fit into an integer. -/
def ShortFiles (s : Sim) : Prop :=
  ∀ name f, s.snapshot.signed.metas.get? name = some (some f) ∨ s.timestamp.signed.metas.get? name = some (some f) → f.length < 2 ^ 63

/-- The updater `c` trusts what the simulator has. -/
structure TrustsSim (s : Sim) (c : Trusted) : Prop where
  root : c.root.signed = readRoot s.root.signed
  timestamp : ∃ ts, c.timestamp = some ts ∧ ts.signed = viewTimestamp s.timestamp.signed
  snapshot : ∃ sn, c.snapshot = some sn ∧ sn.signed = viewSnapshot s.snapshot.signed
  targets : ∃ tg, c.targets = [(b!"targets", tg)] ∧ tg.signed = readTargets s.targets.signed

end Tuf.Spec
