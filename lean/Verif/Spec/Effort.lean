import Verif.Spec.Updater

/-!
# How much a call can be made to do

The effort of a call is counted in the events it adds to the history: every system call, every request and every byte received.
-/

namespace Tuf.Spec

/-- The sum of a weight over a history. -/
def total (w : Event → Nat) (tr : List Event) : Nat := (tr.map w).sum

/-- Every operation on the disk or the network counts. -/
def anyStep : Event → Nat := fun _ => 1

/-- Requests count. -/
def aRequest : Event → Nat
  | .fetch .. => 1
  | _ => 0

/-- Bytes that are received count. -/
def bytesIn : Event → Nat
  | .fetch _ _ (.ok d) => d.length
  | _ => 0

/-- The fetcher returns no more than the limit it is given (the default one does, `C74_bounded`). -/
def ObeysLimits (h : Host) : Prop := ∀ tr url n d, h.fetch tr url n = .ok d → (d.length : Int) ≤ n

/-- The limit for a file: the listed length, or the configured maximum if none is listed; nothing is fetched if the file is not listed. -/
def listedLimit (metas : GoMap (Option MetaFiles)) (file : Str) (dflt : Int) : Nat :=
  match metas.get? file with
  | some (some m) => if m.length = 0 then dflt.toNat else m.length.toNat
  | _ => 0

/-- What the trusted timestamp allows for the snapshot. -/
def snapshotAllowance (c : Cfg) (t : Trusted) : Nat :=
  match t.timestamp with
  | some ts => listedLimit ts.signed.metas b!"snapshot.json" c.snapshotMaxLength
  | none => 0

/-- What the trusted snapshot allows for a targets role. -/
def targetsAllowance (c : Cfg) (t : Trusted) (role : Str) : Nat :=
  match t.snapshot with
  | some sn => listedLimit sn.signed.metas (role ++ b!".json") c.targetsMaxLength
  | none => 0

end Tuf.Spec
