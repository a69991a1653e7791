import Verif.Spec.Publish
import Verif.Spec.Signable
import Verif.Spec.Std.Text
import Verif.Spec.Example
import Verif.Spec.KeyMgmt

/-! # Specification of what the repository API builds

A history of edits of a new document: calls of the methods and assignments to fields, as a program that maintains a repository makes them. A call that fails or panics leaves what it
left. -/

namespace Tuf.Spec
open Tuf Tuf.Std

/-! ## Root -/

/-- An edit of root metadata. -/
inductive RootEdit where
  /-- `AddKey(key, role)` -/
  | add (key : Key) (role : Str)
  /-- `RevokeKey(keyID, role)` -/
  | revoke (keyID role : Str)
  /-- `Roles[role].Threshold = n` -/
  | threshold (role : Str) (n : Int)
  /-- `Version = n` -/
  | version (n : Int)
  /-- `Expires = e` -/
  | expires (e : Time)
  /-- `ConsistentSnapshot = b` -/
  | consistent (b : Bool)
  /-- It is written and read again. -/
  | reread

/-- Root metadata after an edit. -/
def RootEdit.run (env : Env) (r : RootType) : RootEdit → RootType
  | .add key role => (r.addKey env key role).2
  | .revoke id role => (r.revokeKey id role).2
  | .threshold role n => match r.roles.get? role with
    | some (some a) => { r with roles := r.roles.map (fun es => es.set role (some { a with threshold := n })) }
    | _ => r
  | .version n => { r with version := n }
  | .expires e => { r with expires := e }
  | .consistent b => { r with consistentSnapshot := b }
  | .reread => readRoot r

/-- Root metadata after a history that begins with a new document. -/
def rootAfter (env : Env) (e : Time) (edits : List RootEdit) : RootType := edits.foldl (RootEdit.run env) (newRoot e).signed

/-- A key of texts and integers. `d` says how deep unrecognised fields may be (any keys without them will do). -/
structure FineKey (env : Env) (d : Nat) (k : Key) : Prop where
  good : GoodKey env k
  whole : WholeKey k
  text : KeyText d k
  id : Utf8 k.id

/-- The arguments are texts, integers of 64 bits, times of the calendar. -/
def RootEdit.Fine (env : Env) : RootEdit → Prop
  | .add key _ => FineKey env 9995 key
  | .threshold _ n => inInt64 n = true
  | .version n => inInt64 n = true
  | .expires e => CalendarTime e
  | _ => True

/-! ## Targets -/

/-- An edit of targets metadata. -/
inductive TargetsEdit where
  /-- `Targets[path] = file` -/
  | target (path : Str) (file : TargetFiles)
  /-- `delete(Targets, path)` -/
  | remove (path : Str)
  /-- `Delegations = d` -/
  | delegate (d : Option Delegations)
  /-- `AddKey(key, role)` -/
  | add (key : Key) (role : Str)
  /-- `RevokeKey(keyID, role)` -/
  | revoke (keyID role : Str)
  /-- `Version = n` -/
  | version (n : Int)
  /-- `Expires = e` -/
  | expires (e : Time)
  /-- It is written and read again. -/
  | reread

/-- Targets metadata after an edit. -/
def TargetsEdit.run (env : Env) (t : TargetsType) : TargetsEdit → TargetsType
  | .target path file => { t with targets := t.targets.map (fun es => es.set path (some file)) }
  | .remove path => { t with targets := t.targets.del path }
  | .delegate d => { t with delegations := d }
  | .add key role => (t.addKey env key role).2
  | .revoke id role => (t.revokeKey id role).2
  | .version n => { t with version := n }
  | .expires e => { t with expires := e }
  | .reread => readTargets t

def targetsAfter (env : Env) (e : Time) (edits : List TargetsEdit) : TargetsType := edits.foldl (TargetsEdit.run env) (newTargets e).signed

/-- The arguments are texts, integers of 64 bits, times of the calendar; delegations have one kind of roles, and roles one kind of paths. -/
def TargetsEdit.Fine (env : Env) : TargetsEdit → Prop
  | .target path file => Utf8 path ∧ GoodTarget env file ∧ WholeTarget file ∧ TargetText 9995 file
  | .delegate d => ∀ a, d = some a → GoodDelegations env a ∧ WholeDelegations a ∧ DelegationsText 9994 a
  | .add key _ => FineKey env 9994 key
  | .version n => inInt64 n = true
  | .expires e => CalendarTime e
  | _ => True

/-! ## Snapshot and timestamp -/

/-- An edit of snapshot or timestamp metadata. -/
inductive MetaEdit where
  /-- `Meta[name] = file` -/
  | file (name : Str) (file : MetaFiles)
  /-- `delete(Meta, name)` -/
  | remove (name : Str)
  /-- `Version = n` -/
  | version (n : Int)
  /-- `Expires = e` -/
  | expires (e : Time)
  /-- It is written and read again. -/
  | reread

def MetaEdit.runSnapshot (a : SnapshotType) : MetaEdit → SnapshotType
  | .file name f => { a with metas := a.metas.map (fun es => es.set name (some f)) }
  | .remove name => { a with metas := a.metas.del name }
  | .version n => { a with version := n }
  | .expires e => { a with expires := e }
  | .reread => viewSnapshot a

def MetaEdit.runTimestamp (a : TimestampType) : MetaEdit → TimestampType
  | .file name f => { a with metas := a.metas.map (fun es => es.set name (some f)) }
  | .remove name => { a with metas := a.metas.del name }
  | .version n => { a with version := n }
  | .expires e => { a with expires := e }
  | .reread => viewTimestamp a

def snapshotAfter (e : Time) (edits : List MetaEdit) : SnapshotType := edits.foldl MetaEdit.runSnapshot (newSnapshot e).signed
def timestampAfter (e : Time) (edits : List MetaEdit) : TimestampType := edits.foldl MetaEdit.runTimestamp (newTimestamp e).signed

/-- The arguments are texts, integers of 64 bits, times of the calendar. -/
def MetaEdit.Fine (env : Env) : MetaEdit → Prop
  | .file name f => Utf8 name ∧ GoodMeta env f ∧ WholeMeta f ∧ MetaText 9995 f
  | .version n => inInt64 n = true
  | .expires e => CalendarTime e
  | _ => True

/-! ## Publishing -/

/-- The value can be published: working signers with different key IDs can sign it, the document can be written, compact or indented, and it is read as `read`, with all signatures. -/
def CanBePublished {T : Type} [RoleType T] (env : Env) (a read : T) : Prop :=
  ∀ (ss : List Signer) (pretty : Bool), (∀ s ∈ ss, Works env s) → ss.Pairwise (fun s s' => ∀ id, SignerID env s id → ¬ SignerID env s' id) →
    ∃ m data, SignedBy env { signed := a, signatures := some [] } ss m ∧ toBytes env m pretty = .ok data ∧ fromBytes env data = .ok { m with signed := read }

end Tuf.Spec
