import Verif.Props.KeyMgmt
import Verif.Model.Std.Env

/-! # Null roles and `RevokeKey` -/

namespace Tuf
open Tuf.Spec Tuf.Std

/-- A root document in which a role is null. -/
def nullRoleData : Bytes :=
  b!"{\"signatures\":[],\"signed\":{\"_type\":\"root\",\"keys\":{\"k\":{\"keytype\":\"a\",\"scheme\":\"a\",\"keyval\":{\"public\":\"\"}}},\"roles\":{\"other\":null,\"root\":{\"keyids\":[\"k\"],\"threshold\":1}}}}"

/-- The outcome of `RevokeKey` of key `k` for root on the root that was read: whether it crashed, the key IDs of the role and whether the key is stored before and after. -/
def nullRoleRun : Res (Bool × (List Str × Bool) × (List Str × Bool)) := do
  let m ← fromBytes (T := RootType) (std Sample.env0) nullRoleData
  let look (s : RootType) : List Str × Bool := (match s.roles.get? ROOT with
    | some (some r) => r.keyIDs.elems
    | _ => [], (s.keys.get? b!"k").isSome)
  let after := m.signed.revokeKey b!"k" ROOT
  .ok (match after.1 with
    | .panic => true
    | _ => false, look m.signed, look after.2)

/-- C57: without the condition on roles the claim is false. A document with a null role is read, and `RevokeKey` on the root crashes after the role has lost the key ID; the key is still stored, with
no role that lists it (so C58 needs the condition too). -/
theorem C57_null_role_crash : nullRoleRun = .ok (true, ([b!"k"], true), ([], true)) := by decide +kernel

end Tuf
