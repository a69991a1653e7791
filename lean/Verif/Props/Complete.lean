import Verif.Props.Payload
import Verif.Proofs.Complete

/-!
# C66 for complete documents

If the document's member `signed` has all mandatory members in their normal form, then the payload over which VerifyDelegate checks signatures is
the canonical form of that member.
-/

namespace Tuf
open Spec Sample

theorem C66_root_partial {env : Env} {data : Bytes} {m : Metadata RootType} (h : fromBytes env data = .ok m) {doc : List (Str × Json)} (hd : env.parse data = some (.obj doc))
    {s : Json} (hs : LastMember doc b!"signed" s) (he : SpelledExactly doc b!"signed") (hc : RootDoc env s) : canonical s = payload m.signed :=
  payload_of_faithful (RootType.faithful hc (signed_of h hd hs he))

theorem C66_snapshot_partial {env : Env} {data : Bytes} {m : Metadata SnapshotType} (h : fromBytes env data = .ok m) {doc : List (Str × Json)} (hd : env.parse data = some (.obj doc))
    {s : Json} (hs : LastMember doc b!"signed" s) (he : SpelledExactly doc b!"signed") (hc : MetasDoc env s) : canonical s = payload m.signed :=
  payload_of_faithful (SnapshotType.faithful hc (signed_of h hd hs he))

theorem C66_timestamp_partial {env : Env} {data : Bytes} {m : Metadata TimestampType} (h : fromBytes env data = .ok m) {doc : List (Str × Json)} (hd : env.parse data = some (.obj doc))
    {s : Json} (hs : LastMember doc b!"signed" s) (he : SpelledExactly doc b!"signed") (hc : MetasDoc env s) : canonical s = payload m.signed :=
  payload_of_faithful (TimestampType.faithful hc (signed_of h hd hs he))

theorem C66_targets_partial {env : Env} {data : Bytes} {m : Metadata TargetsType} (h : fromBytes env data = .ok m) {doc : List (Str × Json)} (hd : env.parse data = some (.obj doc))
    {s : Json} (hs : LastMember doc b!"signed" s) (he : SpelledExactly doc b!"signed") (hc : TargetsDoc env s) : canonical s = payload m.signed :=
  payload_of_faithful (TargetsType.faithful hc (signed_of h hd hs he))

/-! ## Documents that meet the hypotheses -/

namespace Sample

/-- A targets document in no particular order, with a delegation, custom data and unrecognised members. -/
def completeTargets : List (Str × Json) :=
  [(b!"version", .num 3), (b!"_type", .str TARGETS), (b!"x-note", .arr [.num 1, .null]), (b!"spec_version", .str b!"1.0.31"), (b!"expires", .str b!"soon"),
    (b!"targets", .obj [(b!"b", .obj [(b!"hashes", .obj [(b!"sha256", .str b!"00ff")]), (b!"length", .num 0), (b!"custom", .obj [(b!"k", .num 1)])])]),
    (b!"delegations", .obj [
      (b!"roles", .arr [.obj [(b!"name", .str b!"d"), (b!"keyids", .arr [.str b!"k"]), (b!"threshold", .num 1), (b!"terminating", .bool true),
        (b!"paths", .arr [.str b!"*"])]]),
      (b!"keys", .obj [(b!"k", .obj [(b!"keytype", .str b!"ed25519"), (b!"scheme", .str b!"ed25519"), (b!"keyval", .obj [(b!"public", .str b!"00")])])])])]

/-- A timestamp. -/
def completeTimestamp : List (Str × Json) :=
  [(b!"version", .num 3), (b!"_type", .str TIMESTAMP), (b!"spec_version", .str b!"1.0.31"), (b!"expires", .str b!"soon"),
    (b!"meta", .obj [(b!"snapshot.json", .obj [(b!"hashes", .obj [(b!"sha256", .str b!"00ff")]), (b!"version", .num 4), (b!"length", .num 10)])])]

/-- A root. -/
def completeRoot : List (Str × Json) :=
  [(b!"version", .num 3), (b!"_type", .str ROOT), (b!"spec_version", .str b!"1.0.31"), (b!"expires", .str b!"soon"), (b!"consistent_snapshot", .bool false),
    (b!"roles", .obj [(b!"root", .obj [(b!"threshold", .num 1), (b!"keyids", .arr [.str b!"k"])])]),
    (b!"keys", .obj [(b!"k", .obj [(b!"keytype", .str b!"ed25519"), (b!"scheme", .str b!"ed25519"), (b!"x", .str b!"y"), (b!"keyval", .obj [(b!"public", .str b!"00")])])])]

/-- All elements of a concrete list. -/
macro "each" : tactic => `(tactic| repeat' (first | exact List.forall_mem_nil _ | refine List.forall_mem_cons.2 ⟨?_, ?_⟩))

/-- Find a member of a concrete object. -/
macro "member" : tactic => `(tactic| repeat' (first | exact List.Mem.head _ | apply List.Mem.tail))

/-- The members of a concrete object: leaves the shapes of mandatory and optional members. -/
macro "object" : tactic => `(tactic| (
  refine ⟨_, rfl, ⟨by decide, ?_, ?_, ?_⟩⟩
  all_goals each
  all_goals first
    | (refine ⟨_, by member, ?_⟩; first | exact ⟨_, rfl⟩ | exact ⟨_, .inl rfl⟩ | skip)
    | (intro hn; refine absurd ?_ hn; simp; done)
    | (intro hn; refine ⟨rfl, ?_⟩; each; all_goals exact not_spelled (by decide))
    | (intro v hv; simp at hv; try subst hv)))

end Sample

example : (bothForms TargetsType (rtEnv (signedDoc completeTargets) .null) completeTargets).1.isOk = true ∧
    (bothForms TargetsType (rtEnv (signedDoc completeTargets) .null) completeTargets).1 = (bothForms TargetsType (rtEnv (signedDoc completeTargets) .null) completeTargets).2 := by
  decide +kernel

example : MetasDoc (rtEnv (signedDoc completeTimestamp) .null) (.obj completeTimestamp) := by
  unfold completeTimestamp
  object
  · exact ⟨_, _, rfl, rfl, rfl⟩
  · refine ⟨_, rfl, by decide, ?_⟩
    each
    object
    · exact ⟨⟨_, rfl⟩, by simp⟩
    · refine ⟨⟨_, rfl, by decide, ?_⟩, by simp⟩
      each
      exact ⟨[0, 255], rfl⟩

example : RootDoc (rtEnv (signedDoc completeRoot) .null) (.obj completeRoot) := by
  unfold completeRoot
  object
  · exact ⟨_, _, rfl, rfl, rfl⟩
  · refine ⟨_, rfl, by decide, ?_⟩
    each
    object
    object
  · refine ⟨_, rfl, by decide, ?_⟩
    each
    object
    refine ⟨_, rfl, ?_⟩
    each
    exact ⟨_, .inl rfl⟩

example : TargetsDoc (rtEnv (signedDoc completeTargets) .null) (.obj completeTargets) := by
  unfold completeTargets
  object
  · exact ⟨_, _, rfl, rfl, rfl⟩
  · refine ⟨_, rfl, by decide, ?_⟩
    each
    object
    · refine ⟨_, rfl, by decide, ?_⟩
      each
      exact ⟨[0, 255], rfl⟩
    · simp
  · refine ⟨?_, .inr ⟨_, rfl, by decide⟩⟩
    object
    · refine ⟨_, rfl, by decide, ?_⟩
      each
      object
      object
    · refine ⟨_, rfl, ?_⟩
      each
      refine ⟨?_, .inr ⟨_, rfl, by decide⟩⟩
      object
      · refine ⟨_, rfl, ?_⟩
        each
        exact ⟨_, .inl rfl⟩
      · refine ⟨_, rfl, ?_⟩
        each
        exact ⟨_, .inl rfl⟩

/-- The other hypotheses. -/
example : (fromBytes (T := TargetsType) (rtEnv (signedDoc completeTargets) .null) [1]).isOk = true ∧
    (fromBytes (T := TimestampType) (rtEnv (signedDoc completeTimestamp) .null) [1]).isOk = true ∧
    (fromBytes (T := RootType) (rtEnv (signedDoc completeRoot) .null) [1]).isOk = true := by decide +kernel

end Tuf
