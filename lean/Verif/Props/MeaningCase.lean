import Verif.Props.MeaningTypes
import Verif.Props.MapFileCase

/-! # What documents say: cases -/

namespace Tuf
open Spec Sample

set_option synthInstance.maxSize 1000

/-- The members that are spellings of the name. -/
def spellings (m : List (Str × Json)) (n : Str) : List (Str × Json) := m.filter (fun e => foldKey e.1 == foldKey n)

theorem plain_of {names : List Str} {m : List (Str × Json)} (hs : ∀ n ∈ names, SimpleName n) (h : names.all (fun n => decide ((spellings m n).length ≤ 1)) = true) : Plain names m := by
  intro n hn
  have h := of_decide_eq_true (List.all_eq_true.1 h n hn)
  have hsp : ∀ e : Str × Json, Spelled n e.1 ↔ (foldKey e.1 == foldKey n) = true := fun e => by rw [beq_iff_eq, foldKey_spelled (hs n hn)]
  match hl : spellings m n with
  | [] =>
    refine .inl (fun e he hs => ?_)
    have : e ∈ spellings m n := List.mem_filter.2 ⟨he, (hsp e).1 hs⟩
    rw [hl] at this; cases this
  | [e] =>
    obtain ⟨p, q, rfl, h1, h2, h3⟩ := List.filter_eq_cons_iff.1 hl
    refine .inr ⟨e.2, p, e.1, q, rfl, (hsp e).2 h2, ?_⟩
    intro e' he' hs
    rcases List.mem_append.1 he' with he' | he'
    · exact h1 e' he' ((hsp e').1 hs)
    · exact List.filter_eq_nil_iff.1 h3 e' he' ((hsp e').1 hs)
  | _ :: _ :: _ => rw [hl] at h; simp at h

theorem atField_of {m : List (Str × Json)} {n : Str} {Q : Json → Prop} (hs : SimpleName n) (l : List (Str × Json)) (hl : spellings m n = l) (h : ∀ e ∈ l, Q e.2) : AtField m n Q := by
  subst hl
  intro e he hsp
  exact h e (List.mem_filter.2 ⟨he, by rw [beq_iff_eq]; exact (foldKey_spelled hs).2 hsp⟩)

namespace Sample

def saySig (id : Str) : Json := .obj [(b!"keyid", .str id), (b!"SIG", .str b!"0aF1"), (b!"comment", .num 7)]

def sayKey : Json := .obj [(b!"keytype", .str b!"ed25519"), (b!"scheme", .str b!"ed25519"), (b!"KeyVal", .obj [(b!"public", .str b!"aa"), (b!"extra", .null)])]

def sayRoot : Json := .obj [(b!"signatures", .arr [saySig b!"k", .null]), (b!"signed", .obj [(b!"_type", .str b!"root"), (b!"VERSION", .num 4), (b!"expires", .str b!"2030"), (b!"x", .bool true),
  (b!"keys", .obj [(b!"k", sayKey), (b!"l", .null), (b!"k", .obj [])]), (b!"roles", .obj [(b!"root", .obj [(b!"keyids", .arr [.str b!"k", .null]), (b!"threshold", .num 2)])]), (b!"consistent_snapshot", .bool true)])]

def sayTimestamp : Json := .obj [(b!"signed", .obj [(b!"_type", .str b!"timestamp"), (b!"spec_version", .str b!"1.0.31"), (b!"version", .null),
  (b!"meta", .obj [(b!"snapshot.json", .obj [(b!"Version", .num 3), (b!"hashes", .obj [(b!"sha256", .str b!"00")])])])])]

def saySnapshot : Json := .obj [(b!"signed", .obj [(b!"_type", .str b!"snapshot"), (b!"Spec_Version", .str b!"1.0.31"), (b!"version", .num 2),
  (b!"meta", .obj [(b!"targets.json", .obj [(b!"version", .num 3)]), (b!"a.json", .null)])]), (b!"signatures", .null), (b!"other", .arr [])]

def sayTargets : Json := .obj [(b!"signed", .obj [(b!"_type", .str b!"targets"), (b!"version", .num 2),
  (b!"targets", .obj [(b!"a", .null), (b!"b", .obj [(b!"length", .num 5), (b!"custom", .arr [.null])]), (b!"a", .obj [(b!"length", .num 6), (b!"hashes", .null)])]),
  (b!"delegations", .obj [(b!"keys", .obj [(b!"k", sayKey)]), (b!"roles", .arr [.obj [(b!"name", .str b!"r"), (b!"Paths", .arr [.str b!"*"])]]), (b!"succinct_roles", .null)])]), (b!"signatures", .arr [])]

/-- A document that speaks twice: both lists of targets are read. -/
def sayTwice : Json := .obj [(b!"signed", .obj [(b!"_type", .str b!"targets"), (b!"targets", .obj [(b!"a", .obj [])]), (b!"TARGETS", .obj [(b!"b", .obj [])])])]

def sayEnv : Env := { env0 with parse := fun b => match b with
  | [1] => some sayRoot
  | [2] => some sayTimestamp
  | [3] => some saySnapshot
  | [4] => some sayTargets
  | [5] => some sayTwice
  | _ => none }

end Sample

theorem single_key : SingleKey sayKey := by
  intro m hm
  cases hm
  refine ⟨plain_of (by decide) (by decide), atField_of (by decide) [(b!"KeyVal", _)] rfl ?_⟩
  simp only [List.mem_cons, List.not_mem_nil, or_false, forall_eq]
  intro m hm
  cases hm
  exact plain_of (by decide) (by decide)

theorem single_sig (id : Str) : SingleSignature (saySig id) := by
  intro m hm
  cases hm
  exact plain_of (by decide) (by rfl)

/-- C137 for a root with members in several spellings, a repeated key and a `null` signature. -/
example : (∀ j, sayEnv.parse [1] = some j → SingleDocument SingleRoot j) ∧
    (fromBytes (T := RootType) sayEnv [1]).map (fun m => (m.signed.version, m.signed.roles.entries.map (fun e => (e.1, e.2.map (fun r => (r.keyIDs.elems, r.threshold)))),
        m.signed.keys.entries.map (fun e => (e.1, e.2.map (·.type))), m.signatures.elems.map (fun s => (s.keyID, s.sig)))) =
      .ok (4, [(b!"root", some ([b!"k", []], 2))], [(b!"k", some []), (b!"l", none)], [(b!"k", [0x0a, 0xf1]), ([], [])]) := by
  refine ⟨?_, by decide +kernel⟩
  intro j hj
  cases hj
  intro m hm
  cases hm
  refine ⟨plain_of (by decide) (by decide), atField_of (by decide) [(b!"signed", _)] rfl ?_, atField_of (by decide) [(b!"signatures", _)] rfl ?_⟩
  · simp only [List.mem_cons, List.not_mem_nil, or_false, forall_eq]
    intro m hm
    cases hm
    refine ⟨plain_of (by decide) (by decide), atField_of (by decide) [(b!"keys", _)] rfl ?_, atField_of (by decide) [(b!"roles", _)] rfl ?_⟩
    · simp only [List.mem_cons, List.not_mem_nil, or_false, forall_eq]
      intro m hm
      cases hm
      simp only [List.mem_cons, List.not_mem_nil, or_false, forall_eq_or_imp, forall_eq]
      exact ⟨single_key, nofun, fun m hm => by cases hm; exact ⟨plain_of (by decide) (by decide), by intro e he; cases he⟩⟩
    · simp only [List.mem_cons, List.not_mem_nil, or_false, forall_eq]
      intro m hm
      cases hm
      simp only [List.mem_cons, List.not_mem_nil, or_false, forall_eq]
      intro m hm
      cases hm
      exact plain_of (by decide) (by decide)
  · simp only [List.mem_cons, List.not_mem_nil, or_false, forall_eq]
    intro l hl
    cases hl
    simp only [List.mem_cons, List.not_mem_nil, or_false, forall_eq_or_imp, forall_eq]
    exact ⟨single_sig _, nofun⟩

theorem forObj_meta {o : List (Str × Json)} (h : ∀ e ∈ o, SingleMetaFiles e.2) : ForEntries SingleMetaFiles (.obj o) := by
  intro m hm
  cases hm
  exact h

/-- C137 for a timestamp without signatures; its version is `null`. -/
example : (∀ j, sayEnv.parse [2] = some j → SingleDocument SingleTimestamp j) ∧
    (fromBytes (T := TimestampType) sayEnv [2]).map (fun m => (m.signed.version, m.signed.metas.entries.map (fun e => (e.1, e.2.map (fun f => (f.version, f.hashes.entries.length)))), m.signatures.elems.map (·.keyID))) =
      .ok (0, [(b!"snapshot.json", some (3, 1))], []) := by
  refine ⟨?_, by decide +kernel⟩
  intro j hj
  cases hj
  intro m hm
  cases hm
  refine ⟨plain_of (by decide) (by decide), atField_of (by decide) [(b!"signed", _)] rfl ?_, atField_of (by decide) [] rfl (by simp)⟩
  simp only [List.mem_cons, List.not_mem_nil, or_false, forall_eq]
  intro m hm
  cases hm
  refine ⟨plain_of (by decide) (by decide), atField_of (by decide) [(b!"meta", _)] rfl ?_⟩
  simp only [List.mem_cons, List.not_mem_nil, or_false, forall_eq]
  refine forObj_meta ?_
  simp only [List.mem_cons, List.not_mem_nil, or_false, forall_eq]
  intro m hm
  cases hm
  exact plain_of (by decide) (by decide)

/-- C137 for a snapshot with an entry that is `null` and an unrecognised member. -/
example : (∀ j, sayEnv.parse [3] = some j → SingleDocument SingleSnapshot j) ∧
    (fromBytes (T := SnapshotType) sayEnv [3]).map (fun m => (m.signed.version, m.signed.specVersion, m.signed.metas.entries.map (fun e => (e.1, e.2.map (·.version))), m.signatures.isSome, m.unrec.keys, m.signed.unrec.keys)) =
      .ok (2, b!"1.0.31", [(b!"a.json", none), (b!"targets.json", some 3)], false, [b!"other"], [b!"Spec_Version"]) := by
  refine ⟨?_, by decide +kernel⟩
  intro j hj
  cases hj
  intro m hm
  cases hm
  refine ⟨plain_of (by decide) (by decide), atField_of (by decide) [(b!"signed", _)] rfl ?_, atField_of (by decide) [(b!"signatures", .null)] rfl ?_⟩
  · simp only [List.mem_cons, List.not_mem_nil, or_false, forall_eq]
    intro m hm
    cases hm
    refine ⟨plain_of (by decide) (by decide), atField_of (by decide) [(b!"meta", _)] rfl ?_⟩
    simp only [List.mem_cons, List.not_mem_nil, or_false, forall_eq]
    refine forObj_meta ?_
    simp only [List.mem_cons, List.not_mem_nil, or_false, forall_eq_or_imp, forall_eq]
    refine ⟨?_, nofun⟩
    intro m hm
    cases hm
    exact plain_of (by decide) (by decide)
  · simp only [List.mem_cons, List.not_mem_nil, or_false, forall_eq]
    exact nofun

/-- C137 for targets metadata with a target that is first `null`, and a delegation. -/
example : (∀ j, sayEnv.parse [4] = some j → SingleDocument SingleTargets j) ∧
    (fromBytes (T := TargetsType) sayEnv [4]).map (fun m => (m.signed.targets.entries.map (fun e => (e.1, e.2.map (fun t => (t.length, t.path, t.custom.isSome, t.hashes.entries.length)))), m.signed.delegations.map (fun d => (d.keys.entries.map Prod.fst, d.roles.elems.map (fun r => (r.name, r.paths.elems)))))) =
      .ok ([(b!"a", some (6, b!"a", false, 0)), (b!"b", some (5, b!"b", true, 0))], some ([b!"k"], [(b!"r", [b!"*"])])) := by
  refine ⟨?_, by decide +kernel⟩
  intro j hj
  cases hj
  intro m hm
  cases hm
  refine ⟨plain_of (by decide) (by decide), atField_of (by decide) [(b!"signed", _)] rfl ?_, atField_of (by decide) [(b!"signatures", .arr [])] rfl ?_⟩
  · simp only [List.mem_cons, List.not_mem_nil, or_false, forall_eq]
    intro m hm
    cases hm
    refine ⟨plain_of (by decide) (by decide), atField_of (by decide) [(b!"targets", _)] rfl ?_, atField_of (by decide) [(b!"delegations", _)] rfl ?_⟩
    · simp only [List.mem_cons, List.not_mem_nil, or_false, forall_eq]
      intro m hm
      cases hm
      simp only [List.mem_cons, List.not_mem_nil, or_false, forall_eq_or_imp, forall_eq]
      exact ⟨nofun, fun m hm => by cases hm; exact plain_of (by decide) (by decide), fun m hm => by cases hm; exact plain_of (by decide) (by decide)⟩
    · simp only [List.mem_cons, List.not_mem_nil, or_false, forall_eq]
      intro m hm
      cases hm
      refine ⟨plain_of (by decide) (by decide), atField_of (by decide) [(b!"keys", _)] rfl ?_, atField_of (by decide) [(b!"roles", _)] rfl ?_, atField_of (by decide) [(b!"succinct_roles", .null)] rfl ?_⟩
      · simp only [List.mem_cons, List.not_mem_nil, or_false, forall_eq]
        intro m hm
        cases hm
        simp only [List.mem_cons, List.not_mem_nil, or_false, forall_eq]
        exact single_key
      · simp only [List.mem_cons, List.not_mem_nil, or_false, forall_eq]
        intro l hl
        cases hl
        simp only [List.mem_cons, List.not_mem_nil, or_false, forall_eq]
        intro m hm
        cases hm
        exact plain_of (by decide) (by decide)
      · simp only [List.mem_cons, List.not_mem_nil, or_false, forall_eq]
        exact nofun
  · simp only [List.mem_cons, List.not_mem_nil, or_false, forall_eq]
    intro l hl
    cases hl
    simp

/-- A document that speaks twice is accepted as well: of maps, all entries are read. -/
example : (fromBytes (T := TargetsType) sayEnv [5]).map (fun m => m.signed.targets.entries.map Prod.fst) = .ok [b!"a", b!"b"] := by decide +kernel

end Tuf
