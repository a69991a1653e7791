import Verif.Proofs.Std.JsonGrammar
import Verif.Props.Std.Text
import Verif.Model.MultiRepo
import Verif.Proofs.Std.Spelling

/-! # C105: what is read is JSON -/

namespace Tuf
open Tuf.Spec Tuf.Std Tuf.Sample

variable {env : Env}

/-- `FromBytes` goes on exactly with the texts of the grammar, and with the value they denote. -/
theorem C105_grammar (env : Env) (data : Bytes) (j : Json) : (std env).parse data = some j ↔ JsonText data j := parseJson_iff data j

/-- What is not JSON is refused, for every type of metadata. -/
theorem C105_refused {T : Type} [RoleType T] {data : Bytes} (h : ¬ ∃ j, JsonText data j) : fromBytes (T := T) (std env) data = .err jsonErr := by
  have hp : (std env).parse data = none := by
    cases hp : (std env).parse data with
    | none => rfl
    | some j => exact absurd ⟨j, (C105_grammar env data j).1 hp⟩ h
  show (checkType (std env) (RoleType.typeName T) data).bind _ = _
  have : checkType (std env) (RoleType.typeName T) data = .err jsonErr := by
    unfold checkType
    rw [hp]
    rfl
  rw [this]
  rfl

/-- A text has at most one value. -/
theorem C105_unambiguous {data : Bytes} {j j' : Json} (h : JsonText data j) (h' : JsonText data j') : j = j' := by
  rw [← C105_grammar env0] at h h'
  rw [h] at h'
  exact Option.some.inj h'

/-- Layout does not matter: two texts of the same tree, which has the strings as they are spelled, are read alike. -/
theorem C105_layout {T : Type} [RoleType T] {data data' : Bytes} {j : Json} (h : JsonText data j) (h' : JsonText data' j) :
    fromBytes (T := T) (std env) data = fromBytes (T := T) (std env) data' := by
  rw [← C105_grammar env] at h h'
  unfold fromBytes checkType
  rw [h, h']

/-- Nor does the spelling of strings outside of times, hashes and signatures: two texts that have the same value (`SameValue`) and differ only elsewhere (`.outside`) have the
same outcome. Times, hashes and signatures with escape sequences may be refused (`C105_false_spelling`): of any two texts with the same value, one is refused or both have the
same outcome, and where they differ, it is not the one without escape sequences (`.plain`) that is refused. -/
theorem C105_spelling_root_partial {d : Difference} {data data' : Bytes} {j j' : Json} (h : JsonText data j) (h' : JsonText data' j') (hs : SameValue d j j') :
    Alike d Eq (fromBytes (T := RootType) (std env) data) (fromBytes (std env) data') := by
  rw [← C105_grammar env] at h h'
  exact (fromBytes_alike (R := Eq) rfl (fun _ _ h => RootType.alike h) h h' hs).mono fun a a' h => by
    cases a; cases a'; obtain ⟨h1, h2, h3⟩ := h; dsimp only at h1 h2 h3; rw [h1, h2, h3]

theorem C105_spelling_timestamp_partial {d : Difference} {data data' : Bytes} {j j' : Json} (h : JsonText data j) (h' : JsonText data' j') (hs : SameValue d j j') :
    Alike d Eq (fromBytes (T := TimestampType) (std env) data) (fromBytes (std env) data') := by
  rw [← C105_grammar env] at h h'
  exact (fromBytes_alike (R := Eq) rfl (fun _ _ h => TimestampType.alike h) h h' hs).mono fun a a' h => by
    cases a; cases a'; obtain ⟨h1, h2, h3⟩ := h; dsimp only at h1 h2 h3; rw [h1, h2, h3]

theorem C105_spelling_snapshot_partial {d : Difference} {data data' : Bytes} {j j' : Json} (h : JsonText data j) (h' : JsonText data' j') (hs : SameValue d j j') :
    Alike d Eq (fromBytes (T := SnapshotType) (std env) data) (fromBytes (std env) data') := by
  rw [← C105_grammar env] at h h'
  exact (fromBytes_alike (R := Eq) rfl (fun _ _ h => SnapshotType.alike h) h h' hs).mono fun a a' h => by
    cases a; cases a'; obtain ⟨h1, h2, h3⟩ := h; dsimp only at h1 h2 h3; rw [h1, h2, h3]

/-- Targets metadata: `custom` is kept as it is spelled, everything else is the same. -/
theorem C105_spelling_targets_partial {d : Difference} {data data' : Bytes} {j j' : Json} (h : JsonText data j) (h' : JsonText data' j') (hs : SameValue d j j') :
    Alike d (Respelled (SameTargets d)) (fromBytes (T := TargetsType) (std env) data) (fromBytes (std env) data') := by
  rw [← C105_grammar env] at h h'
  exact fromBytes_alike ⟨rfl, rfl, rfl, rfl, .none, rfl, rfl⟩ (fun _ _ h => TargetsType.alike h) h h' hs

/-- And so are the bytes that are signed. -/
theorem C105_spelling_payload {d : Difference} {m m' : Metadata TargetsType} (h : Respelled (SameTargets d) m m') : payload m.signed = payload m'.signed :=
  TargetsType.payload_same h.signed

/-- What `ToBytes` writes for a document is one of its texts, with and without indentation. -/
theorem C105_written (env : Env) {j : Json} (h : Writable 10000 j) (pretty : Bool) : JsonText ((std env).print pretty j) j :=
  (C105_grammar env _ j).1 (json_round_trip pretty h)

/-- Nothing may follow the document but white space. -/
theorem C105_trailing {T : Type} [RoleType T] {data rest : Bytes} {m m' : Metadata T} (h : fromBytes (std env) data = .ok m) (h' : fromBytes (std env) (data ++ rest) = .ok m') : Space rest := by
  obtain ⟨x, hj⟩ : ∃ x, JsonText data (.obj x) := by
    obtain ⟨_, hc, h⟩ := Res.bind_eq_ok.1 h
    obtain ⟨j, hj, hc⟩ := Res.bind_eq_ok.1 hc
    have hp := (C105_grammar env data j).1 (Res.ofOption_eq_ok.1 hj)
    cases j with
    | obj x => exact ⟨x, hp⟩
    | null => cases hc
    | bool b => cases hc
    | num n => cases hc
    | frac l => cases hc
    | str s => cases hc
    | esc r s => cases hc
    | arr l => cases hc
  obtain ⟨j', hj'⟩ : ∃ j, JsonText (data ++ rest) j := Classical.byContradiction fun hn => by rw [C105_refused hn] at h'; cases h'
  obtain ⟨a, t, b, ha, ht, hb, rfl⟩ := hj
  rw [← C105_grammar env] at hj'
  have hv : value ((a ++ t ++ b ++ rest).length + 1) 10000 (a ++ t ++ b ++ rest) = some (.obj x, b ++ rest) := by
    simp only [List.append_assoc]
    rw [value_skip (skipSpace_append ha _)]
    exact value_complete ht _ _ (.inl ⟨x, rfl⟩) (by simp <;> omega)
  have hp : parseJson (a ++ t ++ b ++ rest) = some j' := hj'
  unfold parseJson at hp
  rw [hv] at hp
  dsimp only at hp
  split at hp
  · next hr =>
    obtain ⟨w, hw, he⟩ := skipSpace_eq hr
    rw [List.append_nil] at he
    intro c hc
    exact hw c (by rw [← he]; exact List.mem_append_right _ hc)
  · cases hp

/-- Map files are JSON too. -/
theorem C105_map {repoMap : Bytes} {roots : Entries Bytes} {cfg : MultiCfg} (h : newMultiConfig (std env) repoMap roots = .ok cfg) : ∃ j, JsonText repoMap j := by
  unfold newMultiConfig at h
  split at h
  · cases h
  · obtain ⟨j, hj, _⟩ := Res.bind_eq_ok.1 h
    exact ⟨j, (C105_grammar env repoMap j).1 (Res.ofOption_eq_ok.1 hj)⟩

/-! ## Cases -/

namespace Sample

/-- A small timestamp file with some bytes in an unrecognised field. -/
def smallFile (bytes rest : Bytes) : Bytes :=
  b!" {\"signatures\":[],\"signed\":{\"_type\":\"timestamp\",\"spec_version\":\"1.0\",\"version\":3,\"expires\":\"2030-06-01T12:00:00Z\",\"meta\":{},\"x\":\"" ++ bytes ++ b!"\"}}" ++ rest

/-- What is read from it. -/
def smallValue (x : Bytes) : Metadata TimestampType where
  signed :=
    { type := TIMESTAMP
      specVersion := b!"1.0"
      version := 3
      expires := { instant := 1906545600000000000, text := b!"2030-06-01T12:00:00Z" }
      metas := some []
      unrec := [(b!"x", .str x)] }
  signatures := some []

end Sample

set_option maxRecDepth 1000000 in
/-- False for the letter of RFC 8259, which requires UTF-8: other bytes are read as U+FFFD, so that files that differ only in them are the same to the client. -/
theorem C105_false :
    (¬ ∃ runes : List (Nat × Bytes), (∀ e ∈ runes, Utf8Char e.1 e.2) ∧ smallFile [0xFF] [] = runes.flatMap (fun e => e.2)) ∧
    fromBytes (std env0) (smallFile [0xFF] []) = .ok (smallValue replacement) ∧ fromBytes (std env0) (smallFile [0xC0] []) = .ok (smallValue replacement) := by
  refine ⟨?_, rfl, rfl⟩
  rintro ⟨runes, hr, h⟩
  have hm : (0xFF : UInt8) ∈ runes.flatMap (fun e => e.2) := by rw [← h]; decide
  obtain ⟨e, he, hmem⟩ := List.mem_flatMap.1 hm
  have hbad : ∀ {n : Nat} {b : Bytes}, Utf8Char n b → ∀ c ∈ b, c.toNat < 0xF5 := by
    intro n b hb
    cases hb with
    | one => intro x hx; simp at hx; subst hx; omega
    | two => intro x hx; simp at hx; rcases hx with rfl | rfl <;> omega
    | three => intro x hx; simp at hx; rcases hx with rfl | rfl | rfl <;> omega
    | four => intro x hx; simp at hx; rcases hx with rfl | rfl | rfl | rfl <;> omega
  have := hbad (hr e he) 0xFF hmem
  revert this
  decide

namespace Sample

/-- A timestamp file with an expiry time and a signature as given. -/
def spelledFile (expires sig : Bytes) : Bytes :=
  b!"{\"signatures\":[{\"keyid\":\"k\\u0031\",\"sig\":\"" ++ sig ++ b!"\"}],\"signed\":{\"_type\":\"timestam\\u0070\",\"spec_version\":\"1.0\",\"version\":3,\"expires\":\"" ++ expires ++
    b!"\",\"meta\":{}}}"

/-- The two values, as spelled. -/
def spelledJson (expires sig : Json) : Json :=
  .obj [(b!"signatures", .arr [.obj [(b!"keyid", .esc b!"k\\u0031" b!"k1"), (b!"sig", sig)]]),
    (b!"signed", .obj [(b!"_type", .esc b!"timestam\\u0070" b!"timestamp"), (b!"spec_version", .str b!"1.0"), (b!"version", .num 3), (b!"expires", expires), (b!"meta", .obj [])])]

/-- What is read. -/
def spelledValue : Metadata TimestampType where
  signed :=
    { type := TIMESTAMP
      specVersion := b!"1.0"
      version := 3
      expires := { instant := 1906545600000000000, text := b!"2030-06-01T12:00:00Z" }
      metas := some [] }
  signatures := some [{ keyID := b!"k1", sig := [0xAB] }]

end Sample

set_option maxRecDepth 1000000 in
/-- False in a second respect: the value of a text is not all that matters. A time and a signature of which one letter is spelled as an escape sequence are refused,
though the file has the same value as one that is read (which also has escape sequences, in other strings). -/
theorem C105_false_spelling :
    JsonText (spelledFile b!"2030-06-01T12:00:00Z" b!"ab") (spelledJson (.str b!"2030-06-01T12:00:00Z") (.str b!"ab")) ∧
    JsonText (spelledFile b!"2030-06-01T12:00:00\\u005a" b!"ab") (spelledJson (.esc b!"2030-06-01T12:00:00\\u005a" b!"2030-06-01T12:00:00Z") (.str b!"ab")) ∧
    JsonText (spelledFile b!"2030-06-01T12:00:00Z" b!"a\\u0062") (spelledJson (.str b!"2030-06-01T12:00:00Z") (.esc b!"a\\u0062" b!"ab")) ∧
    SameValue .plain (spelledJson (.esc b!"2030-06-01T12:00:00\\u005a" b!"2030-06-01T12:00:00Z") (.str b!"ab")) (spelledJson (.str b!"2030-06-01T12:00:00Z") (.str b!"ab")) ∧
    SameValue .plain (spelledJson (.str b!"2030-06-01T12:00:00Z") (.esc b!"a\\u0062" b!"ab")) (spelledJson (.str b!"2030-06-01T12:00:00Z") (.str b!"ab")) ∧
    fromBytes (std env0) (spelledFile b!"2030-06-01T12:00:00Z" b!"ab") = .ok spelledValue ∧
    fromBytes (T := TimestampType) (std env0) (spelledFile b!"2030-06-01T12:00:00\\u005a" b!"ab") = .err jsonErr ∧
    fromBytes (T := TimestampType) (std env0) (spelledFile b!"2030-06-01T12:00:00Z" b!"a\\u0062") = .err jsonErr := by
  have hex : ∀ r s : Str, SameValue .plain (.esc r s) (.str s) := fun r s => .text (.inr ⟨r, rfl⟩) (.inl rfl) (fun _ => .inr rfl)
  have hc : ∀ {k : Str} {j j' : Json} {m m' : List (Str × Json)}, SameValue .plain j j' → SameMembers .plain m m' → SameMembers .plain ((k, j) :: m) ((k, j') :: m') :=
    fun h h' => .cons h (fun h => by cases h) h'
  refine ⟨(C105_grammar env0 _ _).1 rfl, (C105_grammar env0 _ _).1 rfl, (C105_grammar env0 _ _).1 rfl, ?_, ?_, rfl, rfl, rfl⟩
  · exact .obj (hc (SameValue_refl _) (hc (.obj (hc (SameValue_refl _) (hc (SameValue_refl _) (hc (SameValue_refl _) (hc (hex _ _)
      (hc (SameValue_refl _) .nil)))))) .nil))
  · exact .obj (hc (.arr (.cons (.obj (hc (SameValue_refl _) (hc (hex _ _) .nil))) .nil)) (hc (SameValue_refl _) .nil))

/-- Outside of times, hashes and signatures: the key ID of a signature. -/
example (x : Json) (h : IsText x b!"k1") : SameValue .outside (.obj [(b!"keyid", x), (b!"sig", .str b!"ab")]) (.obj [(b!"keyid", .str b!"k1"), (b!"sig", .str b!"ab")]) := by
  refine .obj (.cons (.text h (.inl rfl) (fun h => by cases h)) ?_ (.cons (SameValue_refl _) (fun _ _ => rfl) .nil))
  rintro - ⟨name, hn, hs⟩
  have hs' : SimpleName name ∧ foldKey b!"keyid" ≠ foldKey name := by
    simp only [rawMembers, List.mem_cons, List.not_mem_nil, or_false] at hn
    rcases hn with rfl | rfl | rfl <;> decide
  exact absurd hs (not_spelled hs')

set_option maxRecDepth 1000000 in
/-- Escape sequences: the same file, a surrogate pair and a control character spelled out. -/
example : fromBytes (std env0) (smallFile b!"\\ud83d\\uDE00\\b\\/" b!" \n") = .ok (smallValue [0xF0, 0x9F, 0x98, 0x80, 8, 47]) := rfl

/-- Not JSON: something after the document, a comma too many, a superfluous zero, a control character in a string, an unknown escape. -/
example : ∀ s ∈ [smallFile [] b!"x", smallFile [] b!"{}", b!"{\"a\":1,}", b!"{\"a\":01}", b!"{\"a\":+1}", b!"{\"a\":1.}", b!"{'a':1}", b!"{\"a\":\"" ++ [10] ++ b!"\"}", b!"{\"a\":\"\\x\"}",
    [0xEF, 0xBB, 0xBF] ++ b!"{}"], ¬ ∃ j, JsonText s j := by
  have : ∀ s ∈ [smallFile [] b!"x", smallFile [] b!"{}", b!"{\"a\":1,}", b!"{\"a\":01}", b!"{\"a\":+1}", b!"{\"a\":1.}", b!"{'a':1}", b!"{\"a\":\"" ++ [10] ++ b!"\"}", b!"{\"a\":\"\\x\"}",
      [0xEF, 0xBB, 0xBF] ++ b!"{}"], (std env0).parse s = none := by decide +kernel
  rintro s hs ⟨j, hj⟩
  rw [← C105_grammar env0, this s hs] at hj
  cases hj

end Tuf
