import Verif.Model.Std.Env
import Verif.Proofs.Std.Text
import Verif.Proofs.Std.Time
import Verif.Proofs.Std.Float
import Verif.Props.RoundTrip
import Verif.Props.Publish
import Verif.Props.Sample

/-! # C99: metadata files as texts, without assumptions about `encoding/json`, `time` and `strconv` -/

namespace Tuf
open Tuf.Spec Tuf.Std Tuf.Sample

variable {env : Env}

theorem std_laws (env : Env) : EnvLaws (std env) where
  anyIdem := fun _ _ => anyNumber_idem
  anyInt := fun _ => anyNumber_int64
  time := fun _ _ => parse_text
  zeroTime := parse_zero

theorem std_text (env : Env) : TextEnv (std env) where
  parse := rfl
  print := rfl
  anyLit := fun _ _ => anyNumber_lit
  timeText := by
    intro s t h
    obtain ⟨c, _, rfl⟩ := Option.map_eq_some_iff.1 (show (parseCivil s).map timeOf = some t from h)
    exact formatTime_utf8 c

/-- C99 for root metadata: what was read from a file is written as a text that is read as the same metadata, compact or indented. -/
theorem C99_root {data : Bytes} {m : Metadata RootType} (h : fromBytes (std env) data = .ok m) (hp : PlainDocument PlainRoot m) (pretty : Bool) :
    ∃ data', toBytes (std env) m pretty = .ok data' ∧ fromBytes (std env) data' = .ok m :=
  C64_root_partial (std_laws env) h hp (printed (std_text env) (rootText (std_text env)) (read_text (std_text env) (rootText (std_text env)) h) pretty)

/-- C99 for snapshot metadata. -/
theorem C99_snapshot {data : Bytes} {m : Metadata SnapshotType} (h : fromBytes (std env) data = .ok m) (hp : PlainDocument PlainSnapshot m) (pretty : Bool) :
    ∃ data', toBytes (std env) m pretty = .ok data' ∧ fromBytes (std env) data' = .ok m :=
  C64_snapshot_partial (std_laws env) h hp (printed (std_text env) (snapshotText (std_text env)) (read_text (std_text env) (snapshotText (std_text env)) h) pretty)

/-- C99 for timestamp metadata. -/
theorem C99_timestamp {data : Bytes} {m : Metadata TimestampType} (h : fromBytes (std env) data = .ok m) (hp : PlainDocument PlainTimestamp m) (pretty : Bool) :
    ∃ data', toBytes (std env) m pretty = .ok data' ∧ fromBytes (std env) data' = .ok m :=
  C64_timestamp_partial (std_laws env) h hp (printed (std_text env) (timestampText (std_text env)) (read_text (std_text env) (timestampText (std_text env)) h) pretty)

/-- C99 for targets metadata. -/
theorem C99_targets {data : Bytes} {m : Metadata TargetsType} (h : fromBytes (std env) data = .ok m) (hp : PlainDocument PlainTargets m) (pretty : Bool) :
    ∃ data', toBytes (std env) m pretty = .ok data' ∧ fromBytes (std env) data' = .ok m :=
  C64_targets_partial (std_laws env) h hp (printed (std_text env) (targetsText (std_text env)) (read_text (std_text env) (targetsText (std_text env)) h) pretty)

/-! ## Publishing -/

theorem signerID_utf8 {s : Signer} {id : Str} (h : SignerID env s id) : Utf8 id := by
  obtain ⟨pk, key, key', _, h1, h2⟩ := h
  have hid : key.id = [] := by
    unfold keyFromPublicKey at h1
    split at h1
    · split at h1
      · cases h1; rfl
      · cases h1
    · split at h1
      · cases h1; rfl
      · cases h1
    · cases h1; rfl
    · cases h1
  unfold Key.ID at h2
  rw [if_pos hid] at h2
  split at h2
  · cases h2; exact hexEncode_utf8 _
  · cases h2

/-- What `ToBytes` writes after signing is published, if the strings are UTF-8 and the document is not too deep: nothing else is assumed about `encoding/json`. -/
theorem publishes_std {T : Type} [RoleType T] {P : Nat → T → Prop} (hP : TextType (std env) P) {a : T} {ss : List Signer} {data : Bytes} {m0 m : Metadata T} {pretty : Bool}
    (hd : ss.Pairwise (fun s s' => ∀ id, SignerID (std env) s id → ¬ SignerID (std env) s' id)) (ha : m0.signed = a) (h0 : m0.signatures.elems = [])
    (hf : GoodFields (std env) [b!"signed", b!"signatures"] m0.unrec) (hft : FieldsText 9999 m0.unrec) (hat : P 9994 a) (hs : SignedBy (std env) m0 ss m)
    (hb : toBytes (std env) m pretty = .ok data) : Publishes (std env) a ss data := by
  refine ⟨hd, m0, m, pretty, ha, h0, hf, hs, hb, ?_⟩
  obtain ⟨k1, k2, _⟩ := signedBy_new hs h0 hd
  refine printed (std_text env) hP ⟨by rw [signedBy_signed hs, ha]; exact hat, ?_, by rw [k1]; exact hft⟩ pretty
  intro s hs'
  obtain ⟨e1, s', _, e2⟩ := k2 s hs'
  refine ⟨signerID_utf8 e2, ?_⟩
  rw [e1]
  exact fieldsText_nil

/-- C99: root metadata that was made, signed and written is a published root (the subject of C86 to C93). -/
theorem C99_publish_root {a : RootType} {ss : List Signer} {data : Bytes} {m0 m : Metadata RootType} {pretty : Bool}
    (hd : ss.Pairwise (fun s s' => ∀ id, SignerID (std env) s id → ¬ SignerID (std env) s' id)) (ha : m0.signed = a) (h0 : m0.signatures.elems = [])
    (hf : m0.unrec = []) (hat : RootText 9994 a) (hs : SignedBy (std env) m0 ss m) (hb : toBytes (std env) m pretty = .ok data) : Publishes (std env) a ss data :=
  publishes_std (rootText (std_text env)) hd ha h0 (by rw [hf]; exact goodFields_nil _) (by rw [hf]; exact fieldsText_nil) hat hs hb

theorem C99_publish_snapshot {a : SnapshotType} {ss : List Signer} {data : Bytes} {m0 m : Metadata SnapshotType} {pretty : Bool}
    (hd : ss.Pairwise (fun s s' => ∀ id, SignerID (std env) s id → ¬ SignerID (std env) s' id)) (ha : m0.signed = a) (h0 : m0.signatures.elems = [])
    (hf : m0.unrec = []) (hat : SnapshotText 9994 a) (hs : SignedBy (std env) m0 ss m) (hb : toBytes (std env) m pretty = .ok data) : Publishes (std env) a ss data :=
  publishes_std (snapshotText (std_text env)) hd ha h0 (by rw [hf]; exact goodFields_nil _) (by rw [hf]; exact fieldsText_nil) hat hs hb

theorem C99_publish_timestamp {a : TimestampType} {ss : List Signer} {data : Bytes} {m0 m : Metadata TimestampType} {pretty : Bool}
    (hd : ss.Pairwise (fun s s' => ∀ id, SignerID (std env) s id → ¬ SignerID (std env) s' id)) (ha : m0.signed = a) (h0 : m0.signatures.elems = [])
    (hf : m0.unrec = []) (hat : TimestampText 9994 a) (hs : SignedBy (std env) m0 ss m) (hb : toBytes (std env) m pretty = .ok data) : Publishes (std env) a ss data :=
  publishes_std (timestampText (std_text env)) hd ha h0 (by rw [hf]; exact goodFields_nil _) (by rw [hf]; exact fieldsText_nil) hat hs hb

theorem C99_publish_targets {a : TargetsType} {ss : List Signer} {data : Bytes} {m0 m : Metadata TargetsType} {pretty : Bool}
    (hd : ss.Pairwise (fun s s' => ∀ id, SignerID (std env) s id → ¬ SignerID (std env) s' id)) (ha : m0.signed = a) (h0 : m0.signatures.elems = [])
    (hf : m0.unrec = []) (hat : TargetsText 9994 a) (hs : SignedBy (std env) m0 ss m) (hb : toBytes (std env) m pretty = .ok data) : Publishes (std env) a ss data :=
  publishes_std (targetsText (std_text env)) hd ha h0 (by rw [hf]; exact goodFields_nil _) (by rw [hf]; exact fieldsText_nil) hat hs hb

/-! ## Cases -/

namespace Sample

/-- A timestamp file: white space, escapes, an offset, unrecognised fields of all kinds. -/
def fileText : Bytes := b!"{\"signatures\": [{\"keyid\":\"k\",\"sig\":\"0aff\"}], \"signed\": {\"_type\":\"timestamp\", \"spec_version\":\"1.0.31\",\r\n \"version\":3, \"expires\":\"2030-06-01T12:00:00+02:00\", \"meta\":{\"snapshot.json\":{\"version\":2,\"length\":120}}, \"x-\\u00e9\": [1.50, 1e3, -0, \"<a>\", 123, null]}}"

/-- What is read from it. -/
def fileValue : Metadata TimestampType where
  signed :=
    { type := TIMESTAMP
      specVersion := b!"1.0.31"
      version := 3
      expires := { instant := 1906538400000000000, text := b!"2030-06-01T12:00:00+02:00" }
      metas := some [(b!"snapshot.json", some { version := 2, length := 120 })]
      unrec := [([120, 45, 0xC3, 0xA9], .arr [.frac b!"1.5", .num 1000, .frac b!"-0", .str b!"<a>", .num 123, .null])] }
  signatures := some [{ keyID := b!"k", sig := [10, 255] }]

/-- What is written. -/
def fileAgain : Bytes := b!"{\"signatures\":[{\"keyid\":\"k\",\"sig\":\"0aff\"}],\"signed\":{\"_type\":\"timestamp\",\"expires\":\"2030-06-01T12:00:00+02:00\",\"meta\":{\"snapshot.json\":{\"length\":120,\"version\":2}},\"spec_version\":\"1.0.31\",\"version\":3,\"x-"
  ++ [0xC3, 0xA9] ++ b!"\":[1.5,1000,-0,\"\\u003ca\\u003e\",123,null]}}"

end Sample

set_option maxRecDepth 1000000 in
theorem fileText_read : fromBytes (std env0) fileText = .ok fileValue := rfl

set_option maxRecDepth 1000000 in
theorem fileValue_written : toBytes (std env0) fileValue false = .ok fileAgain := rfl

/-- A case of `C99_timestamp`: the file above. -/
example : ∃ data', toBytes (std env0) fileValue true = .ok data' ∧ fromBytes (std env0) data' = .ok fileValue := by
  refine C99_timestamp fileText_read ⟨⟨noVariants_one (by decide), ?_⟩, ?_, fun k hk => by cases hk⟩ true
  · intro k x hx
    simp only [fileValue, GoMap.get?, GoMap.entries, Option.getD_some, Entries.get?_cons] at hx
    split at hx
    · cases hx; exact ⟨(fun k hk => by cases hk), by simp⟩
    · cases hx
  · intro s hs
    simp only [fileValue, Slice.elems, Option.getD_some, List.mem_singleton] at hs
    subst hs
    exact fun k hk => by cases hk

end Tuf
