import Verif.Proofs.Payload
import Verif.Props.RoundTrip

/-!
# Serialisation: the signed payload (C65, C81), recognised and unrecognised fields (C67)
-/

namespace Tuf
open Spec Sample

/-! ## What FromBytes returns -/

theorem fromBytes_unmarshal {T : Type} [RoleType T] {env : Env} {data : Bytes} {m : Metadata T} (h : fromBytes env data = .ok m) :
    ∃ j, env.parse data = some j ∧ Metadata.unmarshal env j = .ok m := by
  unfold fromBytes at h
  obtain ⟨_, _, h⟩ := Res.bind_eq_ok.1 h
  obtain ⟨j, hj, h⟩ := Res.bind_eq_ok.1 h
  obtain ⟨m', hm, h⟩ := Res.bind_eq_ok.1 h
  obtain ⟨_, huniq, h⟩ := Res.bind_eq_ok.1 h
  cases h
  exact ⟨j, Res.ofOption_eq_ok.1 hj, hm⟩

section
variable {env : Env} {data : Bytes}

theorem fromBytes_root_wf (laws : EnvLaws env) {m : Metadata RootType} (h : fromBytes env data = .ok m) : Metadata.WF (RootType.WF env) env m := by
  obtain ⟨j, _, h⟩ := fromBytes_unmarshal h
  exact Metadata.wf (RootType.wf laws (j := .null) rfl) (fun _ _ => RootType.wf laws) laws h

theorem fromBytes_snapshot_wf (laws : EnvLaws env) {m : Metadata SnapshotType} (h : fromBytes env data = .ok m) : Metadata.WF (SnapshotType.WF env) env m := by
  obtain ⟨j, _, h⟩ := fromBytes_unmarshal h
  exact Metadata.wf (SnapshotType.wf laws (j := .null) rfl) (fun _ _ => SnapshotType.wf laws) laws h

theorem fromBytes_timestamp_wf (laws : EnvLaws env) {m : Metadata TimestampType} (h : fromBytes env data = .ok m) : Metadata.WF (TimestampType.WF env) env m := by
  obtain ⟨j, _, h⟩ := fromBytes_unmarshal h
  exact Metadata.wf (TimestampType.wf laws (j := .null) rfl) (fun _ _ => TimestampType.wf laws) laws h

theorem fromBytes_targets_wf (laws : EnvLaws env) {m : Metadata TargetsType} (h : fromBytes env data = .ok m) : Metadata.WF (TargetsType.WF env) env m := by
  obtain ⟨j, _, h⟩ := fromBytes_unmarshal h
  exact Metadata.wf (TargetsType.wf laws (j := .null) rfl) (fun _ _ => TargetsType.wf laws) laws h

/-! ## C65 -/

/-- C65: root documents with the same signed payload have the same signed part, up to the last field. -/
theorem C65_root (laws : EnvLaws env) {d1 d2 p : Bytes} {m1 m2 : Metadata RootType} (h1 : fromBytes env d1 = .ok m1) (h2 : fromBytes env d2 = .ok m2)
    (hp1 : payload m1.signed = .ok p) (hp2 : payload m2.signed = .ok p) : m1.signed = m2.signed := by
  obtain ⟨j1, j2, hj1, hj2, hN⟩ := payload_N hp1 hp2
  exact RootType.inj laws (fromBytes_root_wf laws h1).signed (fromBytes_root_wf laws h2).signed hj1 hj2 hN

/-- C65: snapshot documents with the same signed payload have the same signed part, up to empty and nil hash maps. -/
theorem C65_snapshot (laws : EnvLaws env) {d1 d2 p : Bytes} {m1 m2 : Metadata SnapshotType} (h1 : fromBytes env d1 = .ok m1) (h2 : fromBytes env d2 = .ok m2)
    (hp1 : payload m1.signed = .ok p) (hp2 : payload m2.signed = .ok p) : viewSnapshot m1.signed = viewSnapshot m2.signed := by
  obtain ⟨j1, j2, hj1, hj2, hN⟩ := payload_N hp1 hp2
  exact SnapshotType.inj laws (fromBytes_snapshot_wf laws h1).signed (fromBytes_snapshot_wf laws h2).signed hj1 hj2 hN

/-- C65: timestamp documents with the same signed payload have the same signed part, up to empty and nil hash maps. -/
theorem C65_timestamp (laws : EnvLaws env) {d1 d2 p : Bytes} {m1 m2 : Metadata TimestampType} (h1 : fromBytes env d1 = .ok m1) (h2 : fromBytes env d2 = .ok m2)
    (hp1 : payload m1.signed = .ok p) (hp2 : payload m2.signed = .ok p) : viewTimestamp m1.signed = viewTimestamp m2.signed := by
  obtain ⟨j1, j2, hj1, hj2, hN⟩ := payload_N hp1 hp2
  exact TimestampType.inj laws (fromBytes_timestamp_wf laws h1).signed (fromBytes_timestamp_wf laws h2).signed hj1 hj2 hN

/-- C65: targets documents with the same signed payload have the same signed part, up to the spelling of `custom` and succinct roles beside roles. -/
theorem C65_targets (laws : EnvLaws env) {d1 d2 p : Bytes} {m1 m2 : Metadata TargetsType} (h1 : fromBytes env d1 = .ok m1) (h2 : fromBytes env d2 = .ok m2)
    (hp1 : payload m1.signed = .ok p) (hp2 : payload m2.signed = .ok p) : viewTargets m1.signed = viewTargets m2.signed := by
  obtain ⟨j1, j2, hj1, hj2, hN⟩ := payload_N hp1 hp2
  exact TargetsType.inj laws (fromBytes_targets_wf laws h1).signed (fromBytes_targets_wf laws h2).signed hj1 hj2 hN

/-! The views keep what the client uses. -/

theorem viewMeta_check (a : MetaFiles) (data : Bytes) : (viewMeta a).verifyLengthHashes env data = a.verifyLengthHashes env data := by
  obtain ⟨l, h, v, u⟩ := a
  unfold viewMeta MetaFiles.verifyLengthHashes
  dsimp only
  by_cases hh : h.entries = []
  · rw [if_pos hh]
    have hh' : Option.getD h [] = [] := hh
    simp [hh', GoMap.entries]
  · rw [if_neg hh]

theorem viewTarget_check (a : TargetFiles) (data : Bytes) : (viewTarget a).verifyLengthHashes env data = a.verifyLengthHashes env data := rfl

end

/-! ### C65: a concrete case -/

/-- Two documents that differ (the second has no `hashes` member), read as values that differ, with the same payload: `C65_timestamp` applies. -/
example : hasHashes (fromBytes (rtOf TimestampType emptyHashes) [1]) = true ∧ hasHashes (fromBytes (rtOf TimestampType emptyHashes) [0]) = false ∧
    (fromBytes (T := TimestampType) (rtOf TimestampType emptyHashes) [1] >>= fun m => payload m.signed) =
      (fromBytes (T := TimestampType) (rtOf TimestampType emptyHashes) [0] >>= fun m => payload m.signed) ∧
    (fromBytes (T := TimestampType) (rtOf TimestampType emptyHashes) [0] >>= fun m => payload m.signed).isOk = true := by
  decide +kernel

/-- FromBytes is needed in C65: an unrecognised field put there by hand can take the place of a length that is left out. -/
theorem C65_false_by_hand : payload ({ metas := some [(b!"a.json", some { length := 0, unrec := [(b!"length", .num 5)] })] } : SnapshotType) =
    payload ({ metas := some [(b!"a.json", some { length := 5 })] } : SnapshotType) ∧
    (payload ({ metas := some [(b!"a.json", some { length := 5 })] } : SnapshotType)).isOk = true := by
  decide +kernel

/-! ## C81: role types -/

/-- The marshalled form has the type. -/
theorem readFrom_marshal {env : Env} (laws : EnvLaws env) {a : AnyMeta} {p : Bytes} (h : ReadFrom env a) (hp : payloadOf a = .ok p) :
    ∃ names u fs, canonical (.obj (mkDict u fs)) = .ok p ∧ FieldsWF env names u ∧ (fs.map Prod.fst).Nodup ∧ Entries.get? fs b!"_type" = some (.str (typeField a)) := by
  cases h with
  | root h =>
    obtain ⟨j, hj, hc⟩ := Res.bind_eq_ok.1 hp
    cases hj
    exact ⟨_, _, _, hc, (fromBytes_root_wf laws h).signed.fields, by simp, by simp [Entries.get?_cons, typeField]⟩
  | snapshot h =>
    obtain ⟨j, hj, hc⟩ := Res.bind_eq_ok.1 hp
    cases hj
    exact ⟨_, _, _, hc, (fromBytes_snapshot_wf laws h).signed.fields, by simp, by simp [Entries.get?_cons, typeField]⟩
  | timestamp h =>
    obtain ⟨j, hj, hc⟩ := Res.bind_eq_ok.1 hp
    cases hj
    exact ⟨_, _, _, hc, (fromBytes_timestamp_wf laws h).signed.fields, by simp, by simp [Entries.get?_cons, typeField]⟩
  | @targets d m h =>
    obtain ⟨j, hj, hc⟩ := Res.bind_eq_ok.1 hp
    have hj' : TargetsType.marshal m.signed = .ok j := hj
    unfold TargetsType.marshal at hj'
    dsimp only at hj'
    split at hj'
    · cases hj'
      exact ⟨_, _, _, hc, (fromBytes_targets_wf laws h).signed.fields, by simp, by simp [Entries.get?_cons, typeField]⟩
    · obtain ⟨jd, _, hj'⟩ := Res.bind_eq_ok.1 hj'
      cases hj'
      exact ⟨_, _, _, hc, (fromBytes_targets_wf laws h).signed.fields, by simp, by simp [Entries.get?_cons, typeField]⟩

/-- C65, C81: documents of any two role types with the same payload have the same field `Type`. -/
theorem C65_type {env : Env} (laws : EnvLaws env) {a b : AnyMeta} {p : Bytes} (ha : ReadFrom env a) (hb : ReadFrom env b) (h1 : payloadOf a = .ok p) (h2 : payloadOf b = .ok p) :
    typeField a = typeField b := by
  obtain ⟨n1, u1, fs1, c1, w1, d1, g1⟩ := readFrom_marshal laws ha h1
  obtain ⟨n2, u2, fs2, c2, w2, d2, g2⟩ := readFrom_marshal laws hb h2
  have hf := obj_inj (mkDict_sorted w1.sorted fs1) (mkDict_sorted w2.sorted fs2) (canonical_inj c1 c2)
  obtain ⟨es, he⟩ := Option.isSome_iff_exists.1 (NFields_isSome (mkDict u1 fs1))
  have e1 := toAnyFields_get? he b!"_type"
  have e2 := toAnyFields_get? (hf ▸ he) b!"_type"
  rw [mkDict_get? _ _ d1, g1] at e1
  rw [e1, mkDict_get? _ _ d2, g2] at e2
  simpa [Json.toAny] using e2

/-- The field `Type` is the role type as which the document was read, when `signed` and `_type` have no second spelling. -/
theorem readFrom_kind {env : Env} {a : AnyMeta} (h : ReadFrom env a) (hd : NoVariants [b!"signed"] (documentUnrec a)) (hs : NoVariants [b!"_type"] (signedUnrec a)) :
    typeField a = kind a := by
  cases h with
  | @root d m h =>
    obtain ⟨doc, s, hdoc, hl1, hl2, hdec⟩ := fromBytes_last_signed h
    obtain ⟨j, hj, hm⟩ := fromBytes_unmarshal h
    rw [hdoc] at hj; cases hj
    have := hdec (spelled_of_noVariant (get := fun m : Metadata RootType => m.unrec) (fun _ _ => rfl) hm hd (by decide))
    have hs' : unmarshalStruct env RootType.names (RootType.setField env) {} .ok (fun u (a : RootType) => { a with unrec := u }) (.obj s) = .ok m.signed := this
    exact RootType.type_of (spelled_of_noVariant (get := RootType.unrec) (fun _ _ => rfl) hs' hs (by decide)) hl2 this
  | @snapshot d m h =>
    obtain ⟨doc, s, hdoc, hl1, hl2, hdec⟩ := fromBytes_last_signed h
    obtain ⟨j, hj, hm⟩ := fromBytes_unmarshal h
    rw [hdoc] at hj; cases hj
    have := hdec (spelled_of_noVariant (get := fun m : Metadata SnapshotType => m.unrec) (fun _ _ => rfl) hm hd (by decide))
    have hs' : unmarshalStruct env SnapshotType.names (SnapshotType.setField env) {} .ok (fun u (a : SnapshotType) => { a with unrec := u }) (.obj s) = .ok m.signed := this
    exact SnapshotType.type_of (spelled_of_noVariant (get := SnapshotType.unrec) (fun _ _ => rfl) hs' hs (by decide)) hl2 this
  | @timestamp d m h =>
    obtain ⟨doc, s, hdoc, hl1, hl2, hdec⟩ := fromBytes_last_signed h
    obtain ⟨j, hj, hm⟩ := fromBytes_unmarshal h
    rw [hdoc] at hj; cases hj
    have := hdec (spelled_of_noVariant (get := fun m : Metadata TimestampType => m.unrec) (fun _ _ => rfl) hm hd (by decide))
    have hs' : unmarshalStruct env TimestampType.names (TimestampType.setField env) {} .ok (fun u (a : TimestampType) => { a with unrec := u }) (.obj s) = .ok m.signed := this
    exact TimestampType.type_of (spelled_of_noVariant (get := TimestampType.unrec) (fun _ _ => rfl) hs' hs (by decide)) hl2 this
  | @targets d m h =>
    obtain ⟨doc, s, hdoc, hl1, hl2, hdec⟩ := fromBytes_last_signed h
    obtain ⟨j, hj, hm⟩ := fromBytes_unmarshal h
    rw [hdoc] at hj; cases hj
    have := hdec (spelled_of_noVariant (get := fun m : Metadata TargetsType => m.unrec) (fun _ _ => rfl) hm hd (by decide))
    have hs' : unmarshalStruct env TargetsType.names (TargetsType.setField env) {} TargetsType.setTargetPaths (fun u (a : TargetsType) => { a with unrec := u }) (.obj s) = .ok m.signed := this
    exact TargetsType.type_of (spelled_of_noVariant (get := TargetsType.unrec) (fun _ _ => rfl) hs' hs (by decide)) hl2 this

/-- C81 for documents in which `signed` and `_type` have no second spelling: what is signed as one role type is not what is checked for another. -/
theorem C81_partial {env : Env} (laws : EnvLaws env) {a b : AnyMeta} {p : Bytes} (ha : ReadFrom env a) (hb : ReadFrom env b)
    (hda : NoVariants [b!"signed"] (documentUnrec a)) (hsa : NoVariants [b!"_type"] (signedUnrec a))
    (hdb : NoVariants [b!"signed"] (documentUnrec b)) (hsb : NoVariants [b!"_type"] (signedUnrec b))
    (h1 : payloadOf a = .ok p) (h2 : payloadOf b = .ok p) : kind a = kind b := by
  rw [← readFrom_kind ha hda hsa, ← readFrom_kind hb hdb hsb]
  exact C65_type laws ha hb h1 h2

namespace Sample

/-- A snapshot. -/
def honestSnapshot : List (Str × Json) :=
  [(b!"_type", .str SNAPSHOT), (b!"expires", .str b!"t"), (b!"meta", .obj [(b!"targets.json", .obj [(b!"version", .num 1)])]), (b!"spec_version", .str b!"1.0.31"), (b!"version", .num 7)]

/-- The document with the snapshot. -/
def snapshotDocument : Json := .obj [(b!"signatures", .arr []), (b!"signed", .obj honestSnapshot)]

/-- A document whose `signed` is of type timestamp, followed by the signed part of the snapshot under the name `Signed`. -/
def confusedDocument : Json := .obj [(b!"signatures", .arr []), (b!"signed", .obj [(b!"_type", .str TIMESTAMP)]), (b!"Signed", .obj honestSnapshot)]

end Sample

/-- C81 is false: the payload of a snapshot is the payload of a timestamp document with the members `signed` and `Signed`: `checkType` looks at the first,
`UnmarshalJSON` takes the last. With one key for both roles, the signature of the snapshot is valid for the timestamp. -/
theorem C81_false :
    ((fromBytes (T := SnapshotType) (rtEnv snapshotDocument .null) [1]).map (·.signed.version) = .ok 7 ∧
    (fromBytes (T := TimestampType) (rtEnv confusedDocument .null) [1]).map (·.signed.version) = .ok 7) ∧
    (fromBytes (T := SnapshotType) (rtEnv snapshotDocument .null) [1] >>= fun m => payload m.signed) =
      (fromBytes (T := TimestampType) (rtEnv confusedDocument .null) [1] >>= fun m => payload m.signed) ∧
    (fromBytes (T := TimestampType) (rtEnv confusedDocument .null) [1] >>= fun m => payload m.signed).isOk = true := by
  decide +kernel

/-! ## C67 -/

theorem mkDict_nodup {u : Fields} (hu : IsMap u) (fs : List (Str × Json)) : ((mkDict u fs).map Prod.fst).Nodup := by
  unfold mkDict
  induction fs generalizing u with
  | nil => exact hu
  | cons e fs ih => exact ih (Entries.nodup_set hu e.1 e.2)

theorem mkDict_shows {u : Fields} (hu : IsMap u) {fs : List (Str × Json)} (hn : (fs.map Prod.fst).Nodup) {k : Str} {v : Json} (h : Entries.get? fs k = some v) :
    Shows (.obj (mkDict u fs)) k v := by
  have hg : Entries.get? (mkDict u fs) k = some v := by rw [mkDict_get? u fs hn, h]
  refine ⟨_, rfl, Entries.mem_of_get? hg, ?_⟩
  rintro ⟨k', v'⟩ he rfl
  have := Entries.get?_of_mem (mkDict_nodup hu fs) he
  rw [hg] at this
  cases this; rfl

theorem mkDict_omits {u : Fields} (hu : IsMap u) {fs : List (Str × Json)} (hn : (fs.map Prod.fst).Nodup) {k : Str} (h : Entries.get? fs k = none) (hk : u.get? k = none) :
    Omits (.obj (mkDict u fs)) k := by
  have hg : Entries.get? (mkDict u fs) k = none := by rw [mkDict_get? u fs hn, h]; exact hk
  refine ⟨_, rfl, ?_⟩
  rintro ⟨k', v'⟩ he rfl
  have := Entries.get?_of_mem (mkDict_nodup hu fs) he
  rw [hg] at this
  cases this

/-- C67 for key values. -/
theorem C67_keyval (a : KeyVal) (h : IsMap a.unrec) : Shows a.marshal b!"public" (.str a.publicKey) :=
  mkDict_shows h (by simp) (by simp [Entries.get?_cons])

/-- C67 for keys. -/
theorem C67_key (a : Key) (h : IsMap a.unrec) :
    Shows a.marshal b!"keytype" (.str a.type) ∧ Shows a.marshal b!"scheme" (.str a.scheme) ∧ Shows a.marshal b!"keyval" a.value.marshal :=
  ⟨mkDict_shows h (by simp) (by simp [Entries.get?_cons]), mkDict_shows h (by simp) (by simp [Entries.get?_cons]), mkDict_shows h (by simp) (by simp [Entries.get?_cons])⟩

/-- C67 for roles. -/
theorem C67_role (a : Role) (h : IsMap a.unrec) : Shows a.marshal b!"keyids" (encSlice .str a.keyIDs) ∧ Shows a.marshal b!"threshold" (.num a.threshold) :=
  ⟨mkDict_shows h (by simp) (by simp [Entries.get?_cons]), mkDict_shows h (by simp) (by simp [Entries.get?_cons])⟩

/-- C67 for succinct roles. -/
theorem C67_succinct (a : SuccinctRoles) (h : IsMap a.unrec) :
    Shows a.marshal b!"keyids" (encSlice .str a.keyIDs) ∧ Shows a.marshal b!"threshold" (.num a.threshold) ∧
    Shows a.marshal b!"bit_length" (.num a.bitLength) ∧ Shows a.marshal b!"name_prefix" (.str a.namePrefix) :=
  ⟨mkDict_shows h (by simp) (by simp [Entries.get?_cons]), mkDict_shows h (by simp) (by simp [Entries.get?_cons]),
    mkDict_shows h (by simp) (by simp [Entries.get?_cons]), mkDict_shows h (by simp) (by simp [Entries.get?_cons])⟩

/-- C67 for signatures. -/
theorem C67_signature (a : Signature) (h : IsMap a.unrec) : Shows a.marshal b!"keyid" (.str a.keyID) ∧ Shows a.marshal b!"sig" (.str (hexEncode a.sig)) :=
  ⟨mkDict_shows h (by simp) (by simp [Entries.get?_cons]), mkDict_shows h (by simp) (by simp [Entries.get?_cons, encHex])⟩

/-- C67 for root. -/
theorem C67_root (a : RootType) (h : IsMap a.unrec) : ∃ j, a.marshal = .ok j ∧
    Shows j b!"_type" (.str a.type) ∧ Shows j b!"spec_version" (.str a.specVersion) ∧ Shows j b!"consistent_snapshot" (.bool a.consistentSnapshot) ∧
    Shows j b!"version" (.num a.version) ∧ Shows j b!"expires" (.str a.expires.text) ∧ Shows j b!"keys" (encMap (encPtr Key.marshal) a.keys) ∧
    Shows j b!"roles" (encMap (encPtr Role.marshal) a.roles) :=
  ⟨_, rfl, mkDict_shows h (by simp) (by simp [Entries.get?_cons]), mkDict_shows h (by simp) (by simp [Entries.get?_cons]),
    mkDict_shows h (by simp) (by simp [Entries.get?_cons]), mkDict_shows h (by simp) (by simp [Entries.get?_cons]),
    mkDict_shows h (by simp) (by simp [Entries.get?_cons]), mkDict_shows h (by simp) (by simp [Entries.get?_cons]), mkDict_shows h (by simp) (by simp [Entries.get?_cons])⟩

/-- C67 for snapshot. -/
theorem C67_snapshot (a : SnapshotType) (h : IsMap a.unrec) : ∃ j, a.marshal = .ok j ∧
    Shows j b!"_type" (.str a.type) ∧ Shows j b!"spec_version" (.str a.specVersion) ∧ Shows j b!"version" (.num a.version) ∧
    Shows j b!"expires" (.str a.expires.text) ∧ Shows j b!"meta" (encMap (encPtr MetaFiles.marshal) a.metas) :=
  ⟨_, rfl, mkDict_shows h (by simp) (by simp [Entries.get?_cons]), mkDict_shows h (by simp) (by simp [Entries.get?_cons]),
    mkDict_shows h (by simp) (by simp [Entries.get?_cons]), mkDict_shows h (by simp) (by simp [Entries.get?_cons]),
    mkDict_shows h (by simp) (by simp [Entries.get?_cons])⟩

/-- C67 for timestamp. -/
theorem C67_timestamp (a : TimestampType) (h : IsMap a.unrec) : ∃ j, a.marshal = .ok j ∧
    Shows j b!"_type" (.str a.type) ∧ Shows j b!"spec_version" (.str a.specVersion) ∧ Shows j b!"version" (.num a.version) ∧
    Shows j b!"expires" (.str a.expires.text) ∧ Shows j b!"meta" (encMap (encPtr MetaFiles.marshal) a.metas) :=
  ⟨_, rfl, mkDict_shows h (by simp) (by simp [Entries.get?_cons]), mkDict_shows h (by simp) (by simp [Entries.get?_cons]),
    mkDict_shows h (by simp) (by simp [Entries.get?_cons]), mkDict_shows h (by simp) (by simp [Entries.get?_cons]),
    mkDict_shows h (by simp) (by simp [Entries.get?_cons])⟩

/-- C67 for whole documents. -/
theorem C67_document {T : Type} [RoleType T] (m : Metadata T) (h : IsMap m.unrec) {j : Json} (hj : m.marshal = .ok j) :
    ∃ s, RoleType.marshal m.signed = .ok s ∧ Shows j b!"signed" s ∧ Shows j b!"signatures" (encSlice Signature.marshal m.signatures) := by
  unfold Metadata.marshal at hj
  obtain ⟨s, hs, hj⟩ := Res.bind_eq_ok.1 hj
  cases hj
  exact ⟨s, hs, mkDict_shows h (by simp) (by simp [Entries.get?_cons]), mkDict_shows h (by simp) (by simp [Entries.get?_cons])⟩

/-- C67 for meta files whose unrecognised fields have no recognised name. -/
theorem C67_meta_partial (a : MetaFiles) (h : Fresh [b!"length", b!"hashes", b!"version"] a.unrec) :
    (if a.length = 0 then Omits a.marshal b!"length" else Shows a.marshal b!"length" (.num a.length)) ∧
    (if a.hashes.entries = [] then Omits a.marshal b!"hashes" else Shows a.marshal b!"hashes" (encMap encHex a.hashes)) ∧
    Shows a.marshal b!"version" (.num a.version) := by
  by_cases h1 : a.length = 0 <;> by_cases h2 : a.hashes.entries = []
  all_goals
    have hn : (((if a.length ≠ 0 then [(b!"length", Json.num a.length)] else []) ++ (if a.hashes.entries ≠ [] then [(b!"hashes", encMap encHex a.hashes)] else []) ++
      [(b!"version", Json.num a.version)]).map Prod.fst).Nodup := by simp [h1, h2]
    simp only [h1, h2, if_true, if_false]
    refine ⟨?_, ?_, mkDict_shows h.1 hn (by simp [h1, h2, Entries.get?_cons])⟩
    all_goals first
      | exact mkDict_shows h.1 hn (by simp [h1, h2, Entries.get?_cons])
      | exact mkDict_omits h.1 hn (by simp [h1, h2, Entries.get?_cons]) (h.2 _ (by simp))

/-- C67 for target files whose unrecognised fields have no recognised name. -/
theorem C67_target_partial (a : TargetFiles) (h : Fresh [b!"length", b!"hashes", b!"custom"] a.unrec) :
    Shows a.marshal b!"length" (.num a.length) ∧ Shows a.marshal b!"hashes" (encMap encHex a.hashes) ∧
    (match a.custom with
      | some c => Shows a.marshal b!"custom" c
      | none => Omits a.marshal b!"custom") := by
  refine ⟨mkDict_shows h.1 (by split <;> simp) (by simp [Entries.get?_cons]), mkDict_shows h.1 (by split <;> simp) (by simp [Entries.get?_cons]), ?_⟩
  split
  · next c hc => exact mkDict_shows h.1 (by split <;> simp) (by simp [hc, Entries.get?_cons])
  · next hc => exact mkDict_omits h.1 (by split <;> simp) (by simp [hc, Entries.get?_cons]) (h.2 _ (by simp))

/-- A list of strings that is left out when nil. -/
def ShowsList (j : Json) (k : Str) (l : Slice Str) : Prop :=
  match l with
  | some l => Shows j k (.arr (l.map .str))
  | none => Omits j k

/-- C67 for delegated roles whose unrecognised fields have no recognised name. -/
theorem C67_delegated_partial (a : DelegatedRole) (h : Fresh [b!"name", b!"keyids", b!"threshold", b!"terminating", b!"path_hash_prefixes", b!"paths"] a.unrec)
    {j : Json} (hj : a.marshal = .ok j) :
    Shows j b!"name" (.str a.name) ∧ Shows j b!"keyids" (encSlice .str a.keyIDs) ∧ Shows j b!"threshold" (.num a.threshold) ∧
    Shows j b!"terminating" (.bool a.terminating) ∧ ShowsList j b!"paths" a.paths ∧ ShowsList j b!"path_hash_prefixes" a.pathHashPrefixes := by
  unfold DelegatedRole.marshal at hj
  cases h1 : a.paths <;> cases h2 : a.pathHashPrefixes <;> rw [h1, h2] at hj <;> cases hj <;>
  · refine ⟨mkDict_shows h.1 (by simp) (by simp [Entries.get?_cons]), mkDict_shows h.1 (by simp) (by simp [Entries.get?_cons]),
      mkDict_shows h.1 (by simp) (by simp [Entries.get?_cons]), mkDict_shows h.1 (by simp) (by simp [Entries.get?_cons]), ?_, ?_⟩
    all_goals first
      | exact mkDict_shows h.1 (by simp) (by simp [Entries.get?_cons])
      | exact mkDict_omits h.1 (by simp) (by simp [Entries.get?_cons]) (h.2 _ (by simp))

/-- C67 for delegations whose unrecognised fields have no recognised name. Succinct roles beside roles are left out. -/
theorem C67_delegations_partial (a : Delegations) (h : Fresh [b!"keys", b!"roles", b!"succinct_roles"] a.unrec) {j : Json} (hj : a.marshal = .ok j) :
    Shows j b!"keys" (encMap (encPtr Key.marshal) a.keys) ∧
    (match a.roles, a.succinctRoles with
      | some rs, _ => ∃ js, marshalRoles rs = .ok js ∧ Shows j b!"roles" (.arr js) ∧ Omits j b!"succinct_roles"
      | none, some s => Omits j b!"roles" ∧ Shows j b!"succinct_roles" s.marshal
      | none, none => Omits j b!"roles" ∧ Omits j b!"succinct_roles") := by
  unfold Delegations.marshal at hj
  dsimp only at hj
  cases h1 : a.roles with
  | some rs =>
    rw [h1] at hj
    obtain ⟨js, hjs, hj⟩ := Res.bind_eq_ok.1 hj
    cases hj
    exact ⟨mkDict_shows h.1 (by simp) (by simp [Entries.get?_cons]), js, hjs, mkDict_shows h.1 (by simp) (by simp [Entries.get?_cons]),
      mkDict_omits h.1 (by simp) (by simp [Entries.get?_cons]) (h.2 _ (by simp))⟩
  | none =>
    rw [h1] at hj
    cases h2 : a.succinctRoles <;> rw [h2] at hj <;> cases hj
    · exact ⟨mkDict_shows h.1 (by simp) (by simp [Entries.get?_cons]), mkDict_omits h.1 (by simp) (by simp [Entries.get?_cons]) (h.2 _ (by simp)),
        mkDict_omits h.1 (by simp) (by simp [Entries.get?_cons]) (h.2 _ (by simp))⟩
    · exact ⟨mkDict_shows h.1 (by simp) (by simp [Entries.get?_cons]), mkDict_omits h.1 (by simp) (by simp [Entries.get?_cons]) (h.2 _ (by simp)),
        mkDict_shows h.1 (by simp) (by simp [Entries.get?_cons])⟩

/-- C67 for targets whose unrecognised fields have no recognised name. -/
theorem C67_targets_partial (a : TargetsType) (h : Fresh [b!"_type", b!"spec_version", b!"version", b!"expires", b!"targets", b!"delegations"] a.unrec) {j : Json}
    (hj : a.marshal = .ok j) :
    Shows j b!"_type" (.str a.type) ∧ Shows j b!"spec_version" (.str a.specVersion) ∧ Shows j b!"version" (.num a.version) ∧
    Shows j b!"expires" (.str a.expires.text) ∧ Shows j b!"targets" (encMap (encPtr TargetFiles.marshal) a.targets) ∧
    (match a.delegations with
      | some d => ∃ jd, d.marshal = .ok jd ∧ Shows j b!"delegations" jd
      | none => Omits j b!"delegations") := by
  unfold TargetsType.marshal at hj
  dsimp only at hj
  cases h1 : a.delegations with
  | none =>
    rw [h1] at hj
    cases hj
    exact ⟨mkDict_shows h.1 (by simp) (by simp [Entries.get?_cons]), mkDict_shows h.1 (by simp) (by simp [Entries.get?_cons]),
      mkDict_shows h.1 (by simp) (by simp [Entries.get?_cons]), mkDict_shows h.1 (by simp) (by simp [Entries.get?_cons]),
      mkDict_shows h.1 (by simp) (by simp [Entries.get?_cons]), mkDict_omits h.1 (by simp) (by simp [Entries.get?_cons]) (h.2 _ (by simp))⟩
  | some d =>
    rw [h1] at hj
    obtain ⟨jd, hjd, hj⟩ := Res.bind_eq_ok.1 hj
    cases hj
    exact ⟨mkDict_shows h.1 (by simp) (by simp [Entries.get?_cons]), mkDict_shows h.1 (by simp) (by simp [Entries.get?_cons]),
      mkDict_shows h.1 (by simp) (by simp [Entries.get?_cons]), mkDict_shows h.1 (by simp) (by simp [Entries.get?_cons]),
      mkDict_shows h.1 (by simp) (by simp [Entries.get?_cons]), jd, hjd, mkDict_shows h.1 (by simp) (by simp [Entries.get?_cons])⟩

/-! ### FromBytes leaves recognised names out -/

theorem FieldsWF.fresh {env : Env} {names : List Str} {u : Fields} (h : FieldsWF env names u) : Fresh names u := by
  refine ⟨h.sorted.nodup, fun n hn => ?_⟩
  cases hg : u.get? n with
  | none => rfl
  | some v => exact absurd hn (h.unknown _ (Entries.mem_of_get? hg))

theorem MapWF.get {α : Type} {P : α → Prop} {m : GoMap (Option α)} (h : MapWF (fun p => ∀ x, p = some x → P x) m) {k : Str} {x : α} (hg : m.get? k = some (some x)) : P x :=
  h.2 _ (Entries.mem_of_get? hg) x rfl

section
variable {env : Env}

theorem Key.WF.fresh {a : Key} (h : Key.WF env a) : FreshKey a := ⟨h.fields.fresh, h.value.fresh⟩

theorem Delegations.WF.fresh {a : Delegations} (h : Delegations.WF env a) : FreshDelegations a :=
  ⟨h.fields.fresh, fun _ _ hg => (h.keys.get hg).fresh, fun r hr => (h.roles r hr).fields.fresh, fun s hs => (h.succinct s hs).fields.fresh⟩

theorem Metadata.WF.fresh {T : Type} {P Q : T → Prop} (hPQ : ∀ a, P a → Q a) {m : Metadata T} (h : Metadata.WF P env m) : FreshDocument Q m :=
  ⟨h.fields.fresh, hPQ _ h.signed, fun s hs => (h.signatures s hs).fields.fresh⟩

/-- What FromBytes returns has no recognised names among the unrecognised fields, at any level: the hypotheses of the `C67` theorems hold. -/
theorem C67_read_root (laws : EnvLaws env) {d : Bytes} {m : Metadata RootType} (h : fromBytes env d = .ok m) : FreshDocument FreshRoot m :=
  (fromBytes_root_wf laws h).fresh fun _ ha => ⟨ha.fields.fresh, fun _ _ hg => (ha.keys.get hg).fresh, fun _ _ hg => (ha.roles.get hg).fields.fresh⟩

theorem C67_read_snapshot (laws : EnvLaws env) {d : Bytes} {m : Metadata SnapshotType} (h : fromBytes env d = .ok m) : FreshDocument FreshSnapshot m :=
  (fromBytes_snapshot_wf laws h).fresh fun _ ha => ⟨ha.fields.fresh, fun _ _ hg => (ha.metas.get hg).fields.fresh⟩

theorem C67_read_timestamp (laws : EnvLaws env) {d : Bytes} {m : Metadata TimestampType} (h : fromBytes env d = .ok m) : FreshDocument FreshTimestamp m :=
  (fromBytes_timestamp_wf laws h).fresh fun _ ha => ⟨ha.fields.fresh, fun _ _ hg => (ha.metas.get hg).fields.fresh⟩

theorem C67_read_targets (laws : EnvLaws env) {d : Bytes} {m : Metadata TargetsType} (h : fromBytes env d = .ok m) : FreshDocument FreshTargets m := by
  refine (fromBytes_targets_wf laws h).fresh fun _ ha => ⟨ha.fields.fresh, fun k x hg => ?_, fun d hd => (ha.delegations d hd).fresh⟩
  obtain ⟨t, h1, _, h2⟩ := ha.target _ (Entries.mem_of_get? hg)
  cases h1
  exact h2.fields.fresh

end

/-- A case of the `C67` theorems: an unrecognised field with the name of the version does not reach the document. -/
example : ({ version := 3, unrec := [(b!"version", .num 99), (b!"z", .null)] } : MetaFiles).marshal = .obj [(b!"version", .num 3), (b!"z", .null)] := by rfl

/-- C67 is false for values built by hand: a length of zero is not written, so that the unrecognised field shows. -/
theorem C67_false : ¬ ∀ a : MetaFiles, IsMap a.unrec → Shows a.marshal b!"length" (.num a.length) ∨ Omits a.marshal b!"length" := by
  intro h
  have e : ({ length := 0, unrec := [(b!"length", .num 5)] } : MetaFiles).marshal = .obj [(b!"length", .num 5), (b!"version", .num 0)] := rfl
  rcases h { length := 0, unrec := [(b!"length", .num 5)] } (by simp [IsMap]) with ⟨d, hd, h1, h2⟩ | ⟨d, hd, h1⟩
  · rw [e] at hd
    cases hd
    have := h2 (b!"length", .num 5) (.head _) rfl
    cases this
  · rw [e] at hd
    cases hd
    exact h1 (b!"length", .num 5) (.head _) rfl

/-! ## C66 -/

/-- C66 for documents written by ToBytes: the canonical form of the member `signed` is the payload that was signed. -/
theorem C66_written_partial {T : Type} [RoleType T] {env : Env} {m : Metadata T} (hu : IsMap m.unrec) {pretty : Bool} {d : Bytes} (h : toBytes env m pretty = .ok d)
    (hprint : ∀ j, m.marshal = .ok j → env.parse (env.print pretty j) = some j) :
    ∃ doc s, env.parse d = some doc ∧ Shows doc b!"signed" s ∧ canonical s = payload m.signed := by
  unfold toBytes at h
  obtain ⟨j, hj, h⟩ := Res.bind_eq_ok.1 h
  cases h
  obtain ⟨s, hs, h1, _⟩ := C67_document m hu hj
  refine ⟨j, s, hprint j hj, h1, ?_⟩
  unfold payload
  rw [hs, Res.bind_ok]

namespace Sample

/-- The canonical form of the member `signed` of the document, and the payload that is checked. -/
def bothForms (T : Type) [RoleType T] (env : Env) (s : List (Str × Json)) : Res Bytes × Res Bytes :=
  (canonical (.obj s), fromBytes (T := T) env [1] >>= fun m => payload m.signed)

/-- The document with this signed part. -/
def signedDoc (s : List (Str × Json)) : Json := .obj [(b!"signed", .obj s), (b!"signatures", .arr [])]

/-- A timestamp without `spec_version`. -/
def noSpecVersion : List (Str × Json) :=
  [(b!"_type", .str TIMESTAMP), (b!"expires", .str b!"t"), (b!"meta", .obj [(b!"snapshot.json", .obj [(b!"version", .num 1)])]), (b!"version", .num 7)]

/-- A timestamp with a length of zero. -/
def zeroLength : List (Str × Json) :=
  [(b!"_type", .str TIMESTAMP), (b!"expires", .str b!"t"), (b!"meta", .obj [(b!"snapshot.json", .obj [(b!"length", .num 0), (b!"version", .num 1)])]),
    (b!"spec_version", .str b!"1"), (b!"version", .num 7)]

/-- A timestamp with a large number in an unrecognised field. -/
def largeNumber : List (Str × Json) :=
  [(b!"_type", .str TIMESTAMP), (b!"expires", .str b!"t"), (b!"meta", .obj [(b!"snapshot.json", .obj [(b!"version", .num 1)])]),
    (b!"serial", .num 9007199254740993), (b!"spec_version", .str b!"1"), (b!"version", .num 7)]

/-- float64 has no 2^53 + 1. -/
def floatEnv (j : Json) : Env := { rtEnv j .null with anyNum := fun l => if l = .inl 9007199254740993 then some (.inl 9007199254740992) else some l }

end Sample

/-- C66 is false: the payload has the member `spec_version` that the document does not have. -/
theorem C66_false_absent : (bothForms TimestampType (rtEnv (signedDoc noSpecVersion) .null) noSpecVersion).1 ≠ (bothForms TimestampType (rtEnv (signedDoc noSpecVersion) .null) noSpecVersion).2 ∧
    (bothForms TimestampType (rtEnv (signedDoc noSpecVersion) .null) noSpecVersion).2.isOk = true := by decide +kernel

/-- C66 is false: the payload has no `length` of zero. -/
theorem C66_false_zero : (bothForms TimestampType (rtEnv (signedDoc zeroLength) .null) zeroLength).1 ≠ (bothForms TimestampType (rtEnv (signedDoc zeroLength) .null) zeroLength).2 ∧
    (bothForms TimestampType (rtEnv (signedDoc zeroLength) .null) zeroLength).2.isOk = true := by decide +kernel

/-- C66 is false: integers above 2^53 in unrecognised fields are rounded. -/
theorem C66_false_rounded : (bothForms TimestampType (floatEnv (signedDoc largeNumber)) largeNumber).1 ≠ (bothForms TimestampType (floatEnv (signedDoc largeNumber)) largeNumber).2 ∧
    (bothForms TimestampType (floatEnv (signedDoc largeNumber)) largeNumber).2.isOk = true := by decide +kernel

end Tuf
