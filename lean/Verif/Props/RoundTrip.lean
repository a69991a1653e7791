import Verif.Proofs.WellFormed
import Verif.Props.Sample

/-!
# Serialisation: round trip (C64)
-/

namespace Tuf
open Spec Sample

/-! ## The type survives -/

/-- Members that no recognised name takes are kept as unrecognised fields. -/
theorem unmarshalStruct_keeps {α : Type} {env : Env} {names : List Str} {setField : Str → Json → α → Res α} {zero : α} {post : α → Res α} {setUnrec : Fields → α → α}
    {get : α → Fields} (hget : ∀ u a, get (setUnrec u a) = u) {m : List (Str × Json)} {a : α}
    (h : unmarshalStruct env names setField zero post setUnrec (.obj m) = .ok a) {k : Str} {j : Json} (hm : (k, j) ∈ m) (hk : k ∉ names) : ((get a).get? k).isSome := by
  unfold unmarshalStruct at h
  obtain ⟨a1, h1, h⟩ := Res.bind_eq_ok.1 h
  obtain ⟨a2, h2, h⟩ := Res.bind_eq_ok.1 h
  obtain ⟨d, h3, h⟩ := Res.bind_eq_ok.1 h
  cases h
  rw [hget, Entries.get?_foldl_del, if_neg hk]
  obtain ⟨es, he⟩ := Option.isSome_iff_exists.1 (toAnyFields_isSome.2 (toAny_obj_isSome.1 (decAnyMap_fit h3)))
  have hd : d = es.foldl (fun acc e => Entries.set acc e.1 e.2) [] := by
    unfold decAnyMap at h3
    dsimp only at h3
    rw [toAny_obj, he] at h3
    cases h3
    rfl
  have hkeys : k ∈ es.map Prod.fst := by rw [toAnyFields_keys he]; exact List.mem_map.2 ⟨_, hm, rfl⟩
  rw [hd]
  have hgen : ∀ (es : List (Str × Json)) (acc : Entries Json), (k ∈ es.map Prod.fst ∨ (acc.get? k).isSome) →
      ((es.foldl (fun acc e => Entries.set acc e.1 e.2) acc).get? k).isSome := by
    intro es
    induction es with
    | nil => rintro acc (h | h); · cases h
             · exact h
    | cons e es ih =>
      intro acc h
      apply ih
      rw [Entries.get?_set]
      rcases h with h | h
      · rcases List.mem_cons.1 h with rfl | h
        · exact .inr (by rw [if_pos rfl]; rfl)
        · exact .inl h
      · right
        split
        · rfl
        · exact h
  exact hgen es [] (.inl hkeys)

/-- Without variants of a recognised name, the field is spelled exactly. -/
theorem spelled_of_noVariant {α : Type} {env : Env} {names : List Str} {setField : Str → Json → α → Res α} {zero : α} {post : α → Res α} {setUnrec : Fields → α → α}
    {get : α → Fields} (hget : ∀ u a, get (setUnrec u a) = u) {m : List (Str × Json)} {a : α}
    (h : unmarshalStruct env names setField zero post setUnrec (.obj m) = .ok a) {n : Str} (hv : NoVariants [n] (get a))
    (hinj : (∀ n' ∈ names, SimpleName n') ∧ n ∈ names) : SpelledExactly m n := by
  rintro ⟨k, j⟩ hm hf
  by_cases hk : k ∈ names
  · exact (foldKey_simple (hinj.1 k hk)).symm.trans (spelled_fold (hinj.1 n hinj.2) hf)
  · exact absurd hf (hv k (unmarshalStruct_keeps hget h hm hk) n (.head _))

/-- Without variants of recognised names, recognised fields are spelled exactly. -/
theorem spelled_of_noVariants {α : Type} {env : Env} {names : List Str} {setField : Str → Json → α → Res α} {zero : α} {post : α → Res α} {setUnrec : Fields → α → α}
    {get : α → Fields} (hget : ∀ u a, get (setUnrec u a) = u) {m : List (Str × Json)} {a : α}
    (h : unmarshalStruct env names setField zero post setUnrec (.obj m) = .ok a) (hv : NoVariants names (get a)) {n : Str} (hn : n ∈ names)
    (hinj : (∀ n' ∈ names, SimpleName n') ∧ n ∈ names) : SpelledExactly m n :=
  spelled_of_noVariant hget h (fun k hk n' hn' => by rw [List.mem_singleton.1 hn']; exact hv k hk n hn) hinj

theorem lastMember_of_get? {m : List (Str × Json)} (hn : (m.map Prod.fst).Nodup) {k : Str} {v : Json} (h : Entries.get? m k = some v) : LastMember m k v := by
  obtain ⟨l1, l2, rfl⟩ := List.append_of_mem (Entries.mem_of_get? h)
  refine ⟨l1, l2, rfl, ?_⟩
  intro e he hk
  rw [List.map_append, List.map_cons, List.nodup_append] at hn
  exact (List.nodup_cons.1 hn.2.1).1 (List.mem_map.2 ⟨e, he, hk⟩)

theorem mkDict_last {env : Env} {names : List Str} {u : Fields} (hu : FieldsWF env names u) {fs : List (Str × Json)} (hn : (fs.map Prod.fst).Nodup) {k : Str} {v : Json}
    (h : Entries.get? fs k = some v) : LastMember (mkDict u fs) k v := by
  refine lastMember_of_get? (mkDict_sorted hu.sorted fs).nodup ?_
  rw [mkDict_get? u fs hn, h]

/-- Re-reading what was printed from a document that was read. -/
theorem roundtrip {T : Type} [RoleType T] {env : Env} {WFT PlainT : T → Prop} (laws : EnvLaws env) (hzero : WFT RoleType.zero)
    (hun : ∀ j a, RoleType.unmarshal env j = .ok a → WFT a)
    (hrt : ∀ a : T, WFT a → PlainT a → ∃ j, RoleType.marshal a = .ok j ∧ RT env (RoleType.unmarshal env) j a)
    (htype : ∀ (a : T) s, RoleType.unmarshal env (.obj s) = .ok a → PlainT a → LastText s b!"_type" (RoleType.typeName T) →
      ∀ j, RoleType.marshal a = .ok j → ∃ s', j = .obj s' ∧ LastText s' b!"_type" (RoleType.typeName T))
    {data : Bytes} {m : Metadata T} (h : fromBytes env data = .ok m) (hp : PlainDocument PlainT m) {pretty : Bool}
    (hprint : ∀ j, m.marshal = .ok j → env.parse (env.print pretty j) = some j) : ∃ data', toBytes env m pretty = .ok data' ∧ fromBytes env data' = .ok m := by
  obtain ⟨doc, s, hdoc, hl1, hl2, hdec⟩ := fromBytes_last_signed h
  unfold fromBytes at h
  obtain ⟨_, _, h⟩ := Res.bind_eq_ok.1 h
  obtain ⟨j, hj, h⟩ := Res.bind_eq_ok.1 h
  obtain ⟨m', hm, h⟩ := Res.bind_eq_ok.1 h
  obtain ⟨_, huniq, h⟩ := Res.bind_eq_ok.1 h
  cases h
  rw [Res.ofOption_eq_ok, hdoc] at hj
  cases hj
  have hw : Metadata.WF WFT env m := Metadata.wf hzero hun laws hm
  obtain ⟨jm, h1, h2⟩ := Metadata.rt hrt hw hp
  refine ⟨env.print pretty jm, by unfold toBytes; rw [h1, Res.bind_ok], ?_⟩
  have hpr := hprint jm h1
  have hsp : SpelledExactly doc b!"signed" := spelled_of_noVariants (get := fun m : Metadata T => m.unrec) (fun _ _ => rfl) hm hp.fields (by decide) (by decide)
  obtain ⟨js, h3, h4⟩ := hrt m.signed hw.signed hp.signed
  obtain ⟨s', rfl, h5⟩ := htype m.signed s (hdec hsp) hp.signed hl2 js h3
  have hjm : jm = .obj (mkDict m.unrec [(b!"signed", .obj s'), (b!"signatures", encSlice Signature.marshal m.signatures)]) := by
    unfold Metadata.marshal at h1
    rw [h3, Res.bind_ok] at h1
    cases h1
    rfl
  have hlast : LastMember (mkDict m.unrec [(b!"signed", .obj s'), (b!"signatures", encSlice Signature.marshal m.signatures)]) b!"signed" (.obj s') :=
    mkDict_last hw.fields (by simp) (by simp [Entries.get?_cons])
  have hct : checkType env (RoleType.typeName T) (env.print pretty jm) = .ok () :=
    checkType_ok.2 ⟨jm, hpr, h2.2, _, s', hjm, hlast, h5⟩
  unfold fromBytes
  rw [hct, Res.bind_ok, hpr]
  show (Metadata.unmarshal env jm >>= _) = _
  rw [h2.1, Res.bind_ok, huniq, Res.bind_ok]

/-! ## C64 -/

/-- C64 for root metadata without the features listed in `Spec.PlainRoot`: ToBytes succeeds, and FromBytes of the result gives the same value, including the unrecognised
fields at all levels. `hprint` says that encoding/json reads what it prints. -/
theorem C64_root_partial {env : Env} (laws : EnvLaws env) {data : Bytes} {m : Metadata RootType} (h : fromBytes env data = .ok m) (hp : PlainDocument PlainRoot m)
    {pretty : Bool} (hprint : ∀ j, m.marshal = .ok j → env.parse (env.print pretty j) = some j) :
    ∃ data', toBytes env m pretty = .ok data' ∧ fromBytes env data' = .ok m := by
  refine roundtrip (WFT := RootType.WF env) laws ?_ (fun _ _ => RootType.wf laws) (fun _ => RootType.rt laws) ?_ h hp hprint
  · exact RootType.wf laws (j := .null) rfl
  · intro a s hs hp hl j hj
    have hw := RootType.wf laws hs
    have hs' : unmarshalStruct env RootType.names (RootType.setField env) {} .ok (fun u (a : RootType) => { a with unrec := u }) (.obj s) = .ok a := hs
    have ht : a.type = RoleType.typeName RootType := RootType.type_of
      (spelled_of_noVariants (get := RootType.unrec) (fun _ _ => rfl) hs' hp.fields (by decide) (by decide)) hl hs
    cases hj
    exact ⟨_, rfl, LastMember.text (mkDict_last hw.fields (by simp) (by rw [← ht]; simp [Entries.get?_cons]))⟩

/-- C64 for snapshot metadata without the features listed in `Spec.PlainSnapshot`: ToBytes succeeds, and FromBytes of the result gives the same value, including the unrecognised
fields at all levels. `hprint` says that encoding/json reads what it prints. -/
theorem C64_snapshot_partial {env : Env} (laws : EnvLaws env) {data : Bytes} {m : Metadata SnapshotType} (h : fromBytes env data = .ok m) (hp : PlainDocument PlainSnapshot m)
    {pretty : Bool} (hprint : ∀ j, m.marshal = .ok j → env.parse (env.print pretty j) = some j) :
    ∃ data', toBytes env m pretty = .ok data' ∧ fromBytes env data' = .ok m := by
  refine roundtrip (WFT := SnapshotType.WF env) laws ?_ (fun _ _ => SnapshotType.wf laws) (fun _ => SnapshotType.rt laws) ?_ h hp hprint
  · exact SnapshotType.wf laws (j := .null) rfl
  · intro a s hs hp hl j hj
    have hw := SnapshotType.wf laws hs
    have hs' : unmarshalStruct env SnapshotType.names (SnapshotType.setField env) {} .ok (fun u (a : SnapshotType) => { a with unrec := u }) (.obj s) = .ok a := hs
    have ht : a.type = RoleType.typeName SnapshotType := SnapshotType.type_of
      (spelled_of_noVariants (get := SnapshotType.unrec) (fun _ _ => rfl) hs' hp.fields (by decide) (by decide)) hl hs
    cases hj
    exact ⟨_, rfl, LastMember.text (mkDict_last hw.fields (by simp) (by rw [← ht]; simp [Entries.get?_cons]))⟩

/-- C64 for timestamp metadata without the features listed in `Spec.PlainTimestamp`: ToBytes succeeds, and FromBytes of the result gives the same value, including the unrecognised
fields at all levels. `hprint` says that encoding/json reads what it prints. -/
theorem C64_timestamp_partial {env : Env} (laws : EnvLaws env) {data : Bytes} {m : Metadata TimestampType} (h : fromBytes env data = .ok m) (hp : PlainDocument PlainTimestamp m)
    {pretty : Bool} (hprint : ∀ j, m.marshal = .ok j → env.parse (env.print pretty j) = some j) :
    ∃ data', toBytes env m pretty = .ok data' ∧ fromBytes env data' = .ok m := by
  refine roundtrip (WFT := TimestampType.WF env) laws ?_ (fun _ _ => TimestampType.wf laws) (fun _ => TimestampType.rt laws) ?_ h hp hprint
  · exact TimestampType.wf laws (j := .null) rfl
  · intro a s hs hp hl j hj
    have hw := TimestampType.wf laws hs
    have hs' : unmarshalStruct env TimestampType.names (TimestampType.setField env) {} .ok (fun u (a : TimestampType) => { a with unrec := u }) (.obj s) = .ok a := hs
    have ht : a.type = RoleType.typeName TimestampType := TimestampType.type_of
      (spelled_of_noVariants (get := TimestampType.unrec) (fun _ _ => rfl) hs' hp.fields (by decide) (by decide)) hl hs
    cases hj
    exact ⟨_, rfl, LastMember.text (mkDict_last hw.fields (by simp) (by rw [← ht]; simp [Entries.get?_cons]))⟩

/-- C64 for targets metadata without the features listed in `Spec.PlainTargets`: ToBytes succeeds, and FromBytes of the result gives the same value, including the unrecognised
fields at all levels. `hprint` says that encoding/json reads what it prints. -/
theorem C64_targets_partial {env : Env} (laws : EnvLaws env) {data : Bytes} {m : Metadata TargetsType} (h : fromBytes env data = .ok m) (hp : PlainDocument PlainTargets m)
    {pretty : Bool} (hprint : ∀ j, m.marshal = .ok j → env.parse (env.print pretty j) = some j) :
    ∃ data', toBytes env m pretty = .ok data' ∧ fromBytes env data' = .ok m := by
  refine roundtrip (WFT := TargetsType.WF env) laws ?_ (fun _ _ => TargetsType.wf laws) (fun _ => TargetsType.rt laws) ?_ h hp hprint
  · exact TargetsType.wf laws (j := .null) rfl
  · intro a s hs hp hl j hj
    have hw := TargetsType.wf laws hs
    have hs' : unmarshalStruct env TargetsType.names (TargetsType.setField env) {} TargetsType.setTargetPaths (fun u (a : TargetsType) => { a with unrec := u }) (.obj s) = .ok a := hs
    have ht : a.type = RoleType.typeName TargetsType := TargetsType.type_of
      (spelled_of_noVariants (get := TargetsType.unrec) (fun _ _ => rfl) hs' hp.fields (by decide) (by decide)) hl hs
    have hj' : TargetsType.marshal a = .ok j := hj
    unfold TargetsType.marshal at hj'
    dsimp only at hj'
    split at hj'
    · cases hj'
      exact ⟨_, rfl, LastMember.text (mkDict_last hw.fields (by simp) (by rw [← ht]; simp [Entries.get?_cons]))⟩
    · obtain ⟨jd, _, hj'⟩ := Res.bind_eq_ok.1 hj'
      cases hj'
      exact ⟨_, rfl, LastMember.text (mkDict_last hw.fields (by simp) (by rw [← ht]; simp [Entries.get?_cons]))⟩

/-! ### A concrete round trip -/

namespace Sample

/-- Times: the zero time is as in Go, any other text is a time. -/
def parseTime' (s : Str) : Option Time := if s = Time.zero.text then some Time.zero else some { instant := s.length, text := s }

/-- `[1]` is the first document, what ToBytes prints is `[0]` and reads as the second one. -/
def rtEnv (first second : Json) : Env :=
  { env0 with
    parseTime := parseTime'
    parse := fun b => if b = [1] then some first else if b = [0] then some second else none
    print := fun _ _ => [0] }

theorem rtEnv_laws (first second : Json) : EnvLaws (rtEnv first second) where
  anyIdem := fun _ _ _ => rfl
  anyInt := fun _ _ => rfl
  time := by
    intro s t h
    have h' : parseTime' s = some t := h
    show parseTime' t.text = some t
    unfold parseTime' at h' ⊢
    split at h'
    · cases h'; rfl
    · next hne => cases h'; rw [if_neg hne]
  zeroTime := rfl

/-- Read the document, print it. -/
def rtAgain (T : Type) [RoleType T] (j : Json) : Res Json := do
  let m ← fromBytes (T := T) (rtEnv j .null) [1]
  m.marshal

/-- The environment for reading, printing and reading rtAgain. -/
def rtOf (T : Type) [RoleType T] (j : Json) : Env := rtEnv j (match rtAgain T j with
  | .ok j' => j'
  | _ => .null)

/-- A timestamp with unrecognised fields in three places. -/
def oddTimestamp : Json :=
  .obj [(b!"x", .num 1), (b!"signed", .obj [(b!"_type", .str TIMESTAMP), (b!"version", .num 3), (b!"y", .arr [.num 2]),
    (b!"meta", .obj [(b!"snapshot.json", .obj [(b!"z", .str b!"w"), (b!"version", .num 3)])])]), (b!"signatures", .arr [])]

/-- Its value. -/
def oddTimestampValue : Metadata TimestampType where
  signed :=
    { type := TIMESTAMP
      version := 3
      metas := some [(b!"snapshot.json", some { version := 3, unrec := [(b!"z", .str b!"w")] })]
      unrec := [(b!"y", .arr [.num 2])] }
  signatures := some []
  unrec := [(b!"x", .num 1)]

end Sample

theorem noVariants_one {names : List Str} {k : Str} {j : Json} (h : ∀ n ∈ names, SimpleName n ∧ foldKey n ≠ foldKey k) : NoVariants names [(k, j)] := by
  intro k' hk'
  rw [Entries.get?_cons] at hk'
  split at hk'
  · next he => subst he; exact fun n hn hsp => (h n hn).2 ((foldKey_spelled (h n hn).1).2 hsp).symm
  · cases hk'

/-- A case of `C64_timestamp_partial`. -/
example : ∃ data', toBytes (rtOf TimestampType oddTimestamp) oddTimestampValue false = .ok data' ∧
    fromBytes (rtOf TimestampType oddTimestamp) data' = .ok oddTimestampValue := by
  refine C64_timestamp_partial (rtEnv_laws _ _) (data := [1]) rfl ⟨⟨noVariants_one (by decide), ?_⟩, ?_, noVariants_one (by decide)⟩ ?_
  · intro k x hx
    simp only [oddTimestampValue, GoMap.get?, GoMap.entries, Option.getD_some, Entries.get?_cons] at hx
    split at hx
    · cases hx; exact ⟨noVariants_one (by decide), by simp⟩
    · cases hx
  · intro s hs; cases hs
  · intro j hj; cases hj; rfl

/-! ### C64 is false in general -/

namespace Sample

/-- Version after reading, and after reading, printing and reading rtAgain. -/
def rtVersions (j : Json) : Res Int × Res Int :=
  ((fromBytes (T := TimestampType) (rtOf TimestampType j) [1]).map (·.signed.version), (fromBytes (T := TimestampType) (rtOf TimestampType j) [0]).map (·.signed.version))

/-- A timestamp with the members `ver\u017fion` and `version`. -/
def longS : Json :=
  .obj [(b!"signed", .obj [(b!"_type", .str TIMESTAMP), ([118, 101, 114, 0xC5, 0xBF, 105, 111, 110], .num 2), (b!"version", .num 1),
    (b!"meta", .obj [])]), (b!"signatures", .arr [])]

/-- Targets with the given delegations. -/
def rtDelegating (d : List (Str × Json)) : Json :=
  .obj [(b!"signed", .obj [(b!"_type", .str TARGETS), (b!"version", .num 1), (b!"targets", .obj []), (b!"delegations", .obj d)]), (b!"signatures", .arr [])]

/-- A delegated role with both kinds of paths. -/
def bothKinds : Json := rtDelegating [(b!"keys", .obj []), (b!"roles", .arr [.obj [(b!"name", .str b!"d"), (b!"keyids", .arr []), (b!"threshold", .num 1),
  (b!"terminating", .bool false), (b!"paths", .arr []), (b!"path_hash_prefixes", .arr [])]])]

/-- Delegations with both kinds of roles. -/
def bothRoles : Json := rtDelegating [(b!"keys", .obj []), (b!"roles", .arr []),
  (b!"succinct_roles", .obj [(b!"keyids", .arr []), (b!"threshold", .num 1), (b!"bit_length", .num 1), (b!"name_prefix", .str b!"b")])]

/-- Does the value have succinct roles? -/
def hasSuccinct (r : Res (Metadata TargetsType)) : Bool :=
  match r with
  | .ok m => (m.signed.delegations.bind (·.succinctRoles)).isSome
  | _ => false

/-- A timestamp whose entry has an empty hash map. -/
def emptyHashes : Json :=
  .obj [(b!"signed", .obj [(b!"_type", .str TIMESTAMP), (b!"version", .num 3),
    (b!"meta", .obj [(b!"snapshot.json", .obj [(b!"hashes", .obj []), (b!"version", .num 3)])])]), (b!"signatures", .arr [])]

/-- Is there a hash map (perhaps empty) for the snapshot? -/
def hasHashes (r : Res (Metadata TimestampType)) : Bool :=
  match r with
  | .ok m => match m.signed.metas.get? b!"snapshot.json" with
    | some (some f) => f.hashes.isSome
    | _ => false
  | _ => false

end Sample

/-- C64 is false: a field spelled with U+017F comes after the exact one when printed, and then wins: the version changes from 1 to 2. -/
theorem C64_false_variant : rtVersions longS = (.ok 1, .ok 2) := by decide +kernel

/-- C64 is false: a delegated role with both kinds of paths is read but cannot be printed. -/
theorem C64_false_error : (fromBytes (T := TargetsType) (rtOf TargetsType bothKinds) [1]).map (·.signed.version) = .ok 1 ∧
    (fromBytes (T := TargetsType) (rtOf TargetsType bothKinds) [1] >>= fun m => toBytes (rtOf TargetsType bothKinds) m false) = .err (.value "both paths and path_hash_prefixes") := by
  decide +kernel

/-- C64 is false: succinct roles beside roles are lost. -/
theorem C64_false_succinct : hasSuccinct (fromBytes (rtOf TargetsType bothRoles) [1]) = true ∧
    (fromBytes (T := TargetsType) (rtOf TargetsType bothRoles) [0]).map (·.signed.version) = .ok 1 ∧ hasSuccinct (fromBytes (rtOf TargetsType bothRoles) [0]) = false := by
  decide +kernel

/-- C64 is false: an empty hash map becomes nil. -/
theorem C64_false_hashes : hasHashes (fromBytes (rtOf TimestampType emptyHashes) [1]) = true ∧
    (fromBytes (T := TimestampType) (rtOf TimestampType emptyHashes) [0]).map (·.signed.version) = .ok 3 ∧ hasHashes (fromBytes (rtOf TimestampType emptyHashes) [0]) = false := by
  decide +kernel

end Tuf
