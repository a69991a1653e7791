import Verif.Props.Meaning

/-!
# What a document says is what is read (C137): the objects of documents
-/

namespace Tuf
open Spec Sample

variable {env : Env}

/-- The fields of a struct are set one by one. -/
theorem bind_set {α β : Type} {x : Res β} {f : β → α} {a' : α} (h : (x >>= fun v => Res.ok (f v)) = .ok a') : ∃ v, x = .ok v ∧ a' = f v := by
  obtain ⟨v, hv, h⟩ := Res.bind_eq_ok.1 h
  cases h
  exact ⟨v, hv, rfl⟩

theorem bind_takes {α β : Type} {x : Res β} {f : β → α} {v : β} (h : x = .ok v) : ∃ a', (x >>= fun v => Res.ok (f v)) = .ok a' := ⟨f v, by rw [h, Res.bind_ok]⟩

macro "each_field" : tactic => `(tactic| (repeat' (refine List.forall_mem_cons.2 ⟨?_, ?_⟩)))

macro "set_fields" : tactic => `(tactic| (
  each_field
  all_goals first
    | (exact fun x hx => absurd hx List.not_mem_nil)
    | (intro j a a' h
       obtain ⟨v, hv, he⟩ := bind_set h
       subst he
       refine ⟨hv, ?_, rfl⟩
       each_field
       all_goals first
         | (exact fun x hx => absurd hx List.not_mem_nil)
         | (exact fun _ => rfl)
         | (exact fun hn => absurd rfl hn))))

macro "take_fields" : tactic => `(tactic| (
  each_field
  all_goals first
    | (exact fun x hx => absurd hx List.not_mem_nil)
    | (exact fun j a v h => bind_takes h)))

macro "unrec_fields" : tactic => `(tactic| (
  intro x a
  refine ⟨rfl, ?_, rfl⟩
  each_field
  all_goals first
    | (exact fun x hx => absurd hx List.not_mem_nil)
    | rfl))

theorem forElems_true (j : Json) : ForElems (fun _ => True) j ↔ True := by simp [ForElems]
theorem forEntries_true (j : Json) : ForEntries (fun _ => True) j ↔ True := by simp [ForEntries, ForObj]

theorem FieldReads.congrQ {β : Type} {Q Q' : Json → Prop} {d : Json → β → Res β} {zero : β} {R : Json → β → Prop} (h : FieldReads Q d zero R) (hQ : ∀ j, Q j ↔ Q' j) : FieldReads Q' d zero R :=
  ⟨fun j v hq => h.sound j v ((hQ j).2 hq), h.takes, h.one, fun j v hv => (hQ j).1 (h.inQ j v hv)⟩

theorem str_reads : Reads (fun _ => True) (fun j => decStr j []) TextAs := ⟨fun _ _ _ h => decStr_as.1 h, fun _ _ h => decStr_as.2 h, fun _ _ _ => trivial⟩

theorem texts_reads : Reads (fun _ => True) (decSlice (fun j => decStr j [])) (ListAs TextAs) := str_reads.slice.congr forElems_true (fun _ _ => Iff.rfl)

theorem hexes_reads : FieldReads (fun _ => True) (decMap decHex) none (MapOf fun _ => HexAs) := hex_reads.map.congrQ forEntries_true

theorem custom_reads : Reads (fun _ => True) (decPtr (Res.ok : Json → Res Json)) (PtrAs fun j c => c = j) :=
  Reads.ptr ⟨fun _ _ _ h => by cases h; rfl, fun _ _ h => by rw [h], fun _ _ _ => trivial⟩ trivial

/-! ## KeyVal -/

abbrev KeyVal.flds : List (Fld KeyVal) := [⟨b!"public", (·.publicKey), decStr, fun _ => True, TextAs⟩]

theorem keyVal_struct : StructReads KeyVal.names KeyVal.setField {} (fun u a => { a with unrec := u }) (·.unrec) (fun _ => ()) KeyVal.flds where
  named := rfl
  simple := by decide
  set := by set_fields
  takes := by take_fields
  reads := by
    each_field
    · exact text_reads
    · exact fun x hx => absurd hx List.not_mem_nil
  unrec := by unrec_fields
  ext := by
    rintro ⟨⟩ ⟨⟩
    simp +contextual
  empty := rfl

theorem keyVal_reads : Reads SingleKeyVal (KeyVal.unmarshal env) (ObjAs (KeyValAs env) {}) := by
  refine (keyVal_struct.object (env := env)).congr (forObj_congr fun m => ?_) (objAs_congr fun m a => ?_)
  · simp [KeyVal.names, AtField]
  · constructor
    · rintro ⟨hf, hu, hr⟩
      exact ⟨hf (KeyVal.flds[0]) (List.getElem_mem _), hu⟩
    · intro h
      refine ⟨?_, h.others, rfl⟩
      each_field
      · exact h.1
      · exact fun x hx => absurd hx List.not_mem_nil

/-! ## Key -/

abbrev Key.flds (env : Env) : List (Fld Key) := [⟨b!"keytype", (·.type), decStr, fun _ => True, TextAs⟩, ⟨b!"scheme", (·.scheme), decStr, fun _ => True, TextAs⟩, ⟨b!"keyval", (·.value), fun j _ => KeyVal.unmarshal env j, SingleKeyVal, ObjAs (KeyValAs env) {}⟩]

theorem key_struct : StructReads Key.names (Key.setField env) {} (fun u a => { a with unrec := u }) (·.unrec) (·.id) (Key.flds env) where
  named := rfl
  simple := by decide
  set := by set_fields
  takes := by take_fields
  reads := by
    each_field
    · exact text_reads
    · exact text_reads
    · exact (keyVal_reads.field _)
    · exact fun x hx => absurd hx List.not_mem_nil
  unrec := by unrec_fields
  ext := by
    rintro ⟨⟩ ⟨⟩
    simp +contextual
  empty := rfl

theorem key_reads : Reads SingleKey (Key.unmarshal env) (ObjAs (KeyAs env) {}) := by
  refine (key_struct.object (env := env)).congr (forObj_congr fun m => ?_) (objAs_congr fun m a => ?_)
  · simp [Key.names, AtField]
  · constructor
    · rintro ⟨hf, hu, hr⟩
      exact ⟨hf ((Key.flds env)[0]) (List.getElem_mem _), hf ((Key.flds env)[1]) (List.getElem_mem _), hf ((Key.flds env)[2]) (List.getElem_mem _), hu, hr⟩
    · intro h
      refine ⟨?_, h.others, h.id⟩
      each_field
      · exact h.1
      · exact h.2
      · exact h.3
      · exact fun x hx => absurd hx List.not_mem_nil

/-! ## Role -/

abbrev Role.flds : List (Fld Role) := [⟨b!"keyids", (·.keyIDs), fun j _ => decSlice (fun j => decStr j []) j, fun _ => True, ListAs TextAs⟩, ⟨b!"threshold", (·.threshold), decInt, fun _ => True, IntAs⟩]

theorem role_struct : StructReads Role.names Role.setField {} (fun u a => { a with unrec := u }) (·.unrec) (fun _ => ()) Role.flds where
  named := rfl
  simple := by decide
  set := by set_fields
  takes := by take_fields
  reads := by
    each_field
    · exact (texts_reads.field _)
    · exact int_reads
    · exact fun x hx => absurd hx List.not_mem_nil
  unrec := by unrec_fields
  ext := by
    rintro ⟨⟩ ⟨⟩
    simp +contextual
  empty := rfl

theorem role_reads : Reads SingleRole (Role.unmarshal env) (ObjAs (RoleAs env) {}) := by
  refine (role_struct.lists (env := env) (by decide)).congr (forObj_congr fun m => ?_) (objAs_congr fun m a => ?_)
  · simp [Role.names, AtField]
  · constructor
    · rintro ⟨hf, hu, hr⟩
      exact ⟨hf (Role.flds[0]) (List.getElem_mem _), hf (Role.flds[1]) (List.getElem_mem _), hu⟩
    · intro h
      refine ⟨?_, h.others, rfl⟩
      each_field
      · exact h.1
      · exact h.2
      · exact fun x hx => absurd hx List.not_mem_nil

/-! ## MetaFiles -/

abbrev MetaFiles.flds : List (Fld MetaFiles) := [⟨b!"length", (·.length), decInt, fun _ => True, IntAs⟩, ⟨b!"hashes", (·.hashes), decMap decHex, fun _ => True, MapOf fun _ => HexAs⟩, ⟨b!"version", (·.version), decInt, fun _ => True, IntAs⟩]

theorem metaFiles_struct : StructReads MetaFiles.names MetaFiles.setField {} (fun u a => { a with unrec := u }) (·.unrec) (fun _ => ()) MetaFiles.flds where
  named := rfl
  simple := by decide
  set := by set_fields
  takes := by take_fields
  reads := by
    each_field
    · exact int_reads
    · exact hexes_reads
    · exact int_reads
    · exact fun x hx => absurd hx List.not_mem_nil
  unrec := by unrec_fields
  ext := by
    rintro ⟨⟩ ⟨⟩
    simp +contextual
  empty := rfl

theorem metaFiles_reads : Reads SingleMetaFiles (MetaFiles.unmarshal env) (ObjAs (MetaFilesAs env) {}) := by
  refine (metaFiles_struct.object (env := env)).congr (forObj_congr fun m => ?_) (objAs_congr fun m a => ?_)
  · simp [MetaFiles.names, AtField]
  · constructor
    · rintro ⟨hf, hu, hr⟩
      exact ⟨hf (MetaFiles.flds[0]) (List.getElem_mem _), hf (MetaFiles.flds[1]) (List.getElem_mem _), hf (MetaFiles.flds[2]) (List.getElem_mem _), hu⟩
    · intro h
      refine ⟨?_, h.others, rfl⟩
      each_field
      · exact h.1
      · exact h.2
      · exact h.3
      · exact fun x hx => absurd hx List.not_mem_nil

/-! ## TargetFiles -/

abbrev TargetFiles.flds : List (Fld TargetFiles) := [⟨b!"length", (·.length), decInt, fun _ => True, IntAs⟩, ⟨b!"hashes", (·.hashes), decMap decHex, fun _ => True, MapOf fun _ => HexAs⟩, ⟨b!"custom", (·.custom), fun j _ => decPtr .ok j, fun _ => True, PtrAs fun j c => c = j⟩]

theorem targetFiles_struct : StructReads TargetFiles.names TargetFiles.setField {} (fun u a => { a with unrec := u }) (·.unrec) (·.path) TargetFiles.flds where
  named := rfl
  simple := by decide
  set := by set_fields
  takes := by take_fields
  reads := by
    each_field
    · exact int_reads
    · exact hexes_reads
    · exact (custom_reads.field _)
    · exact fun x hx => absurd hx List.not_mem_nil
  unrec := by unrec_fields
  ext := by
    rintro ⟨⟩ ⟨⟩
    simp +contextual
  empty := rfl

theorem targetFiles_reads : Reads SingleTargetFiles (TargetFiles.unmarshal env) (ObjAs (TargetFilesAs env []) {}) := by
  refine (targetFiles_struct.object (env := env)).congr (forObj_congr fun m => ?_) (objAs_congr fun m a => ?_)
  · simp [TargetFiles.names, AtField]
  · constructor
    · rintro ⟨hf, hu, hr⟩
      exact ⟨hf (TargetFiles.flds[0]) (List.getElem_mem _), hf (TargetFiles.flds[1]) (List.getElem_mem _), hf (TargetFiles.flds[2]) (List.getElem_mem _), hu, hr⟩
    · intro h
      refine ⟨?_, h.others, h.path⟩
      each_field
      · exact h.1
      · exact h.2
      · exact h.3
      · exact fun x hx => absurd hx List.not_mem_nil

/-! ## DelegatedRole -/

abbrev DelegatedRole.flds : List (Fld DelegatedRole) := [⟨b!"name", (·.name), decStr, fun _ => True, TextAs⟩, ⟨b!"keyids", (·.keyIDs), fun j _ => decSlice (fun j => decStr j []) j, fun _ => True, ListAs TextAs⟩, ⟨b!"threshold", (·.threshold), decInt, fun _ => True, IntAs⟩, ⟨b!"terminating", (·.terminating), decBool, fun _ => True, BoolAs⟩, ⟨b!"path_hash_prefixes", (·.pathHashPrefixes), fun j _ => decSlice (fun j => decStr j []) j, fun _ => True, ListAs TextAs⟩, ⟨b!"paths", (·.paths), fun j _ => decSlice (fun j => decStr j []) j, fun _ => True, ListAs TextAs⟩]

theorem delegatedRole_struct : StructReads DelegatedRole.names DelegatedRole.setField {} (fun u a => { a with unrec := u }) (·.unrec) (fun _ => ()) DelegatedRole.flds where
  named := rfl
  simple := by decide
  set := by set_fields
  takes := by take_fields
  reads := by
    each_field
    · exact text_reads
    · exact (texts_reads.field _)
    · exact int_reads
    · exact bool_reads
    · exact (texts_reads.field _)
    · exact (texts_reads.field _)
    · exact fun x hx => absurd hx List.not_mem_nil
  unrec := by unrec_fields
  ext := by
    rintro ⟨⟩ ⟨⟩
    simp +contextual
  empty := rfl

theorem delegatedRole_reads : Reads SingleDelegatedRole (DelegatedRole.unmarshal env) (ObjAs (DelegatedRoleAs env) {}) := by
  refine (delegatedRole_struct.lists (env := env) (by decide)).congr (forObj_congr fun m => ?_) (objAs_congr fun m a => ?_)
  · simp [DelegatedRole.names, AtField]
  · constructor
    · rintro ⟨hf, hu, hr⟩
      exact ⟨hf (DelegatedRole.flds[0]) (List.getElem_mem _), hf (DelegatedRole.flds[1]) (List.getElem_mem _), hf (DelegatedRole.flds[2]) (List.getElem_mem _), hf (DelegatedRole.flds[3]) (List.getElem_mem _), hf (DelegatedRole.flds[4]) (List.getElem_mem _), hf (DelegatedRole.flds[5]) (List.getElem_mem _), hu⟩
    · intro h
      refine ⟨?_, h.others, rfl⟩
      each_field
      · exact h.1
      · exact h.2
      · exact h.3
      · exact h.4
      · exact h.5
      · exact h.6
      · exact fun x hx => absurd hx List.not_mem_nil

/-! ## SuccinctRoles -/

abbrev SuccinctRoles.flds : List (Fld SuccinctRoles) := [⟨b!"keyids", (·.keyIDs), fun j _ => decSlice (fun j => decStr j []) j, fun _ => True, ListAs TextAs⟩, ⟨b!"threshold", (·.threshold), decInt, fun _ => True, IntAs⟩, ⟨b!"bit_length", (·.bitLength), decInt, fun _ => True, IntAs⟩, ⟨b!"name_prefix", (·.namePrefix), decStr, fun _ => True, TextAs⟩]

theorem succinctRoles_struct : StructReads SuccinctRoles.names SuccinctRoles.setField {} (fun u a => { a with unrec := u }) (·.unrec) (fun _ => ()) SuccinctRoles.flds where
  named := rfl
  simple := by decide
  set := by set_fields
  takes := by take_fields
  reads := by
    each_field
    · exact (texts_reads.field _)
    · exact int_reads
    · exact int_reads
    · exact text_reads
    · exact fun x hx => absurd hx List.not_mem_nil
  unrec := by unrec_fields
  ext := by
    rintro ⟨⟩ ⟨⟩
    simp +contextual
  empty := rfl

theorem succinctRoles_reads : Reads SingleSuccinctRoles (SuccinctRoles.unmarshal env) (ObjAs (SuccinctRolesAs env) {}) := by
  refine (succinctRoles_struct.lists (env := env) (by decide)).congr (forObj_congr fun m => ?_) (objAs_congr fun m a => ?_)
  · simp [SuccinctRoles.names, AtField]
  · constructor
    · rintro ⟨hf, hu, hr⟩
      exact ⟨hf (SuccinctRoles.flds[0]) (List.getElem_mem _), hf (SuccinctRoles.flds[1]) (List.getElem_mem _), hf (SuccinctRoles.flds[2]) (List.getElem_mem _), hf (SuccinctRoles.flds[3]) (List.getElem_mem _), hu⟩
    · intro h
      refine ⟨?_, h.others, rfl⟩
      each_field
      · exact h.1
      · exact h.2
      · exact h.3
      · exact h.4
      · exact fun x hx => absurd hx List.not_mem_nil

/-! ## Delegations -/

abbrev Delegations.flds (env : Env) : List (Fld Delegations) := [⟨b!"keys", (·.keys), decMap (decPtr (Key.unmarshal env)), ForEntries SingleKey, KeysAs env⟩, ⟨b!"roles", (·.roles), fun j _ => decSlice (DelegatedRole.unmarshal env) j, ForElems SingleDelegatedRole, ListAs (ObjAs (DelegatedRoleAs env) {})⟩, ⟨b!"succinct_roles", (·.succinctRoles), fun j _ => decPtr (SuccinctRoles.unmarshal env) j, SingleSuccinctRoles, PtrAs (ObjAs (SuccinctRolesAs env) {})⟩]

theorem delegations_struct : StructReads Delegations.names (Delegations.setField env) {} (fun u a => { a with unrec := u }) (·.unrec) (fun _ => ()) (Delegations.flds env) where
  named := rfl
  simple := by decide
  set := by set_fields
  takes := by take_fields
  reads := by
    each_field
    · exact (key_reads.ptr nofun).map
    · exact (delegatedRole_reads.slice.field _)
    · exact ((succinctRoles_reads.ptr nofun).field _)
    · exact fun x hx => absurd hx List.not_mem_nil
  unrec := by unrec_fields
  ext := by
    rintro ⟨⟩ ⟨⟩
    simp +contextual
  empty := rfl

theorem delegations_reads : Reads SingleDelegations (Delegations.unmarshal env) (ObjAs (DelegationsAs env) {}) := by
  refine (delegations_struct.object (env := env)).congr (forObj_congr fun m => ?_) (objAs_congr fun m a => ?_)
  · simp [Delegations.names, AtField]
  · constructor
    · rintro ⟨hf, hu, hr⟩
      exact ⟨hf ((Delegations.flds env)[0]) (List.getElem_mem _), hf ((Delegations.flds env)[1]) (List.getElem_mem _), hf ((Delegations.flds env)[2]) (List.getElem_mem _), hu⟩
    · intro h
      refine ⟨?_, h.others, rfl⟩
      each_field
      · exact h.1
      · exact h.2
      · exact h.3
      · exact fun x hx => absurd hx List.not_mem_nil

/-! ## Signature -/

abbrev Signature.flds : List (Fld Signature) := [⟨b!"keyid", (·.keyID), decStr, fun _ => True, TextAs⟩, ⟨b!"sig", (·.sig), fun j _ => decHex j, fun _ => True, HexAs⟩]

theorem signature_struct : StructReads Signature.names Signature.setField {} (fun u a => { a with unrec := u }) (·.unrec) (fun _ => ()) Signature.flds where
  named := rfl
  simple := by decide
  set := by set_fields
  takes := by take_fields
  reads := by
    each_field
    · exact text_reads
    · exact (hex_reads.field _)
    · exact fun x hx => absurd hx List.not_mem_nil
  unrec := by unrec_fields
  ext := by
    rintro ⟨⟩ ⟨⟩
    simp +contextual
  empty := rfl

theorem signature_reads : Reads SingleSignature (Signature.unmarshal env) (ObjAs (SignatureAs env) {}) := by
  refine (signature_struct.object (env := env)).congr (forObj_congr fun m => ?_) (objAs_congr fun m a => ?_)
  · simp [Signature.names, AtField]
  · constructor
    · rintro ⟨hf, hu, hr⟩
      exact ⟨hf (Signature.flds[0]) (List.getElem_mem _), hf (Signature.flds[1]) (List.getElem_mem _), hu⟩
    · intro h
      refine ⟨?_, h.others, rfl⟩
      each_field
      · exact h.1
      · exact h.2
      · exact fun x hx => absurd hx List.not_mem_nil

/-! ## RootType -/

abbrev RootType.flds (env : Env) : List (Fld RootType) := [⟨b!"_type", (·.type), decStr, fun _ => True, TextAs⟩, ⟨b!"spec_version", (·.specVersion), decStr, fun _ => True, TextAs⟩, ⟨b!"consistent_snapshot", (·.consistentSnapshot), decBool, fun _ => True, BoolAs⟩, ⟨b!"version", (·.version), decInt, fun _ => True, IntAs⟩, ⟨b!"expires", (·.expires), decTime env, fun _ => True, TimeAs env⟩, ⟨b!"keys", (·.keys), decMap (decPtr (Key.unmarshal env)), ForEntries SingleKey, KeysAs env⟩, ⟨b!"roles", (·.roles), decMap (decPtr (Role.unmarshal env)), ForEntries SingleRole, MapOf fun _ => PtrAs (ObjAs (RoleAs env) {})⟩]

theorem root_struct : StructReads RootType.names (RootType.setField env) {} (fun u a => { a with unrec := u }) (·.unrec) (fun _ => ()) (RootType.flds env) where
  named := rfl
  simple := by decide
  set := by set_fields
  takes := by take_fields
  reads := by
    each_field
    · exact text_reads
    · exact text_reads
    · exact bool_reads
    · exact int_reads
    · exact time_reads
    · exact (key_reads.ptr nofun).map
    · exact (role_reads.ptr nofun).map
    · exact fun x hx => absurd hx List.not_mem_nil
  unrec := by unrec_fields
  ext := by
    rintro ⟨⟩ ⟨⟩
    simp +contextual
  empty := rfl

theorem root_reads : Reads SingleRoot (RootType.unmarshal env) (ObjAs (RootAs env) {}) := by
  refine (root_struct.object (env := env)).congr (forObj_congr fun m => ?_) (objAs_congr fun m a => ?_)
  · simp [RootType.names, AtField]
  · constructor
    · rintro ⟨hf, hu, hr⟩
      exact ⟨hf ((RootType.flds env)[0]) (List.getElem_mem _), hf ((RootType.flds env)[1]) (List.getElem_mem _), hf ((RootType.flds env)[2]) (List.getElem_mem _), hf ((RootType.flds env)[3]) (List.getElem_mem _), hf ((RootType.flds env)[4]) (List.getElem_mem _), hf ((RootType.flds env)[5]) (List.getElem_mem _), hf ((RootType.flds env)[6]) (List.getElem_mem _), hu⟩
    · intro h
      refine ⟨?_, h.others, rfl⟩
      each_field
      · exact h.1
      · exact h.2
      · exact h.3
      · exact h.4
      · exact h.5
      · exact h.6
      · exact h.7
      · exact fun x hx => absurd hx List.not_mem_nil

/-! ## SnapshotType -/

abbrev SnapshotType.flds (env : Env) : List (Fld SnapshotType) := [⟨b!"_type", (·.type), decStr, fun _ => True, TextAs⟩, ⟨b!"spec_version", (·.specVersion), decStr, fun _ => True, TextAs⟩, ⟨b!"version", (·.version), decInt, fun _ => True, IntAs⟩, ⟨b!"expires", (·.expires), decTime env, fun _ => True, TimeAs env⟩, ⟨b!"meta", (·.metas), decMap (decPtr (MetaFiles.unmarshal env)), ForEntries SingleMetaFiles, MetasAs env⟩]

theorem snapshot_struct : StructReads SnapshotType.names (SnapshotType.setField env) {} (fun u a => { a with unrec := u }) (·.unrec) (fun _ => ()) (SnapshotType.flds env) where
  named := rfl
  simple := by decide
  set := by set_fields
  takes := by take_fields
  reads := by
    each_field
    · exact text_reads
    · exact text_reads
    · exact int_reads
    · exact time_reads
    · exact (metaFiles_reads.ptr nofun).map
    · exact fun x hx => absurd hx List.not_mem_nil
  unrec := by unrec_fields
  ext := by
    rintro ⟨⟩ ⟨⟩
    simp +contextual
  empty := rfl

theorem snapshot_reads : Reads SingleSnapshot (SnapshotType.unmarshal env) (ObjAs (SnapshotAs env) {}) := by
  refine (snapshot_struct.object (env := env)).congr (forObj_congr fun m => ?_) (objAs_congr fun m a => ?_)
  · simp [SnapshotType.names, AtField]
  · constructor
    · rintro ⟨hf, hu, hr⟩
      exact ⟨hf ((SnapshotType.flds env)[0]) (List.getElem_mem _), hf ((SnapshotType.flds env)[1]) (List.getElem_mem _), hf ((SnapshotType.flds env)[2]) (List.getElem_mem _), hf ((SnapshotType.flds env)[3]) (List.getElem_mem _), hf ((SnapshotType.flds env)[4]) (List.getElem_mem _), hu⟩
    · intro h
      refine ⟨?_, h.others, rfl⟩
      each_field
      · exact h.1
      · exact h.2
      · exact h.3
      · exact h.4
      · exact h.5
      · exact fun x hx => absurd hx List.not_mem_nil

/-! ## TimestampType -/

abbrev TimestampType.flds (env : Env) : List (Fld TimestampType) := [⟨b!"_type", (·.type), decStr, fun _ => True, TextAs⟩, ⟨b!"spec_version", (·.specVersion), decStr, fun _ => True, TextAs⟩, ⟨b!"version", (·.version), decInt, fun _ => True, IntAs⟩, ⟨b!"expires", (·.expires), decTime env, fun _ => True, TimeAs env⟩, ⟨b!"meta", (·.metas), decMap (decPtr (MetaFiles.unmarshal env)), ForEntries SingleMetaFiles, MetasAs env⟩]

theorem timestamp_struct : StructReads TimestampType.names (TimestampType.setField env) {} (fun u a => { a with unrec := u }) (·.unrec) (fun _ => ()) (TimestampType.flds env) where
  named := rfl
  simple := by decide
  set := by set_fields
  takes := by take_fields
  reads := by
    each_field
    · exact text_reads
    · exact text_reads
    · exact int_reads
    · exact time_reads
    · exact (metaFiles_reads.ptr nofun).map
    · exact fun x hx => absurd hx List.not_mem_nil
  unrec := by unrec_fields
  ext := by
    rintro ⟨⟩ ⟨⟩
    simp +contextual
  empty := rfl

theorem timestamp_reads : Reads SingleTimestamp (TimestampType.unmarshal env) (ObjAs (TimestampAs env) {}) := by
  refine (timestamp_struct.object (env := env)).congr (forObj_congr fun m => ?_) (objAs_congr fun m a => ?_)
  · simp [TimestampType.names, AtField]
  · constructor
    · rintro ⟨hf, hu, hr⟩
      exact ⟨hf ((TimestampType.flds env)[0]) (List.getElem_mem _), hf ((TimestampType.flds env)[1]) (List.getElem_mem _), hf ((TimestampType.flds env)[2]) (List.getElem_mem _), hf ((TimestampType.flds env)[3]) (List.getElem_mem _), hf ((TimestampType.flds env)[4]) (List.getElem_mem _), hu⟩
    · intro h
      refine ⟨?_, h.others, rfl⟩
      each_field
      · exact h.1
      · exact h.2
      · exact h.3
      · exact h.4
      · exact h.5
      · exact fun x hx => absurd hx List.not_mem_nil

/-! ## TargetsType -/

abbrev TargetsType.flds (env : Env) : List (Fld TargetsType) := [⟨b!"_type", (·.type), decStr, fun _ => True, TextAs⟩, ⟨b!"spec_version", (·.specVersion), decStr, fun _ => True, TextAs⟩, ⟨b!"version", (·.version), decInt, fun _ => True, IntAs⟩, ⟨b!"expires", (·.expires), decTime env, fun _ => True, TimeAs env⟩, ⟨b!"targets", (·.targets), decMap (decPtr (TargetFiles.unmarshal env)), ForEntries SingleTargetFiles, MapOf fun _ => PtrAs (ObjAs (TargetFilesAs env []) {})⟩, ⟨b!"delegations", (·.delegations), fun j _ => decPtr (Delegations.unmarshal env) j, SingleDelegations, PtrAs (ObjAs (DelegationsAs env) {})⟩]

theorem targetsRaw_struct : StructReads TargetsType.names (TargetsType.setField env) {} (fun u a => { a with unrec := u }) (·.unrec) (fun _ => ()) (TargetsType.flds env) where
  named := rfl
  simple := by decide
  set := by set_fields
  takes := by take_fields
  reads := by
    each_field
    · exact text_reads
    · exact text_reads
    · exact int_reads
    · exact time_reads
    · exact (targetFiles_reads.ptr nofun).map
    · exact ((delegations_reads.ptr nofun).field _)
    · exact fun x hx => absurd hx List.not_mem_nil
  unrec := by unrec_fields
  ext := by
    rintro ⟨⟩ ⟨⟩
    simp +contextual
  empty := rfl

/-! ## The paths of targets -/

theorem setPaths_get? {es es' : Entries (Option TargetFiles)} (h : setPaths es = .ok es') (k : Str) :
    es'.get? k = (es.get? k).map (fun t => t.map (fun t => { t with path := k })) := by
  induction es generalizing es' with
  | nil => cases h; rfl
  | cons e es ih =>
    obtain ⟨k', t | t⟩ := e
    · cases h
    · obtain ⟨r, hr, h⟩ := Res.bind_eq_ok.1 h
      cases h
      rw [Entries.get?_cons, Entries.get?_cons, ih hr]
      split
      · next hk => subst hk; rfl
      · rfl

theorem setPaths_fst {es es' : Entries (Option TargetFiles)} (h : setPaths es = .ok es') : es'.map Prod.fst = es.map Prod.fst := by
  induction es generalizing es' with
  | nil => cases h; rfl
  | cons e es ih =>
    obtain ⟨k', t | t⟩ := e
    · cases h
    · obtain ⟨r, hr, h⟩ := Res.bind_eq_ok.1 h
      cases h
      simp [ih hr]

theorem setPaths_some {es es' : Entries (Option TargetFiles)} (h : setPaths es = .ok es') : ∀ e ∈ es, e.2.isSome := by
  induction es generalizing es' with
  | nil => simp
  | cons e es ih =>
    obtain ⟨k', t | t⟩ := e
    · cases h
    · obtain ⟨r, hr, h⟩ := Res.bind_eq_ok.1 h
      intro e he
      rcases List.mem_cons.1 he with rfl | he
      · rfl
      · exact ih hr e he

theorem setPaths_takes {es : Entries (Option TargetFiles)} (h : ∀ e ∈ es, e.2.isSome) : ∃ es', setPaths es = .ok es' := by
  induction es with
  | nil => exact ⟨[], rfl⟩
  | cons e es ih =>
    obtain ⟨k', t | t⟩ := e
    · have := h _ (List.mem_cons_self ..); cases this
    · obtain ⟨r, hr⟩ := ih (fun e he => h e (List.mem_cons_of_mem _ he))
      exact ⟨_, by rw [setPaths, hr, Res.bind_ok]⟩

/-- What is decoded before the paths are set. -/
def TargetsType.raw (env : Env) : Json → Res TargetsType := unmarshalStruct env TargetsType.names (TargetsType.setField env) {} .ok (fun u a => { a with unrec := u })

theorem targets_raw {j : Json} {a : TargetsType} : TargetsType.unmarshal env j = .ok a ↔ ∃ b, TargetsType.raw env j = .ok b ∧ b.setTargetPaths = .ok a := by
  unfold TargetsType.unmarshal TargetsType.raw unmarshalStruct
  cases hd : decStruct TargetsType.names (TargetsType.setField env) {} j with
  | ok x =>
    cases hm : decAnyMap env j with
    | ok d =>
      simp only [Res.bind_ok, Res.ok.injEq, exists_eq_left']
      unfold TargetsType.setTargetPaths
      cases ht : x.targets with
      | none => simp [ht]
      | some es =>
        simp only [ht]
        cases hs : setPaths es <;> simp [Res.bind_ok, Res.bind_err, Res.bind_panic]
    | err e =>
      simp only [Res.bind_ok, Res.bind_err]
      cases TargetsType.setTargetPaths x <;> simp
    | panic => exact absurd hm (decAnyMap_no_panic env j)
  | err e => simp
  | panic => simp

theorem targetFiles_path {m : List (Str × Json)} {f : TargetFiles} {p : Str} (h : TargetFilesAs env p m f) (q : Str) : TargetFilesAs env q m { f with path := q } := ⟨h.1, h.2, h.3, h.4, rfl⟩

theorem targetPtr_iff {i : Json} (hi : i ≠ .null) {v : Option TargetFiles} : PtrAs (ObjAs (TargetFilesAs env []) {}) i v ↔ ∃ m f, i = .obj m ∧ v = some f ∧ TargetFilesAs env [] m f := by
  constructor
  · rintro (⟨h, _⟩ | ⟨_, f, ⟨m, rfl, h⟩ | ⟨h, _⟩, rfl⟩)
    · exact absurd h hi
    · exact ⟨m, f, rfl, rfl, h⟩
    · exact absurd h hi
  · rintro ⟨m, f, rfl, rfl, h⟩
    exact .inr ⟨hi, f, .inl ⟨m, rfl, h⟩, rfl⟩

/-- Setting the paths of a map of targets. -/
def pathsOf : GoMap (Option TargetFiles) → Res (GoMap (Option TargetFiles))
  | none => .ok none
  | some es => (setPaths es).map some

theorem setTargetPaths_iff {b a : TargetsType} : b.setTargetPaths = .ok a ↔ ∃ g, pathsOf b.targets = .ok g ∧ a = { b with targets := g } := by
  obtain ⟨b1, b2, b3, b4, b5, b6, b7⟩ := b
  unfold TargetsType.setTargetPaths pathsOf
  cases b5 with
  | none => simp [eq_comm]
  | some es => cases hs : setPaths es <;> simp [Res.map, hs, Res.bind_ok, Res.bind_err, Res.bind_panic, eq_comm]

theorem targetMap_iff {j : Json} {g : GoMap (Option TargetFiles)} :
    (∃ g0, MapOf (fun _ => PtrAs (ObjAs (TargetFilesAs env []) {})) j g0 ∧ pathsOf g0 = .ok g) ↔ TargetMapAs env j g := by
  constructor
  · rintro ⟨g0, ⟨rfl, rfl⟩ | ⟨m, es0, rfl, rfl, h1, h2, h3⟩, h⟩
    · cases h; exact .inl ⟨rfl, rfl⟩
    · obtain ⟨es, h', rfl⟩ := Res.map_eq_ok.1 h
      clear h
      have h := h'
      have hsome := setPaths_some h
      have hnn : ∀ k, ¬ LastMember m k .null := by
        intro k hk
        have := (h2 k none).2 ⟨_, hk, .inl ⟨rfl, rfl⟩⟩
        have := hsome _ (Entries.mem_of_get? this)
        cases this
      refine .inr ⟨m, es, rfl, rfl, ?_, hnn, ?_, sorted_of_keys (setPaths_fst h) h3⟩
      · intro e he
        obtain ⟨v, hv⟩ := h1 e he
        by_cases hn : e.2 = .null
        · exact .inl hn
        · obtain ⟨o, f, h4, rfl, h5⟩ := (targetPtr_iff hn).1 hv
          exact .inr ⟨_, o, _, h4, rfl, targetFiles_path h5 e.1⟩
      · intro k v
        rw [setPaths_get? h, Option.map_eq_some_iff]
        constructor
        · rintro ⟨t, ht, rfl⟩
          obtain ⟨i, hi, hR⟩ := (h2 k t).1 ht
          have hn : i ≠ .null := by rintro rfl; exact hnn k hi
          obtain ⟨o, f, rfl, rfl, h5⟩ := (targetPtr_iff hn).1 hR
          exact ⟨_, hi, o, _, rfl, rfl, targetFiles_path h5 k⟩
        · rintro ⟨i, hi, o, f, rfl, rfl, h5⟩
          refine ⟨some { f with path := [] }, (h2 k _).2 ⟨_, hi, (targetPtr_iff (by simp)).2 ⟨o, _, rfl, rfl, targetFiles_path h5 []⟩⟩, ?_⟩
          have := h5.path
          obtain ⟨f1, f2, f3, f4, f5⟩ := f
          simp only at this
          subst this
          rfl
  · rintro (⟨rfl, rfl⟩ | ⟨m, es, rfl, rfl, h1, hnn, h2, h3⟩)
    · exact ⟨none, .inl ⟨rfl, rfl⟩, rfl⟩
    · let es0 : Entries (Option TargetFiles) := es.map (fun e => (e.1, e.2.map (fun f => { f with path := [] })))
      have hs0 : Entries.Sorted es0 := (Entries.sorted_map es (fun e => e.2.map (fun f => { f with path := [] }))).2 h3
      have hget : ∀ k, es0.get? k = (es.get? k).map (fun t => t.map (fun f => { f with path := [] })) := fun k => Entries.get?_map es (fun t : Option TargetFiles => t.map (fun f => { f with path := [] })) k
      have hsome : ∀ e ∈ es0, e.2.isSome := by
        intro e he
        obtain ⟨e', he', rfl⟩ := List.mem_map.1 he
        obtain ⟨i, _, o, f, _, hf, _⟩ := (h2 e'.1 e'.2).1 (Entries.get?_of_mem h3.nodup he')
        rw [hf]; rfl
      obtain ⟨es', hes'⟩ := setPaths_takes hsome
      have hee : es' = es := by
        refine (sorted_of_keys (setPaths_fst hes') hs0).ext h3 (fun k => ?_)
        rw [setPaths_get? hes', hget]
        cases hk : es.get? k with
        | none => rfl
        | some t =>
          obtain ⟨i, _, o, f, _, rfl, h5⟩ := (h2 k t).1 hk
          have := h5.path
          obtain ⟨f1, f2, f3, f4, f5⟩ := f
          simp only at this
          subst this
          rfl
      refine ⟨some es0, .inr ⟨m, es0, rfl, rfl, ?_, ?_, hs0⟩, by show (setPaths es0).map some = _; rw [hes', hee]; rfl⟩
      · intro e he
        rcases h1 e he with hn | ⟨t, o, f, h4, _, h5⟩
        · exact ⟨none, .inl ⟨hn, rfl⟩⟩
        · exact ⟨_, (targetPtr_iff (by rw [h4]; simp)).2 ⟨o, _, h4, rfl, targetFiles_path h5 []⟩⟩
      · intro k v
        rw [hget, Option.map_eq_some_iff]
        constructor
        · rintro ⟨t, ht, rfl⟩
          obtain ⟨i, hi, o, f, rfl, rfl, h5⟩ := (h2 k t).1 ht
          exact ⟨_, hi, (targetPtr_iff (by simp)).2 ⟨o, _, rfl, rfl, targetFiles_path h5 []⟩⟩
        · rintro ⟨i, hi, hR⟩
          have hn : i ≠ .null := by rintro rfl; exact hnn k hi
          obtain ⟨o, f, rfl, rfl, h5⟩ := (targetPtr_iff hn).1 hR
          refine ⟨_, (h2 k _).2 ⟨_, hi, o, _, rfl, rfl, targetFiles_path h5 k⟩, ?_⟩
          have := h5.path
          obtain ⟨f1, f2, f3, f4, f5⟩ := f
          simp only at this
          subst this
          rfl

theorem says_targets {m : List (Str × Json)} {g : GoMap (Option TargetFiles)} :
    (∃ g0, Says (MapOf (fun _ => PtrAs (ObjAs (TargetFilesAs env []) {}))) none m b!"targets" g0 ∧ pathsOf g0 = .ok g) ↔ Says (TargetMapAs env) none m b!"targets" g := by
  constructor
  · rintro ⟨g0, ⟨hu, rfl⟩ | ⟨j, hj, hR⟩, h⟩
    · cases h; exact .inl ⟨hu, rfl⟩
    · exact .inr ⟨j, hj, targetMap_iff.1 ⟨g0, hR, h⟩⟩
  · rintro (⟨hu, rfl⟩ | ⟨j, hj, hR⟩)
    · exact ⟨none, .inl ⟨hu, rfl⟩, rfl⟩
    · obtain ⟨g0, h0, h⟩ := targetMap_iff.2 hR
      exact ⟨g0, .inr ⟨j, hj, h0⟩, h⟩

/-- What the object says before the paths are set. -/
def TargetsRawAs (env : Env) (m : List (Str × Json)) (a : TargetsType) : Prop :=
  (∀ F ∈ TargetsType.flds env, Says F.R (F.get {}) m F.name (F.get a)) ∧ OthersAs env TargetsType.names m a.unrec ∧ (() : Unit) = ()

theorem targets_says {m : List (Str × Json)} {a : TargetsType} : (∃ b, TargetsRawAs env m b ∧ b.setTargetPaths = .ok a) ↔ TargetsAs env m a := by
  constructor
  · rintro ⟨b, ⟨hf, hu, _⟩, hp⟩
    obtain ⟨g, hg, rfl⟩ := setTargetPaths_iff.1 hp
    exact ⟨hf ((TargetsType.flds env)[0]) (List.getElem_mem _), hf ((TargetsType.flds env)[1]) (List.getElem_mem _), hf ((TargetsType.flds env)[2]) (List.getElem_mem _),
      hf ((TargetsType.flds env)[3]) (List.getElem_mem _), says_targets.1 ⟨_, hf ((TargetsType.flds env)[4]) (List.getElem_mem _), hg⟩, hf ((TargetsType.flds env)[5]) (List.getElem_mem _), hu⟩
  · intro h
    obtain ⟨g0, h0, hg⟩ := says_targets.2 h.targets
    refine ⟨{ a with targets := g0 }, ⟨?_, h.others, rfl⟩, setTargetPaths_iff.2 ⟨_, hg, rfl⟩⟩
    each_field
    · exact h.1
    · exact h.2
    · exact h.3
    · exact h.4
    · exact h0
    · exact h.6
    · exact fun x hx => absurd hx List.not_mem_nil

theorem targetsRaw_reads : Reads SingleTargets (TargetsType.raw env) (ObjAs (TargetsRawAs env) {}) := by
  refine (targetsRaw_struct.object (env := env)).congr (forObj_congr fun m => ?_) (objAs_congr fun m a => Iff.rfl)
  simp [TargetsType.names, AtField]

theorem targetsType_reads : Reads SingleTargets (TargetsType.unmarshal env) (ObjAs (TargetsAs env) {}) := by
  have key : ∀ j a, (∃ b, ObjAs (TargetsRawAs env) {} j b ∧ b.setTargetPaths = .ok a) ↔ ObjAs (TargetsAs env) {} j a := by
    intro j a
    constructor
    · rintro ⟨b, ⟨m, rfl, h⟩ | ⟨rfl, rfl⟩, hp⟩
      · exact .inl ⟨m, rfl, targets_says.1 ⟨b, h, hp⟩⟩
      · cases hp; exact .inr ⟨rfl, rfl⟩
    · rintro (⟨m, rfl, h⟩ | ⟨rfl, rfl⟩)
      · obtain ⟨b, h, hp⟩ := targets_says.2 h
        exact ⟨b, .inl ⟨m, rfl, h⟩, hp⟩
      · exact ⟨{}, .inr ⟨rfl, rfl⟩, rfl⟩
  refine ⟨fun j a hq hd => ?_, fun j a h => ?_, fun j a h => ?_⟩
  · obtain ⟨b, hb, hp⟩ := targets_raw.1 hd
    exact (key j a).1 ⟨b, targetsRaw_reads.sound j b hq hb, hp⟩
  · obtain ⟨b, hb, hp⟩ := (key j a).2 h
    exact targets_raw.2 ⟨b, targetsRaw_reads.exact j b hb, hp⟩
  · obtain ⟨b, hb, hp⟩ := (key j a).2 h
    exact targetsRaw_reads.inQ j b hb

/-! ## Documents -/

abbrev Metadata.flds {T : Type} [RoleType T] (env : Env) (Q : Json → Prop) (P : List (Str × Json) → T → Prop) : List (Fld (Metadata T)) :=
  [⟨b!"signed", (·.signed), fun j _ => RoleType.unmarshal env j, Q, ObjAs P RoleType.zero⟩,
   ⟨b!"signatures", (·.signatures), fun j _ => decSlice (Signature.unmarshal env) j, ForElems SingleSignature, ListAs (ObjAs (SignatureAs env) {})⟩]

theorem metadata_reads {T : Type} [RoleType T] {Q : Json → Prop} {P : List (Str × Json) → T → Prop} (h : Reads Q (RoleType.unmarshal env) (ObjAs P (RoleType.zero : T))) :
    Reads (SingleDocument Q) (Metadata.unmarshal env) (ObjAs (DocumentAs env P RoleType.zero) { signed := (RoleType.zero : T) }) := by
  have hst : StructReads Metadata.names (Metadata.setField env) { signed := (RoleType.zero : T) } (fun u a => { a with unrec := u }) (·.unrec) (fun _ => ()) (Metadata.flds env Q P) :=
    { named := rfl
      simple := by decide
      set := by set_fields
      takes := by take_fields
      reads := by
        each_field
        · exact h.field _
        · exact signature_reads.slice.field _
        · exact fun x hx => absurd hx List.not_mem_nil
      unrec := by unrec_fields
      ext := by
        rintro ⟨⟩ ⟨⟩
        simp +contextual
      empty := rfl }
  refine (hst.object (env := env)).congr (forObj_congr fun m => ?_) (objAs_congr fun m a => ?_)
  · simp [Metadata.names, AtField]
  · constructor
    · rintro ⟨hf, hu, hr⟩
      exact ⟨hf ((Metadata.flds env Q P)[0]) (List.getElem_mem _), hf ((Metadata.flds env Q P)[1]) (List.getElem_mem _), hu⟩
    · intro h
      refine ⟨?_, h.others, rfl⟩
      each_field
      · exact h.1
      · exact h.2
      · exact fun x hx => absurd hx List.not_mem_nil

theorem fromBytes_says {T : Type} [RoleType T] {Q : Json → Prop} {P : List (Str × Json) → T → Prop} (h : Reads Q (RoleType.unmarshal env) (ObjAs P (RoleType.zero : T))) {data : Bytes}
    (hq : ∀ j, env.parse data = some j → SingleDocument Q j) {md : Metadata T} :
    fromBytes env data = .ok md ↔ ∃ m, env.parse data = some (.obj m) ∧ Declares (.obj m) (RoleType.typeName T) ∧ DocumentAs env P RoleType.zero m md ∧ OneEach md.signatures := by
  have hu : checkUniqueSignatures md = .ok () ↔ OneEach md.signatures := by
    unfold checkUniqueSignatures OneEach
    rw [checkUnique_ok]
    simp
  constructor
  · intro hfb
    unfold fromBytes at hfb
    obtain ⟨_, hct, hfb⟩ := Res.bind_eq_ok.1 hfb
    obtain ⟨j, hj, hfb⟩ := Res.bind_eq_ok.1 hfb
    obtain ⟨md', hmd, hfb⟩ := Res.bind_eq_ok.1 hfb
    obtain ⟨_, hcu, hfb⟩ := Res.bind_eq_ok.1 hfb
    cases hfb
    have hj := Res.ofOption_eq_ok.1 hj
    obtain ⟨j', hj', _, hdec⟩ := checkType_ok.1 hct
    rw [hj] at hj'
    cases hj'
    rcases (metadata_reads h).sound j md (hq j hj) hmd with ⟨m, rfl, hd⟩ | ⟨rfl, _⟩
    · exact ⟨m, hj, hdec, hd, hu.1 hcu⟩
    · obtain ⟨_, _, h0, _⟩ := hdec; cases h0
  · rintro ⟨m, hj, hdec, hd, ho⟩
    have h1 : checkType env (RoleType.typeName T) data = .ok () := checkType_ok.2 ⟨_, hj, toAny_obj_isSome.2 hd.others.1, hdec⟩
    have h2 := (metadata_reads h).exact (.obj m) md (.inl ⟨m, rfl, hd⟩)
    unfold fromBytes
    rw [h1, Res.bind_ok, Res.ofOption_eq_ok.2 hj, Res.bind_ok, h2, Res.bind_ok, hu.2 ho, Res.bind_ok]

/-! ## C137 -/

/-- C137: a root document that mentions nothing twice is read as it says, and is accepted if and only if it says something. -/
theorem C137_root {data : Bytes} (hq : ∀ j, env.parse data = some j → SingleDocument SingleRoot j) (md : Metadata RootType) :
    fromBytes env data = .ok md ↔ ∃ m, env.parse data = some (.obj m) ∧ Declares (.obj m) b!"root" ∧ DocumentAs env (RootAs env) {} m md ∧ OneEach md.signatures := fromBytes_says root_reads hq

/-- C137 for timestamps. -/
theorem C137_timestamp {data : Bytes} (hq : ∀ j, env.parse data = some j → SingleDocument SingleTimestamp j) (md : Metadata TimestampType) :
    fromBytes env data = .ok md ↔ ∃ m, env.parse data = some (.obj m) ∧ Declares (.obj m) b!"timestamp" ∧ DocumentAs env (TimestampAs env) {} m md ∧ OneEach md.signatures := fromBytes_says timestamp_reads hq

/-- C137 for snapshots. -/
theorem C137_snapshot {data : Bytes} (hq : ∀ j, env.parse data = some j → SingleDocument SingleSnapshot j) (md : Metadata SnapshotType) :
    fromBytes env data = .ok md ↔ ∃ m, env.parse data = some (.obj m) ∧ Declares (.obj m) b!"snapshot" ∧ DocumentAs env (SnapshotAs env) {} m md ∧ OneEach md.signatures := fromBytes_says snapshot_reads hq

/-- C137 for targets metadata, delegated or not. -/
theorem C137_targets {data : Bytes} (hq : ∀ j, env.parse data = some j → SingleDocument SingleTargets j) (md : Metadata TargetsType) :
    fromBytes env data = .ok md ↔ ∃ m, env.parse data = some (.obj m) ∧ Declares (.obj m) b!"targets" ∧ DocumentAs env (TargetsAs env) {} m md ∧ OneEach md.signatures := fromBytes_says targetsType_reads hq

end Tuf
