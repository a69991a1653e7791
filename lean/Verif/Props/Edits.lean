import Verif.Spec.Edits
import Verif.Props.Signable
import Verif.Props.Example
import Verif.Props.Std.Text
import Verif.Props.Std.Time

/-! # C116: what the repository API builds can be published -/

namespace Tuf
open Tuf.Spec Tuf.Std

/-! ## Maps -/

/-- A map of texts to good values. -/
structure FineMap {α : Type} (P : α → Prop) (m : GoMap (Option α)) : Prop where
  sorted : Entries.Sorted m.entries
  values : ∀ e ∈ m.entries, Utf8 e.1 ∧ ∃ a, e.2 = some a ∧ P a

section
variable {α : Type} {P Q : α → Prop}

theorem fineMap_nil : FineMap P (some []) := ⟨Entries.sorted_nil, fun e he => by cases he⟩

theorem FineMap.good {m : GoMap (Option α)} (h : FineMap P m) (hp : ∀ a, P a → Q a) : GoodMap Q m :=
  ⟨h.sorted, fun e he => by obtain ⟨_, a, h1, h2⟩ := h.values e he; exact ⟨a, h1, hp a h2⟩⟩

theorem FineMap.whole {m : GoMap (Option α)} (h : FineMap P m) (hp : ∀ a, P a → Q a) : WholeMap Q m := by
  intro e he a ha
  obtain ⟨_, a', h1, h2⟩ := h.values e he
  rw [ha] at h1
  cases h1
  exact hp a h2

theorem FineMap.text {m : GoMap (Option α)} (h : FineMap P m) (hp : ∀ a, P a → Q a) : MapText (PtrText Q) m := by
  intro e he
  refine ⟨(h.values e he).1, fun a ha => ?_⟩
  obtain ⟨_, a', h1, h2⟩ := h.values e he
  rw [ha] at h1
  cases h1
  exact hp a h2

theorem FineMap.set {es : Entries (Option α)} (h : FineMap P (some es)) {k : Str} (hk : Utf8 k) {a : α} (ha : P a) : FineMap P (some (es.set k (some a))) := by
  refine ⟨Entries.Sorted.set h.sorted _ _, fun e he => ?_⟩
  rcases Entries.mem_set he with he | he
  · subst he
    exact ⟨hk, a, rfl, ha⟩
  · exact h.values e he

theorem FineMap.mapSet {m : GoMap (Option α)} (h : FineMap P m) {k : Str} (hk : Utf8 k) {a : α} (ha : P a) : FineMap P (m.map (fun es => es.set k (some a))) := by
  cases m with
  | none => exact h
  | some es => exact h.set hk ha

theorem FineMap.goSet {m m' : GoMap (Option α)} (h : FineMap P m) {k : Str} (hk : Utf8 k) {a : α} (ha : P a) (hs : m.set k (some a) = .ok m') : FineMap P m' := by
  cases m with
  | none => cases hs
  | some es => cases hs; exact h.set hk ha

theorem FineMap.del {m : GoMap (Option α)} (h : FineMap P m) (k : Str) : FineMap P (m.del k) := by
  cases m with
  | none => exact h
  | some es => exact ⟨Entries.Sorted.del h.sorted _, fun e he => h.values e (List.mem_filter.1 he).1⟩

theorem FineMap.get {m : GoMap (Option α)} (h : FineMap P m) {k : Str} {a : α} (hg : m.get? k = some (some a)) : Utf8 k ∧ P a := by
  obtain ⟨h1, a', h2, h3⟩ := h.values _ (Entries.mem_of_get? hg)
  cases h2
  exact ⟨h1, h3⟩

theorem FineMap.mapValues {m : GoMap (Option α)} (h : FineMap P m) {f : α → α} (hf : ∀ a, P a → P (f a)) : FineMap P (Spec.mapValues f m) := by
  cases m with
  | none => exact h
  | some es =>
    refine ⟨sorted_map h.sorted (fun e => e.2.map f), fun e he => ?_⟩
    obtain ⟨e', he', rfl⟩ := List.mem_map.1 (show e ∈ es.map _ from he)
    obtain ⟨h1, a, h2, h3⟩ := h.values e' he'
    exact ⟨h1, f a, by simp [h2], hf a h3⟩

end

variable {env : Env}

/-! ## Signing, writing, reading -/

theorem signedBy_exists {T : Type} [RoleType T] {m0 : Metadata T} {ss : List Signer} (hs : ∀ s ∈ ss, Works env s) (hp : ∃ p, payload m0.signed = .ok p) :
    ∃ m, SignedBy env m0 ss m := by
  induction ss using snoc_induction with
  | h0 => exact ⟨_, .nil⟩
  | hs ss s ih =>
    obtain ⟨m1, h1⟩ := ih fun s h => hs s (by simp [h])
    obtain ⟨⟨sig, m⟩, h⟩ := (sign_iff (m := m1) (hs s (by simp))).2 (by rw [signedBy_signed h1]; exact hp)
    exact ⟨m, .snoc h1 h⟩

theorem canBePublished {T : Type} [RoleType T] {P : Nat → T → Prop} (hP : TextType (std env) P) {G : T → Prop} {read : T → T}
    (hT : ∀ a : T, G a → ∃ s, RoleType.marshal a = .ok (.obj s) ∧ RT (std env) (RoleType.unmarshal (std env)) (.obj s) (read a) ∧ LastText s b!"_type" (RoleType.typeName T))
    {a : T} (hg : G a) (hat : P 9994 a) (hp : ∃ p, payload a = .ok p) : CanBePublished (std env) a (read a) := by
  intro ss pretty hs hd
  obtain ⟨m, hm⟩ := signedBy_exists (env := std env) (m0 := { signed := a, signatures := some [] }) hs hp
  have hsig := signedBy_signed hm
  obtain ⟨k1, k2, k3⟩ := signedBy_new hm rfl hd
  have hpr := printed (std_text env) hP (m := m) ⟨by rw [hsig]; exact hat, fun s hs' => by
    obtain ⟨e1, s', _, e2⟩ := k2 s hs'
    refine ⟨signerID_utf8 e2, ?_⟩
    rw [e1]
    exact fieldsText_nil, by rw [k1]; exact fieldsText_nil⟩ pretty
  obtain ⟨data, h1, h2⟩ := publish hT (m := m) ⟨by rw [hsig]; exact hg, fun s hs => by rw [(k2 s hs).1]; exact goodFields_nil _, k3, by rw [k1]; exact goodFields_nil _⟩ hpr
  refine ⟨m, data, hm, h1, ?_⟩
  rw [h2, hsig]

/-! ## Keys -/

/-- What is invariably true of stored keys. -/
structure StoredKey (env : Env) (d : Nat) (k : Key) : Prop where
  good : GoodKey env k
  whole : WholeKey k
  text : KeyText d k

theorem fineKey_ID {env : Env} {d : Nat} {key key' : Key} {id : Str} (h : FineKey env d key) (hid : key.ID env = .ok (id, key')) : Utf8 id ∧ StoredKey env d key' := by
  unfold Key.ID at hid
  split at hid
  · split at hid
    · cases hid
      exact ⟨hexEncode_utf8 _, ⟨h.good.fields, h.good.value⟩, h.whole, ⟨h.text.type, h.text.scheme, h.text.value, h.text.fields⟩⟩
    · cases hid
  · cases hid
    exact ⟨h.id, h.good, h.whole, h.text⟩

theorem storedKey_read {env : Env} {d : Nat} {k : Key} (h : StoredKey env d k) : StoredKey env d (readKey k) :=
  ⟨⟨h.good.fields, h.good.value⟩, h.whole, ⟨h.text.type, h.text.scheme, h.text.value, h.text.fields⟩⟩

structure StoredRole (env : Env) (d : Nat) (a : Role) : Prop where
  good : GoodRole env a
  whole : WholeRole a
  text : RoleText d a

/-! ## Root -/

/-- What is invariably true of edited roots. -/
structure RootInv (env : Env) (r : RootType) : Prop where
  fields : r.unrec = []
  type : r.type = b!"root"
  spec : Utf8 r.specVersion
  version : inInt64 r.version = true
  expires : CalendarTime r.expires
  keys : FineMap (StoredKey (std env) 9995) r.keys
  roles : FineMap (StoredRole (std env) 9995) r.roles

theorem rootInv_new {e : Time} (he : CalendarTime e) : RootInv env (newRoot e).signed where
  fields := rfl
  type := rfl
  spec := utf8_name (by rfl)
  version := rfl
  expires := he
  keys := fineMap_nil
  roles := by
    have hn : StoredRole (std env) 9995 newRole := ⟨⟨goodFields_nil _, rfl⟩, wholeNil, ⟨(fun a ha => by cases ha), fieldsText_nil⟩⟩
    refine ⟨by simp only [newRoot, Entries.Sorted, GoMap.entries, StrLt, Option.getD_some, List.pairwise_cons, List.mem_cons, List.not_mem_nil, or_false, forall_eq_or_imp, forall_eq]; simp; decide, ?_⟩
    intro x hx
    simp only [newRoot, GoMap.entries, Option.getD_some, List.mem_cons, List.not_mem_nil, or_false] at hx
    rcases hx with rfl | rfl | rfl | rfl <;> exact ⟨utf8_name (by rfl), _, rfl, hn⟩

theorem rootInv_good {r : RootType} (h : RootInv env r) : GoodRoot (std env) r where
  fields := by rw [h.fields]; exact goodFields_nil _
  type := h.type
  version := h.version
  expires := (calendar_good h.expires).1
  keys := h.keys.good fun _ h => h.good
  roles := h.roles.good fun _ h => h.good

theorem rootInv_whole {r : RootType} (h : RootInv env r) : WholeRoot r :=
  ⟨by rw [h.fields]; exact wholeNil, h.keys.whole fun _ h => h.whole, h.roles.whole fun _ h => h.whole⟩

theorem rootInv_text {r : RootType} (h : RootInv env r) : RootText 9994 r where
  type := by rw [h.type]; exact utf8_name (by rfl)
  spec := h.spec
  expires := (calendar_good (env := env) h.expires).2
  keys := h.keys.text fun _ h => h.text
  roles := h.roles.text fun _ h => h.text
  fields := by rw [h.fields]; exact fieldsText_nil

theorem rootInv_run {r : RootType} (h : RootInv env r) {e : RootEdit} (he : e.Fine (std env)) : RootInv env (e.run (std env) r) := by
  cases e with
  | add key role =>
    simp only [RootEdit.run, RootType.addKey]
    split
    · exact h
    · exact h
    · next a ha =>
      obtain ⟨hu, hr⟩ := h.roles.get ha
      split
      · next id key' hid =>
        obtain ⟨hui, hk⟩ := fineKey_ID (show FineKey (std env) 9995 key from he) hid
        have hr' : StoredRole (std env) 9995 (if id ∈ a.keyIDs.elems then a else { a with keyIDs := some (a.keyIDs.elems ++ [id]) }) := by
          split
          · exact hr
          · refine ⟨⟨hr.good.fields, hr.good.threshold⟩, hr.whole, ?_, hr.text.fields⟩
            intro i hi
            simp only [Slice.elems, Option.getD_some, List.mem_append, List.mem_singleton] at hi
            rcases hi with hi | rfl
            · exact hr.text.keyIDs i hi
            · exact hui
        split
        · next ks hks => exact ⟨h.fields, h.type, h.spec, h.version, h.expires, h.keys.goSet hui hk hks, h.roles.mapSet hu hr'⟩
        · exact ⟨h.fields, h.type, h.spec, h.version, h.expires, h.keys, h.roles.mapSet hu hr'⟩
      · exact h
  | revoke id role =>
    simp only [RootEdit.run, RootType.revokeKey]
    split
    · exact h
    · exact h
    · next a ha =>
      obtain ⟨hu, hr⟩ := h.roles.get ha
      have hr' : StoredRole (std env) 9995 { a with keyIDs := some (a.keyIDs.elems.filter (fun k => k ≠ id)) } := by
        refine ⟨⟨hr.good.fields, hr.good.threshold⟩, hr.whole, ?_, hr.text.fields⟩
        intro i hi
        simp only [Slice.elems, Option.getD_some] at hi
        exact hr.text.keyIDs i (List.mem_filter.1 hi).1
      split
      · split
        · exact ⟨h.fields, h.type, h.spec, h.version, h.expires, h.keys, h.roles.mapSet hu hr'⟩
        · exact ⟨h.fields, h.type, h.spec, h.version, h.expires, h.keys.del _, h.roles.mapSet hu hr'⟩
        · exact ⟨h.fields, h.type, h.spec, h.version, h.expires, h.keys, h.roles.mapSet hu hr'⟩
      · exact h
  | threshold role n =>
    simp only [RootEdit.run]
    split
    · next a ha =>
      obtain ⟨hu, hr⟩ := h.roles.get ha
      exact ⟨h.fields, h.type, h.spec, h.version, h.expires, h.keys, h.roles.mapSet hu ⟨⟨hr.good.fields, he⟩, hr.whole, hr.text.keyIDs, hr.text.fields⟩⟩
    · exact h
  | version n => exact ⟨h.fields, h.type, h.spec, he, h.expires, h.keys, h.roles⟩
  | expires e => exact ⟨h.fields, h.type, h.spec, h.version, he, h.keys, h.roles⟩
  | consistent b => exact ⟨h.fields, h.type, h.spec, h.version, h.expires, h.keys, h.roles⟩
  | reread => exact ⟨h.fields, h.type, h.spec, h.version, h.expires, h.keys.mapValues fun _ => storedKey_read, h.roles⟩

theorem rootInv_after {e : Time} (he : CalendarTime e) {edits : List RootEdit} (hf : ∀ x ∈ edits, x.Fine (std env)) : RootInv env (rootAfter (std env) e edits) := by
  unfold rootAfter
  induction edits using snoc_induction with
  | h0 => exact rootInv_new he
  | hs xs x ih =>
    rw [List.foldl_append]
    exact rootInv_run (ih fun y hy => hf y (by simp [hy])) (hf x (by simp))

/-- C116 for root metadata. -/
theorem C116_root {e : Time} (he : CalendarTime e) {edits : List RootEdit} (hf : ∀ x ∈ edits, x.Fine (std env)) :
    GoodRoot (std env) (rootAfter (std env) e edits) ∧ CanBePublished (std env) (rootAfter (std env) e edits) (readRoot (rootAfter (std env) e edits)) :=
  have h := rootInv_after he hf
  ⟨rootInv_good h, canBePublished (rootText (std_text env)) (fun _ => goodRoot_rt (std_laws env)) (rootInv_good h) (rootInv_text h) ((root_payload (rootInv_good h)).2 (rootInv_whole h))⟩

/-! ## Snapshot and timestamp -/

structure StoredMeta (env : Env) (a : MetaFiles) : Prop where
  good : GoodMeta env a
  whole : WholeMeta a
  text : MetaText 9995 a

theorem storedMeta_view {env : Env} {a : MetaFiles} (h : StoredMeta env a) : StoredMeta env (viewMeta a) := by
  refine ⟨⟨h.good.fields, h.good.length, h.good.version, ?_⟩, h.whole, ⟨?_, h.text.fields⟩⟩
  · unfold viewMeta
    dsimp only
    split
    · exact List.Pairwise.nil
    · exact h.good.hashes
  · unfold viewMeta
    dsimp only
    split
    · intro e he; cases he
    · exact h.text.hashes

theorem storedMeta_one : StoredMeta (std env) { version := 1 } :=
  ⟨⟨goodFields_nil _, rfl, rfl, List.Pairwise.nil⟩, wholeNil, ⟨(fun e he => by cases he), fieldsText_nil⟩⟩

structure SnapshotInv (env : Env) (a : SnapshotType) : Prop where
  fields : a.unrec = []
  type : a.type = b!"snapshot"
  spec : Utf8 a.specVersion
  version : inInt64 a.version = true
  expires : CalendarTime a.expires
  metas : FineMap (StoredMeta (std env)) a.metas

structure TimestampInv (env : Env) (a : TimestampType) : Prop where
  fields : a.unrec = []
  type : a.type = b!"timestamp"
  spec : Utf8 a.specVersion
  version : inInt64 a.version = true
  expires : CalendarTime a.expires
  metas : FineMap (StoredMeta (std env)) a.metas

theorem oneMeta {name : Str} (h : Utf8 name) : FineMap (StoredMeta (std env)) (some [(name, some { version := 1 })]) := by
  refine ⟨by simp [Entries.Sorted, GoMap.entries], fun e he => ?_⟩
  simp only [GoMap.entries, Option.getD_some, List.mem_singleton] at he
  subst he
  exact ⟨h, _, rfl, storedMeta_one⟩

theorem snapshotInv_run {a : SnapshotType} (h : SnapshotInv env a) {e : MetaEdit} (he : e.Fine (std env)) : SnapshotInv env (e.runSnapshot a) := by
  cases e with
  | file name f => exact ⟨h.fields, h.type, h.spec, h.version, h.expires, h.metas.mapSet he.1 ⟨he.2.1, he.2.2.1, he.2.2.2⟩⟩
  | remove name => exact ⟨h.fields, h.type, h.spec, h.version, h.expires, h.metas.del _⟩
  | version n => exact ⟨h.fields, h.type, h.spec, he, h.expires, h.metas⟩
  | expires e => exact ⟨h.fields, h.type, h.spec, h.version, he, h.metas⟩
  | reread => exact ⟨h.fields, h.type, h.spec, h.version, h.expires, h.metas.mapValues fun _ => storedMeta_view⟩

theorem timestampInv_run {a : TimestampType} (h : TimestampInv env a) {e : MetaEdit} (he : e.Fine (std env)) : TimestampInv env (e.runTimestamp a) := by
  cases e with
  | file name f => exact ⟨h.fields, h.type, h.spec, h.version, h.expires, h.metas.mapSet he.1 ⟨he.2.1, he.2.2.1, he.2.2.2⟩⟩
  | remove name => exact ⟨h.fields, h.type, h.spec, h.version, h.expires, h.metas.del _⟩
  | version n => exact ⟨h.fields, h.type, h.spec, he, h.expires, h.metas⟩
  | expires e => exact ⟨h.fields, h.type, h.spec, h.version, he, h.metas⟩
  | reread => exact ⟨h.fields, h.type, h.spec, h.version, h.expires, h.metas.mapValues fun _ => storedMeta_view⟩

theorem snapshotInv_after {e : Time} (he : CalendarTime e) {edits : List MetaEdit} (hf : ∀ x ∈ edits, x.Fine (std env)) : SnapshotInv env (snapshotAfter e edits) := by
  unfold snapshotAfter
  induction edits using snoc_induction with
  | h0 => exact ⟨rfl, rfl, utf8_name (by rfl), rfl, he, oneMeta (utf8_name (by rfl))⟩
  | hs xs x ih =>
    rw [List.foldl_append]
    exact snapshotInv_run (ih fun y hy => hf y (by simp [hy])) (hf x (by simp))

theorem timestampInv_after {e : Time} (he : CalendarTime e) {edits : List MetaEdit} (hf : ∀ x ∈ edits, x.Fine (std env)) : TimestampInv env (timestampAfter e edits) := by
  unfold timestampAfter
  induction edits using snoc_induction with
  | h0 => exact ⟨rfl, rfl, utf8_name (by rfl), rfl, he, oneMeta (utf8_name (by rfl))⟩
  | hs xs x ih =>
    rw [List.foldl_append]
    exact timestampInv_run (ih fun y hy => hf y (by simp [hy])) (hf x (by simp))

theorem snapshotInv_good {a : SnapshotType} (h : SnapshotInv env a) : GoodSnapshot (std env) a where
  fields := by rw [h.fields]; exact goodFields_nil _
  type := h.type
  version := h.version
  expires := (calendar_good h.expires).1
  metas := h.metas.good fun _ h => h.good

theorem timestampInv_good {a : TimestampType} (h : TimestampInv env a) : GoodTimestamp (std env) a where
  fields := by rw [h.fields]; exact goodFields_nil _
  type := h.type
  version := h.version
  expires := (calendar_good h.expires).1
  metas := h.metas.good fun _ h => h.good

theorem snapshotInv_text {a : SnapshotType} (h : SnapshotInv env a) : SnapshotText 9994 a where
  type := by rw [h.type]; exact utf8_name (by rfl)
  spec := h.spec
  expires := (calendar_good (env := env) h.expires).2
  metas := h.metas.text fun _ h => h.text
  fields := by rw [h.fields]; exact fieldsText_nil

theorem timestampInv_text {a : TimestampType} (h : TimestampInv env a) : TimestampText 9994 a where
  type := by rw [h.type]; exact utf8_name (by rfl)
  spec := h.spec
  expires := (calendar_good (env := env) h.expires).2
  metas := h.metas.text fun _ h => h.text
  fields := by rw [h.fields]; exact fieldsText_nil

theorem snapshotInv_whole {a : SnapshotType} (h : SnapshotInv env a) : WholeSnapshot a := ⟨by rw [h.fields]; exact wholeNil, h.metas.whole fun _ h => h.whole⟩
theorem timestampInv_whole {a : TimestampType} (h : TimestampInv env a) : WholeTimestamp a := ⟨by rw [h.fields]; exact wholeNil, h.metas.whole fun _ h => h.whole⟩

/-- C116 for snapshot metadata. -/
theorem C116_snapshot {e : Time} (he : CalendarTime e) {edits : List MetaEdit} (hf : ∀ x ∈ edits, x.Fine (std env)) :
    GoodSnapshot (std env) (snapshotAfter e edits) ∧ CanBePublished (std env) (snapshotAfter e edits) (viewSnapshot (snapshotAfter e edits)) :=
  have h := snapshotInv_after he hf
  ⟨snapshotInv_good h, canBePublished (snapshotText (std_text env)) (fun _ => goodSnapshot_rt (std_laws env)) (snapshotInv_good h) (snapshotInv_text h)
    ((snapshot_payload (snapshotInv_good h)).2 (snapshotInv_whole h))⟩

/-- C116 for timestamp metadata. -/
theorem C116_timestamp {e : Time} (he : CalendarTime e) {edits : List MetaEdit} (hf : ∀ x ∈ edits, x.Fine (std env)) :
    GoodTimestamp (std env) (timestampAfter e edits) ∧ CanBePublished (std env) (timestampAfter e edits) (viewTimestamp (timestampAfter e edits)) :=
  have h := timestampInv_after he hf
  ⟨timestampInv_good h, canBePublished (timestampText (std_text env)) (fun _ => goodTimestamp_rt (std_laws env)) (timestampInv_good h) (timestampInv_text h)
    ((timestamp_payload (timestampInv_good h)).2 (timestampInv_whole h))⟩

/-! ## Targets -/

structure StoredTarget (env : Env) (a : TargetFiles) : Prop where
  good : GoodTarget env a
  whole : WholeTarget a
  text : TargetText 9995 a

structure DelegationsInv (env : Env) (d : Delegations) : Prop where
  good : GoodDelegations env d
  whole : WholeDelegations d
  text : DelegationsText 9994 d

structure TargetsInv (env : Env) (a : TargetsType) : Prop where
  fields : a.unrec = []
  type : a.type = b!"targets"
  spec : Utf8 a.specVersion
  version : inInt64 a.version = true
  expires : CalendarTime a.expires
  targets : FineMap (StoredTarget (std env)) a.targets
  delegations : ∀ d, a.delegations = some d → DelegationsInv (std env) d

theorem storedTarget_path {env : Env} {a : TargetFiles} (h : StoredTarget env a) (path : Str) : StoredTarget env { a with path := path } :=
  ⟨⟨h.good.fields, h.good.length, h.good.hashes, h.good.custom⟩, h.whole, ⟨h.text.hashes, h.text.custom, h.text.fields⟩⟩

theorem readTargetMap_fine {m : GoMap (Option TargetFiles)} (h : FineMap (StoredTarget (std env)) m) : FineMap (StoredTarget (std env)) (readTargetMap m) := by
  refine ⟨?_, fun e he => ?_⟩
  · rw [readTargetMap_entries]
    exact sorted_map h.sorted (fun e => e.2.map (fun t => { t with path := e.1 }))
  · rw [readTargetMap_entries] at he
    obtain ⟨e', he', rfl⟩ := List.mem_map.1 he
    obtain ⟨h1, a, h2, h3⟩ := h.values e' he'
    exact ⟨h1, _, by simp [h2], storedTarget_path h3 e'.1⟩

theorem delegationsInv_keys {env : Env} {d : Delegations} (h : DelegationsInv env d) : FineMap (StoredKey env 9994) d.keys := by
  refine ⟨h.good.keys.sorted, fun e he => ?_⟩
  obtain ⟨a, h1, h2⟩ := h.good.keys.values e he
  obtain ⟨h3, h4⟩ := h.text.keys e he
  exact ⟨h3, a, h1, h2, h.whole.2.1 e he a h1, h4 a h1⟩

theorem delegationsInv_withKeys {env : Env} {d : Delegations} (h : DelegationsInv env d) {ks : GoMap (Option Key)} (hk : FineMap (StoredKey env 9994) ks) :
    DelegationsInv env { d with keys := ks } :=
  ⟨⟨h.good.fields, hk.good fun _ h => h.good, h.good.roles, h.good.succinct, h.good.oneKind⟩, ⟨h.whole.1, hk.whole fun _ h => h.whole, h.whole.2.2.1, h.whole.2.2.2⟩,
    ⟨hk.text fun _ h => h.text, h.text.roles, h.text.succinct, h.text.fields⟩⟩

/-- Roles that differ only in their lists of key IDs. -/
def SameButKeys (r r' : DelegatedRole) : Prop := ∃ ids, r' = { r with keyIDs := ids } ∧ ((∀ i ∈ r.keyIDs.elems, Utf8 i) → ∀ i ∈ ids.elems, Utf8 i)

theorem sameButKeys_refl (r : DelegatedRole) : SameButKeys r r := ⟨r.keyIDs, rfl, fun h => h⟩

theorem delegationsInv_withRoles {env : Env} {d : Delegations} (h : DelegationsInv env d) {rs rs' : List DelegatedRole} (hr : d.roles = some rs)
    (hs : ∀ r' ∈ rs', ∃ r ∈ rs, SameButKeys r r') : DelegationsInv env { d with roles := some rs' } := by
  refine ⟨⟨h.good.fields, h.good.keys, ?_, h.good.succinct, ?_⟩, ⟨h.whole.1, h.whole.2.1, ?_, h.whole.2.2.2⟩, ⟨h.text.keys, ?_, h.text.succinct, h.text.fields⟩⟩
  · intro r' hr'
    obtain ⟨r, h1, ids, rfl, _⟩ := hs r' hr'
    have := h.good.roles r (by rw [hr]; exact h1)
    exact ⟨this.fields, this.threshold, this.oneKind⟩
  · rcases h.good.oneKind with h | h
    · rw [hr] at h; cases h
    · exact .inr h
  · intro r' hr'
    obtain ⟨r, h1, ids, rfl, _⟩ := hs r' hr'
    exact h.whole.2.2.1 r (by rw [hr]; exact h1)
  · intro r' hr'
    obtain ⟨r, h1, ids, rfl, h2⟩ := hs r' hr'
    have := h.text.roles r (by rw [hr]; exact h1)
    exact ⟨this.name, h2 this.keyIDs, this.prefixes, this.paths, this.fields⟩

theorem delegationsInv_withSuccinct {env : Env} {d : Delegations} (h : DelegationsInv env d) {sr : SuccinctRoles} (hr : d.succinctRoles = some sr) {ids : Slice Str}
    (hi : (∀ i ∈ sr.keyIDs.elems, Utf8 i) → ∀ i ∈ ids.elems, Utf8 i) : DelegationsInv env { d with succinctRoles := some { sr with keyIDs := ids } } := by
  have hg := h.good.succinct sr hr
  have ht := h.text.succinct sr hr
  refine ⟨⟨h.good.fields, h.good.keys, h.good.roles, ?_, ?_⟩, ⟨h.whole.1, h.whole.2.1, h.whole.2.2.1, ?_⟩, ⟨h.text.keys, h.text.roles, ?_, h.text.fields⟩⟩
  · intro s hs
    cases hs
    exact ⟨hg.fields, hg.threshold, hg.bitLength⟩
  · rcases h.good.oneKind with h | h
    · exact .inl h
    · rw [hr] at h; cases h
  · intro s hs
    cases hs
    exact h.whole.2.2.2 sr hr
  · intro s hs
    cases hs
    exact ⟨hi ht.keyIDs, ht.namePrefix, ht.fields⟩

theorem addToRole_same {role id : Str} (hid : Utf8 id) {rs : List DelegatedRole} : ∀ r' ∈ (addToRole role id rs).1, ∃ r ∈ rs, SameButKeys r r' := by
  induction rs with
  | nil => intro r' h; cases h
  | cons d ds ih =>
    have hrec : ∀ r' ∈ d :: (addToRole role id ds).1, ∃ r ∈ d :: ds, SameButKeys r r' := by
      intro r' h
      rcases List.mem_cons.1 h with rfl | h
      · exact ⟨r', by simp, sameButKeys_refl _⟩
      · obtain ⟨r, h1, h2⟩ := ih r' h
        exact ⟨r, by simp [h1], h2⟩
    unfold addToRole
    split
    · split
      · exact hrec
      · intro r' h
        rcases List.mem_cons.1 h with rfl | h
        · refine ⟨d, by simp, _, rfl, ?_⟩
          intro hu i hi
          simp only [Slice.elems, Option.getD_some, List.mem_append, List.mem_singleton] at hi
          rcases hi with hi | rfl
          · exact hu i hi
          · exact hid
        · exact ⟨r', by simp [h], sameButKeys_refl _⟩
    · exact hrec

theorem filter_utf8 {l : List Str} {p : Str → Bool} (h : ∀ i ∈ l, Utf8 i) : ∀ i ∈ Slice.elems (some (l.filter p)), Utf8 i :=
  fun i hi => h i (List.mem_filter.1 (show i ∈ l.filter p from hi)).1

theorem revokeFromRole_same {role id : Str} {rs rs' : List DelegatedRole} (h : revokeFromRole role id rs = some (.ok rs')) : ∀ r' ∈ rs', ∃ r ∈ rs, SameButKeys r r' := by
  induction rs generalizing rs' with
  | nil => cases h
  | cons d ds ih =>
    unfold revokeFromRole at h
    split at h
    · split at h
      · cases h
        intro r' h
        rcases List.mem_cons.1 h with rfl | h
        · exact ⟨d, by simp, _, rfl, filter_utf8⟩
        · exact ⟨r', by simp [h], sameButKeys_refl _⟩
      · cases h
    · obtain ⟨x, hx, h⟩ := Option.map_eq_some_iff.1 h
      obtain ⟨ds', rfl, rfl⟩ := Res.map_eq_ok.1 h
      intro r' h
      rcases List.mem_cons.1 h with rfl | h
      · exact ⟨r', by simp, sameButKeys_refl _⟩
      · obtain ⟨r, h1, h2⟩ := ih hx r' h
        exact ⟨r, by simp [h1], h2⟩

theorem targetsInv_withDelegations {a : TargetsType} (h : TargetsInv env a) {d : Delegations} (hd : DelegationsInv (std env) d) : TargetsInv env { a with delegations := some d } :=
  ⟨h.fields, h.type, h.spec, h.version, h.expires, h.targets, fun d' hd' => by cases hd'; exact hd⟩

theorem targetsInv_run {a : TargetsType} (h : TargetsInv env a) {e : TargetsEdit} (he : e.Fine (std env)) : TargetsInv env (e.run (std env) a) := by
  cases e with
  | target path file => exact ⟨h.fields, h.type, h.spec, h.version, h.expires, h.targets.mapSet he.1 ⟨he.2.1, he.2.2.1, he.2.2.2⟩, h.delegations⟩
  | remove path => exact ⟨h.fields, h.type, h.spec, h.version, h.expires, h.targets.del _, h.delegations⟩
  | delegate d => exact ⟨h.fields, h.type, h.spec, h.version, h.expires, h.targets, fun a ha => ⟨(he a ha).1, (he a ha).2.1, (he a ha).2.2⟩⟩
  | version n => exact ⟨h.fields, h.type, h.spec, he, h.expires, h.targets, h.delegations⟩
  | expires e => exact ⟨h.fields, h.type, h.spec, h.version, he, h.targets, h.delegations⟩
  | reread =>
    refine ⟨h.fields, h.type, h.spec, h.version, h.expires, readTargetMap_fine h.targets, ?_⟩
    intro d hd
    obtain ⟨d', hd', rfl⟩ := Option.map_eq_some_iff.1 (show a.delegations.map _ = some d from hd)
    have := h.delegations d' hd'
    exact delegationsInv_withKeys this ((delegationsInv_keys this).mapValues fun _ => storedKey_read)
  | add key role =>
    simp only [TargetsEdit.run, TargetsType.addKey]
    split
    · exact h
    · next d hd =>
      have hi := h.delegations d hd
      have store : ∀ (d' : Delegations) (id : Str) (key' : Key), DelegationsInv (std env) d' → Utf8 id → StoredKey (std env) 9994 key' →
          TargetsInv env (match d'.keys.set id (some key') with
            | .ok ks => ((.ok (), { a with delegations := some { d' with keys := ks } }) : Res Unit × TargetsType)
            | _ => (.panic, { a with delegations := some d' })).2 := by
        intro d' id key' hd' hid hk
        split
        · next ks hks => exact targetsInv_withDelegations h (delegationsInv_withKeys hd' ((delegationsInv_keys hd').goSet hid hk hks))
        · exact targetsInv_withDelegations h hd'
      split
      · next rs hrs =>
        split
        · split
          · next id key' hid =>
            obtain ⟨hui, hk⟩ := fineKey_ID (show FineKey (std env) 9994 key from he) hid
            exact store _ id key' (delegationsInv_withRoles hi hrs (addToRole_same hui)) hui hk
          · exact h
        · exact h
      · split
        · next id key' hid =>
          obtain ⟨hui, hk⟩ := fineKey_ID (show FineKey (std env) 9994 key from he) hid
          split
          · next sr hsr =>
            refine store { d with succinctRoles := some (if id ∈ sr.keyIDs.elems then sr else { sr with keyIDs := some (sr.keyIDs.elems ++ [id]) }) } id key' ?_ hui hk
            split
            · have : ({ d with succinctRoles := some sr } : Delegations) = d := by rw [← hsr]
              rw [this]
              exact hi
            · refine delegationsInv_withSuccinct hi hsr ?_
              intro hu i hi
              simp only [Slice.elems, Option.getD_some, List.mem_append, List.mem_singleton] at hi
              rcases hi with hi | rfl
              · exact hu i hi
              · exact hui
          · exact store d id key' hi hui hk
        · exact h
  | revoke id role =>
    simp only [TargetsEdit.run, TargetsType.revokeKey]
    split
    · exact h
    · next d hd =>
      have hi := h.delegations d hd
      split
      · next rs hrs =>
        split
        · exact h
        · next rs' hrs' =>
          have h1 := delegationsInv_withRoles hi hrs (revokeFromRole_same hrs')
          split
          · exact targetsInv_withDelegations h h1
          · exact targetsInv_withDelegations h (delegationsInv_withKeys h1 ((delegationsInv_keys h1).del _))
        · exact h
        · exact h
      · split
        · next sr hsr =>
          split
          · have h1 := delegationsInv_withSuccinct hi hsr (ids := some (sr.keyIDs.elems.filter (fun k => k ≠ id))) filter_utf8
            exact targetsInv_withDelegations h (delegationsInv_withKeys h1 ((delegationsInv_keys h1).del _))
          · exact h
        · exact h

theorem targetsInv_after {e : Time} (he : CalendarTime e) {edits : List TargetsEdit} (hf : ∀ x ∈ edits, x.Fine (std env)) : TargetsInv env (targetsAfter (std env) e edits) := by
  unfold targetsAfter
  induction edits using snoc_induction with
  | h0 => exact ⟨rfl, rfl, utf8_name (by rfl), rfl, he, fineMap_nil, fun d hd => by cases hd⟩
  | hs xs x ih =>
    rw [List.foldl_append]
    exact targetsInv_run (ih fun y hy => hf y (by simp [hy])) (hf x (by simp))

theorem targetsInv_good {a : TargetsType} (h : TargetsInv env a) : GoodTargets (std env) a where
  fields := by rw [h.fields]; exact goodFields_nil _
  type := h.type
  version := h.version
  expires := (calendar_good h.expires).1
  targets := h.targets.good fun _ h => h.good
  delegations := fun d hd => (h.delegations d hd).good

theorem targetsInv_text {a : TargetsType} (h : TargetsInv env a) : TargetsText 9994 a where
  type := by rw [h.type]; exact utf8_name (by rfl)
  spec := h.spec
  expires := (calendar_good (env := env) h.expires).2
  targets := h.targets.text fun _ h => h.text
  delegations := fun d hd => (h.delegations d hd).text
  fields := by rw [h.fields]; exact fieldsText_nil

theorem targetsInv_whole {a : TargetsType} (h : TargetsInv env a) : WholeTargets a :=
  ⟨by rw [h.fields]; exact wholeNil, h.targets.whole fun _ h => h.whole, fun d hd => (h.delegations d hd).whole⟩

/-- C116 for targets metadata. -/
theorem C116_targets {e : Time} (he : CalendarTime e) {edits : List TargetsEdit} (hf : ∀ x ∈ edits, x.Fine (std env)) :
    GoodTargets (std env) (targetsAfter (std env) e edits) ∧ CanBePublished (std env) (targetsAfter (std env) e edits) (readTargets (targetsAfter (std env) e edits)) :=
  have h := targetsInv_after he hf
  ⟨targetsInv_good h, canBePublished (targetsText (std_text env)) (fun _ => goodTargets_rt (std_laws env)) (targetsInv_good h) (targetsInv_text h)
    ((targets_payload (targetsInv_good h)).2 (targetsInv_whole h))⟩

end Tuf
