import Verif.Proofs.RoundTrip

/-! What each type prints decodes to the same value. -/

namespace Tuf
open Spec

section
variable {env : Env}

macro "mem_cases" h:ident : tactic => `(tactic| (simp only [List.mem_cons, List.mem_append, List.not_mem_nil, or_false] at $h:ident))

theorem decInt_num {n old : Int} (h : inInt64 n = true) : decInt (.num n) old = .ok n := by simp [decInt, h]

theorem decTime_text (laws : EnvLaws env) {t old : Time} (h : (∃ s, env.parseTime s = some t) ∨ t = Time.zero) : decTime env (.str t.text) old = .ok t := by
  have : env.parseTime t.text = some t := by
    rcases h with ⟨s, h⟩ | rfl
    · exact laws.time s t h
    · exact laws.zeroTime
  simp [decTime, this, Res.ofOption]

/-- The elements of a pointer map that are not nil. -/
theorem mapWF_ptr {β : Type} {dec : Json → Res β} {enc : β → Json} {P Q : β → Prop} (hobj : ∀ x, enc x ≠ .null) (h : ∀ x, P x → Q x → RT env dec (enc x) x) {m : GoMap (Option β)}
    (hm : MapWF (fun p => ∀ x, p = some x → P x) m) (hq : ∀ k x, m.get? k = some (some x) → Q x) :
    MapWF (fun p => RT env (decPtr dec) (encPtr enc p) p) m := by
  refine ⟨hm.1, fun e he => rt_ptr fun x hx => ⟨h x (hm.2 e he x hx) (hq e.1 x ?_), hobj x⟩⟩
  have := Entries.get?_of_mem hm.1.nodup he
  rw [hx] at this
  exact this

/-! ## Keys -/

def KeyVal.agree (f : Str) (x y : KeyVal) : Prop := f = b!"public" → x.publicKey = y.publicKey

theorem KeyVal.rt {a : KeyVal} (hw : FieldsWF env KeyVal.names a.unrec) (hp : NoVariants [b!"public"] a.unrec) : RT env (KeyVal.unmarshal env) a.marshal a := by
  refine rt_struct (agree := KeyVal.agree) (a1 := a) (fun f x y z h1 h2 hf => (h1 hf).trans (h2 hf)) (fun f x hf => rfl) hw (by decide) hp (by simp) ?_ ?_ ?_ ?_
  · intro e he
    mem_cases he
    subst he
    exact ⟨by simp [KeyVal.names], any_str _ _⟩
  · intro e he x hx
    mem_cases he
    subst he
    exact ⟨{ x with publicKey := a.publicKey }, rfl, fun _ => rfl, fun f _ hne hf => absurd hf hne⟩
  · intro f hf hn
    simp only [KeyVal.names, List.mem_cons, List.not_mem_nil, or_false] at hf
    exact absurd (by rw [hf]; exact .head _) hn
  · intro y hy
    refine ⟨y, rfl, ?_⟩
    have := hy b!"public" (by decide) rfl
    cases y; cases a; cases this; rfl

structure Key.WF (env : Env) (a : Key) : Prop where
  fields : FieldsWF env Key.names a.unrec
  value : FieldsWF env KeyVal.names a.value.unrec
  id : a.id = []

def Key.agree (f : Str) (x y : Key) : Prop :=
    (f = b!"keytype" → x.type = y.type) ∧
    (f = b!"scheme" → x.scheme = y.scheme) ∧
    (f = b!"keyval" → x.value = y.value) ∧
    x.id = y.id

theorem Key.rt {a : Key} (hw : Key.WF env a) (hp : PlainKey a) : RT env (Key.unmarshal env) a.marshal a := by
  have hv := KeyVal.rt hw.value hp.value
  have hid := hw.id
  refine rt_struct (agree := Key.agree) (a1 := a) (by unfold Key.agree; grind) (by unfold Key.agree; grind) hw.fields (by decide) hp.fields (by simp) ?_ ?_ ?_ ?_
  · intro e he
    mem_cases he
    rcases he with rfl | rfl | rfl
    · exact ⟨by simp [Key.names], any_str _ _⟩
    · exact ⟨by simp [Key.names], any_str _ _⟩
    · exact ⟨by simp [Key.names], hv.2⟩
  · intro e he x hx
    unfold Key.agree at hx
    mem_cases he
    rcases he with rfl | rfl | rfl
    · exact ⟨{ x with type := a.type }, by simp [Key.setField, decStr], by unfold Key.agree; grind, by unfold Key.agree; grind⟩
    · exact ⟨{ x with scheme := a.scheme }, by simp [Key.setField, decStr], by unfold Key.agree; grind, by unfold Key.agree; grind⟩
    · exact ⟨{ x with value := a.value }, by simp [Key.setField, hv.1], by unfold Key.agree; grind, by unfold Key.agree; grind⟩
  · intro f hf hn
    exact absurd hf hn
  · intro y hy
    refine ⟨y, rfl, ?_⟩
    unfold Key.agree at hy
    have h0 : y.type = a.type := by have := hy b!"keytype" (by decide); grind
    have h1 : y.scheme = a.scheme := by have := hy b!"scheme" (by decide); grind
    have h2 : y.value = a.value := by have := hy b!"keyval" (by decide); grind
    have hu : y.id = a.id := by have := hy b!"keytype" (by decide); grind
    cases y; cases a; simp_all

structure Role.WF (env : Env) (a : Role) : Prop where
  fields : FieldsWF env Role.names a.unrec
  threshold : inInt64 a.threshold = true

def Role.agree (f : Str) (x y : Role) : Prop :=
    (f = b!"keyids" → x.keyIDs = y.keyIDs) ∧
    (f = b!"threshold" → x.threshold = y.threshold)

theorem Role.rt (laws : EnvLaws env) {a : Role} (hw : Role.WF env a) (hp : PlainRole a) : RT env (Role.unmarshal env) a.marshal a := by
  have hk := rt_strs (env := env) a.keyIDs
  refine rt_lists (agree := Role.agree) (a1 := a) (by unfold Role.agree; grind) (by unfold Role.agree; grind) hw.fields (by decide) hp (by simp) ?_ ?_ ?_ ?_
  · intro e he
    mem_cases he
    rcases he with rfl | rfl
    · exact ⟨by simp [Role.names], hk.2⟩
    · exact ⟨by simp [Role.names], any_int laws hw.threshold⟩
  · intro e he x hx
    unfold Role.agree at hx
    mem_cases he
    rcases he with rfl | rfl
    · exact ⟨{ x with keyIDs := a.keyIDs }, by simp [Role.setField, hk.1], by unfold Role.agree; grind, by unfold Role.agree; grind⟩
    · exact ⟨{ x with threshold := a.threshold }, by simp [Role.setField, decInt_num hw.threshold], by unfold Role.agree; grind, by unfold Role.agree; grind⟩
  · intro f hf hn
    exact absurd hf hn
  · intro y hy
    refine ⟨y, rfl, ?_⟩
    unfold Role.agree at hy
    have h0 : y.keyIDs = a.keyIDs := by have := hy b!"keyids" (by decide); grind
    have h1 : y.threshold = a.threshold := by have := hy b!"threshold" (by decide); grind
    cases y; cases a; simp_all

structure SuccinctRoles.WF (env : Env) (a : SuccinctRoles) : Prop where
  fields : FieldsWF env SuccinctRoles.names a.unrec
  threshold : inInt64 a.threshold = true
  bitLength : inInt64 a.bitLength = true

def SuccinctRoles.agree (f : Str) (x y : SuccinctRoles) : Prop :=
    (f = b!"keyids" → x.keyIDs = y.keyIDs) ∧
    (f = b!"threshold" → x.threshold = y.threshold) ∧
    (f = b!"bit_length" → x.bitLength = y.bitLength) ∧
    (f = b!"name_prefix" → x.namePrefix = y.namePrefix)

theorem SuccinctRoles.rt (laws : EnvLaws env) {a : SuccinctRoles} (hw : SuccinctRoles.WF env a) (hp : PlainSuccinct a) : RT env (SuccinctRoles.unmarshal env) a.marshal a := by
  have hk := rt_strs (env := env) a.keyIDs
  refine rt_lists (agree := SuccinctRoles.agree) (a1 := a) (by unfold SuccinctRoles.agree; grind) (by unfold SuccinctRoles.agree; grind) hw.fields (by decide) hp (by simp) ?_ ?_ ?_ ?_
  · intro e he
    mem_cases he
    rcases he with rfl | rfl | rfl | rfl
    · exact ⟨by simp [SuccinctRoles.names], hk.2⟩
    · exact ⟨by simp [SuccinctRoles.names], any_int laws hw.threshold⟩
    · exact ⟨by simp [SuccinctRoles.names], any_int laws hw.bitLength⟩
    · exact ⟨by simp [SuccinctRoles.names], any_str _ _⟩
  · intro e he x hx
    unfold SuccinctRoles.agree at hx
    mem_cases he
    rcases he with rfl | rfl | rfl | rfl
    · exact ⟨{ x with keyIDs := a.keyIDs }, by simp [SuccinctRoles.setField, hk.1], by unfold SuccinctRoles.agree; grind, by unfold SuccinctRoles.agree; grind⟩
    · exact ⟨{ x with threshold := a.threshold }, by simp [SuccinctRoles.setField, decInt_num hw.threshold], by unfold SuccinctRoles.agree; grind, by unfold SuccinctRoles.agree; grind⟩
    · exact ⟨{ x with bitLength := a.bitLength }, by simp [SuccinctRoles.setField, decInt_num hw.bitLength], by unfold SuccinctRoles.agree; grind, by unfold SuccinctRoles.agree; grind⟩
    · exact ⟨{ x with namePrefix := a.namePrefix }, by simp [SuccinctRoles.setField, decStr], by unfold SuccinctRoles.agree; grind, by unfold SuccinctRoles.agree; grind⟩
  · intro f hf hn
    exact absurd hf hn
  · intro y hy
    refine ⟨y, rfl, ?_⟩
    unfold SuccinctRoles.agree at hy
    have h0 : y.keyIDs = a.keyIDs := by have := hy b!"keyids" (by decide); grind
    have h1 : y.threshold = a.threshold := by have := hy b!"threshold" (by decide); grind
    have h2 : y.bitLength = a.bitLength := by have := hy b!"bit_length" (by decide); grind
    have h3 : y.namePrefix = a.namePrefix := by have := hy b!"name_prefix" (by decide); grind
    cases y; cases a; simp_all

structure Signature.WF (env : Env) (a : Signature) : Prop where
  fields : FieldsWF env Signature.names a.unrec

def Signature.agree (f : Str) (x y : Signature) : Prop :=
    (f = b!"keyid" → x.keyID = y.keyID) ∧
    (f = b!"sig" → x.sig = y.sig)

theorem Signature.rt {a : Signature} (hw : Signature.WF env a) (hp : PlainSignature a) : RT env (Signature.unmarshal env) a.marshal a := by
  have hk := rt_hex (env := env) a.sig
  refine rt_struct (agree := Signature.agree) (a1 := a) (by unfold Signature.agree; grind) (by unfold Signature.agree; grind) hw.fields (by decide) hp (by simp) ?_ ?_ ?_ ?_
  · intro e he
    mem_cases he
    rcases he with rfl | rfl
    · exact ⟨by simp [Signature.names], any_str _ _⟩
    · exact ⟨by simp [Signature.names], hk.2⟩
  · intro e he x hx
    unfold Signature.agree at hx
    mem_cases he
    rcases he with rfl | rfl
    · exact ⟨{ x with keyID := a.keyID }, by simp [Signature.setField, decStr], by unfold Signature.agree; grind, by unfold Signature.agree; grind⟩
    · exact ⟨{ x with sig := a.sig }, by simp [Signature.setField, hk.1], by unfold Signature.agree; grind, by unfold Signature.agree; grind⟩
  · intro f hf hn
    exact absurd hf hn
  · intro y hy
    refine ⟨y, rfl, ?_⟩
    unfold Signature.agree at hy
    have h0 : y.keyID = a.keyID := by have := hy b!"keyid" (by decide); grind
    have h1 : y.sig = a.sig := by have := hy b!"sig" (by decide); grind
    cases y; cases a; simp_all

/-! ## Target and meta files -/

structure MetaFiles.WF (env : Env) (a : MetaFiles) : Prop where
  fields : FieldsWF env MetaFiles.names a.unrec
  length : inInt64 a.length = true
  version : inInt64 a.version = true
  hashes : Entries.Sorted a.hashes.entries

def MetaFiles.agree (f : Str) (x y : MetaFiles) : Prop :=
  (f = b!"length" → x.length = y.length) ∧ (f = b!"hashes" → x.hashes = y.hashes) ∧ (f = b!"version" → x.version = y.version)

theorem MetaFiles.rt (laws : EnvLaws env) {a : MetaFiles} (hw : MetaFiles.WF env a) (hp : PlainMeta a) : RT env (MetaFiles.unmarshal env) a.marshal a := by
  have hh := rt_hashes (env := env) hw.hashes
  refine rt_struct (agree := MetaFiles.agree) (a1 := a) (by unfold MetaFiles.agree; grind) (by unfold MetaFiles.agree; grind) hw.fields (by decide) hp.fields (by split <;> split <;> simp) ?_ ?_ ?_ ?_
  · intro e he
    simp only [List.mem_append, List.mem_ite_nil_right, List.mem_cons, List.not_mem_nil, or_false] at he
    rcases he with (⟨_, rfl⟩ | ⟨_, rfl⟩) | rfl
    · exact ⟨by simp [MetaFiles.names], any_int laws hw.length⟩
    · exact ⟨by simp [MetaFiles.names], hh.2⟩
    · exact ⟨by simp [MetaFiles.names], any_int laws hw.version⟩
  · intro e he x hx
    unfold MetaFiles.agree at hx
    simp only [List.mem_append, List.mem_ite_nil_right, List.mem_cons, List.not_mem_nil, or_false] at he
    rcases he with (⟨_, rfl⟩ | ⟨_, rfl⟩) | rfl
    · exact ⟨{ x with length := a.length }, by simp [MetaFiles.setField, decInt_num hw.length], by unfold MetaFiles.agree; grind, by unfold MetaFiles.agree; grind⟩
    · have hx' : x.hashes = none := hx.2.1 rfl
      exact ⟨{ x with hashes := a.hashes }, by simp [MetaFiles.setField, hx', hh.1], by unfold MetaFiles.agree; grind, by unfold MetaFiles.agree; grind⟩
    · exact ⟨{ x with version := a.version }, by simp [MetaFiles.setField, decInt_num hw.version], by unfold MetaFiles.agree; grind, by unfold MetaFiles.agree; grind⟩
  · intro f hf hn
    unfold MetaFiles.agree
    refine ⟨?_, ?_, ?_⟩
    · rintro rfl
      by_cases hl : a.length = 0
      · exact hl.symm
      · exact absurd (by simp [hl]) hn
    · rintro rfl
      by_cases hl : a.hashes.entries = []
      · show none = a.hashes
        have := hp.hashes
        cases hm : a.hashes with
        | none => rfl
        | some es => rw [hm] at hl this; exact absurd (congrArg some hl) this
      · exact absurd (by simp [hl]) hn
    · rintro rfl
      exact absurd (by simp) hn
  · intro y hy
    refine ⟨y, rfl, ?_⟩
    have h1 := (hy b!"length" (by decide)).1 rfl
    have h2 := (hy b!"hashes" (by decide)).2.1 rfl
    have h3 := (hy b!"version" (by decide)).2.2 rfl
    cases y; cases a; simp_all

structure TargetFiles.WF (env : Env) (a : TargetFiles) : Prop where
  fields : FieldsWF env TargetFiles.names a.unrec
  length : inInt64 a.length = true
  hashes : Entries.Sorted a.hashes.entries
  custom : ∀ c, a.custom = some c → c ≠ .null ∧ (Json.toAny env.anyNum c).isSome

def TargetFiles.agree (f : Str) (x y : TargetFiles) : Prop :=
  (f = b!"length" → x.length = y.length) ∧ (f = b!"hashes" → x.hashes = y.hashes) ∧ (f = b!"custom" → x.custom = y.custom) ∧ x.path = y.path

/-- The path is not part of the document. -/
theorem TargetFiles.rt (laws : EnvLaws env) {a : TargetFiles} (hw : TargetFiles.WF env a) (hp : PlainTarget a) :
    RT env (TargetFiles.unmarshal env) a.marshal { a with path := [] } := by
  have hh := rt_hashes (env := env) hw.hashes
  refine rt_struct (agree := TargetFiles.agree) (a1 := { a with path := [] }) (by unfold TargetFiles.agree; grind) (by unfold TargetFiles.agree; grind) hw.fields (by decide) hp (by split <;> simp) ?_ ?_ ?_ ?_
  · intro e he
    rw [List.mem_append] at he
    rcases he with he | he
    · mem_cases he
      rcases he with rfl | rfl
      · exact ⟨by simp [TargetFiles.names], any_int laws hw.length⟩
      · exact ⟨by simp [TargetFiles.names], hh.2⟩
    · split at he
      · next c hc =>
        mem_cases he
        subst he
        exact ⟨by simp [TargetFiles.names], (hw.custom c hc).2⟩
      · cases he
  · intro e he x hx
    unfold TargetFiles.agree at hx
    rw [List.mem_append] at he
    rcases he with he | he
    · mem_cases he
      rcases he with rfl | rfl
      · exact ⟨{ x with length := a.length }, by simp [TargetFiles.setField, decInt_num hw.length], by unfold TargetFiles.agree; grind, by unfold TargetFiles.agree; grind⟩
      · have hx' : x.hashes = none := hx.2.1 rfl
        exact ⟨{ x with hashes := a.hashes }, by simp [TargetFiles.setField, hx', hh.1], by unfold TargetFiles.agree; grind, by unfold TargetFiles.agree; grind⟩
    · split at he
      · next c hc =>
        mem_cases he
        subst he
        have : decPtr Res.ok c = .ok (some c) := by
          unfold decPtr
          split
          · exact absurd rfl (hw.custom _ hc).1
          · rfl
        exact ⟨{ x with custom := a.custom }, by simp [TargetFiles.setField, this, hc], by unfold TargetFiles.agree; grind, by unfold TargetFiles.agree; grind⟩
      · cases he
  · intro f hf hn
    unfold TargetFiles.agree
    refine ⟨?_, ?_, ?_, rfl⟩
    · rintro rfl
      exact absurd (by simp) hn
    · rintro rfl
      exact absurd (by simp) hn
    · rintro rfl
      cases hc : a.custom with
      | none => rfl
      | some c => exact absurd (by simp [hc]) hn
  · intro y hy
    refine ⟨y, rfl, ?_⟩
    have h1 := (hy b!"length" (by decide)).1 rfl
    have h2 := (hy b!"hashes" (by decide)).2.1 rfl
    have h3 := (hy b!"custom" (by decide)).2.2.1 rfl
    have h4 := (hy b!"custom" (by decide)).2.2.2
    cases y; cases a; simp_all

/-! ## Delegations -/

structure DelegatedRole.WF (env : Env) (a : DelegatedRole) : Prop where
  fields : FieldsWF env DelegatedRole.names a.unrec
  threshold : inInt64 a.threshold = true

def DelegatedRole.agree (f : Str) (x y : DelegatedRole) : Prop :=
  (f = b!"name" → x.name = y.name) ∧ (f = b!"keyids" → x.keyIDs = y.keyIDs) ∧ (f = b!"threshold" → x.threshold = y.threshold) ∧
  (f = b!"terminating" → x.terminating = y.terminating) ∧ (f = b!"path_hash_prefixes" → x.pathHashPrefixes = y.pathHashPrefixes) ∧
  (f = b!"paths" → x.paths = y.paths)

/-- The part of the document that is the same in all cases. -/
theorem DelegatedRole.rt_fields (laws : EnvLaws env) {a : DelegatedRole} (hw : DelegatedRole.WF env a) (hp : PlainDelegated a) (fs : List (Str × Json))
    (hn : ((b!"name" :: b!"keyids" :: b!"threshold" :: b!"terminating" :: fs.map Prod.fst).Nodup))
    (hfs : ∀ e ∈ fs, (e.1 = b!"paths" ∧ e.2 = encSlice .str a.paths) ∨ (e.1 = b!"path_hash_prefixes" ∧ e.2 = encSlice .str a.pathHashPrefixes))
    (h1 : b!"paths" ∉ fs.map Prod.fst → a.paths = none) (h2 : b!"path_hash_prefixes" ∉ fs.map Prod.fst → a.pathHashPrefixes = none) :
    RT env (DelegatedRole.unmarshal env) (.obj (mkDict a.unrec ([(b!"name", .str a.name), (b!"keyids", encSlice .str a.keyIDs), (b!"threshold", .num a.threshold),
    (b!"terminating", .bool a.terminating)] ++ fs))) a := by
  have hk := rt_strs (env := env) a.keyIDs
  have hk1 := rt_strs (env := env) a.paths
  have hk2 := rt_strs (env := env) a.pathHashPrefixes
  refine rt_lists (agree := DelegatedRole.agree) (a1 := a) (by unfold DelegatedRole.agree; grind) (by unfold DelegatedRole.agree; grind) hw.fields (by decide) hp.fields (by exact hn) ?_ ?_ ?_ ?_
  · intro e he
    rw [List.mem_append] at he
    rcases he with he | he
    · mem_cases he
      rcases he with rfl | rfl | rfl | rfl
      · exact ⟨by simp [DelegatedRole.names], any_str _ _⟩
      · exact ⟨by simp [DelegatedRole.names], hk.2⟩
      · exact ⟨by simp [DelegatedRole.names], any_int laws hw.threshold⟩
      · exact ⟨by simp [DelegatedRole.names], any_bool _ _⟩
    · rcases hfs e he with ⟨h3, h4⟩ | ⟨h3, h4⟩
      · exact ⟨by simp [DelegatedRole.names, h3], by rw [h4]; exact hk1.2⟩
      · exact ⟨by simp [DelegatedRole.names, h3], by rw [h4]; exact hk2.2⟩
  · intro e he x hx
    rw [List.mem_append] at he
    rcases he with he | he
    · mem_cases he
      rcases he with rfl | rfl | rfl | rfl
      · exact ⟨{ x with name := a.name }, by simp [DelegatedRole.setField, decStr], by unfold DelegatedRole.agree; grind, by unfold DelegatedRole.agree; grind⟩
      · exact ⟨{ x with keyIDs := a.keyIDs }, by simp [DelegatedRole.setField, hk.1], by unfold DelegatedRole.agree; grind, by unfold DelegatedRole.agree; grind⟩
      · exact ⟨{ x with threshold := a.threshold }, by simp [DelegatedRole.setField, decInt_num hw.threshold], by unfold DelegatedRole.agree; grind, by unfold DelegatedRole.agree; grind⟩
      · exact ⟨{ x with terminating := a.terminating }, by simp [DelegatedRole.setField, decBool], by unfold DelegatedRole.agree; grind, by unfold DelegatedRole.agree; grind⟩
    · obtain ⟨k, j⟩ := e
      rcases hfs _ he with ⟨rfl, rfl⟩ | ⟨rfl, rfl⟩
      · exact ⟨{ x with paths := a.paths }, by simp [DelegatedRole.setField, hk1.1], by unfold DelegatedRole.agree; grind, by unfold DelegatedRole.agree; grind⟩
      · exact ⟨{ x with pathHashPrefixes := a.pathHashPrefixes }, by simp [DelegatedRole.setField, hk2.1], by unfold DelegatedRole.agree; grind, by unfold DelegatedRole.agree; grind⟩
  · intro f hf hn
    rw [List.map_append, List.mem_append, not_or] at hn
    unfold DelegatedRole.agree
    refine ⟨?_, ?_, ?_, ?_, ?_, ?_⟩
    · rintro rfl; exact absurd (by simp) hn.1
    · rintro rfl; exact absurd (by simp) hn.1
    · rintro rfl; exact absurd (by simp) hn.1
    · rintro rfl; exact absurd (by simp) hn.1
    · rintro rfl; exact (h2 hn.2).symm
    · rintro rfl; exact (h1 hn.2).symm
  · intro y hy
    refine ⟨y, rfl, ?_⟩
    have h1 := (hy b!"name" (by decide)).1 rfl
    have h2 := (hy b!"keyids" (by decide)).2.1 rfl
    have h3 := (hy b!"threshold" (by decide)).2.2.1 rfl
    have h4 := (hy b!"terminating" (by decide)).2.2.2.1 rfl
    have h5 := (hy b!"path_hash_prefixes" (by decide)).2.2.2.2.1 rfl
    have h6 := (hy b!"paths" (by decide)).2.2.2.2.2 rfl
    cases y; cases a; simp_all

theorem DelegatedRole.rt (laws : EnvLaws env) {a : DelegatedRole} (hw : DelegatedRole.WF env a) (hp : PlainDelegated a) :
    ∃ j, a.marshal = .ok j ∧ RT env (DelegatedRole.unmarshal env) j a := by
  cases h1 : a.paths with
  | some p =>
    cases h2 : a.pathHashPrefixes with
    | some q => rcases hp.oneKind with h | h <;> simp_all
    | none =>
      refine ⟨_, by unfold DelegatedRole.marshal; rw [h1, h2], ?_⟩
      exact DelegatedRole.rt_fields laws hw hp _ (by simp) (by simp [h1, encSlice]) (by simp) (by simp [h2])
  | none =>
    cases h2 : a.pathHashPrefixes with
    | some q =>
      refine ⟨_, by unfold DelegatedRole.marshal; rw [h1, h2], ?_⟩
      exact DelegatedRole.rt_fields laws hw hp _ (by simp) (by simp [h2, encSlice]) (by simp [h1]) (by simp)
    | none =>
      refine ⟨_, by unfold DelegatedRole.marshal; rw [h1, h2], ?_⟩
      exact DelegatedRole.rt_fields laws hw hp [] (by simp) (by simp) (by simp [h1]) (by simp [h2])

theorem marshalRoles_rt (laws : EnvLaws env) {l : List DelegatedRole} (hw : ∀ r ∈ l, DelegatedRole.WF env r) (hp : ∀ r ∈ l, PlainDelegated r) :
    ∃ js, marshalRoles l = .ok js ∧ decList (DelegatedRole.unmarshal env) js = .ok l ∧ ∀ j ∈ js, (Json.toAny env.anyNum j).isSome := by
  induction l with
  | nil => exact ⟨[], rfl, rfl, by simp⟩
  | cons r l ih =>
    rw [List.forall_mem_cons] at hw hp
    obtain ⟨js, h1, h2, h3⟩ := ih hw.2 hp.2
    obtain ⟨j, h4, h5⟩ := DelegatedRole.rt laws hw.1 hp.1
    refine ⟨j :: js, ?_, ?_, ?_⟩
    · rw [marshalRoles, h4, Res.bind_ok, h1, Res.bind_ok]
    · rw [decList, h5.1, Res.bind_ok, h2, Res.bind_ok]
    · rw [List.forall_mem_cons]; exact ⟨h5.2, h3⟩

structure Delegations.WF (env : Env) (a : Delegations) : Prop where
  fields : FieldsWF env Delegations.names a.unrec
  keys : MapWF (fun p => ∀ x, p = some x → Key.WF env x) a.keys
  roles : ∀ r ∈ a.roles.elems, DelegatedRole.WF env r
  succinct : ∀ s, a.succinctRoles = some s → SuccinctRoles.WF env s

theorem Key.marshal_ne (a : Key) : a.marshal ≠ .null := by unfold Key.marshal; simp
theorem Role.marshal_ne (a : Role) : a.marshal ≠ .null := by unfold Role.marshal; simp
theorem MetaFiles.marshal_ne (a : MetaFiles) : a.marshal ≠ .null := by unfold MetaFiles.marshal; simp
theorem TargetFiles.marshal_ne (a : TargetFiles) : a.marshal ≠ .null := by unfold TargetFiles.marshal; simp
theorem SuccinctRoles.marshal_ne (a : SuccinctRoles) : a.marshal ≠ .null := by unfold SuccinctRoles.marshal; simp

def Delegations.agree (f : Str) (x y : Delegations) : Prop :=
  (f = b!"keys" → x.keys = y.keys) ∧ (f = b!"roles" → x.roles = y.roles) ∧ (f = b!"succinct_roles" → x.succinctRoles = y.succinctRoles)

theorem Delegations.rt_fields {a : Delegations} (hw : Delegations.WF env a) (hp : PlainDelegations a) (fs : List (Str × Json))
    (hn : ((b!"keys" :: fs.map Prod.fst).Nodup))
    (hfs : ∀ e ∈ fs, (e.1 = b!"roles" ∧ RT env (decSlice (DelegatedRole.unmarshal env)) e.2 a.roles) ∨
      (e.1 = b!"succinct_roles" ∧ RT env (decPtr (SuccinctRoles.unmarshal env)) e.2 a.succinctRoles))
    (h1 : b!"roles" ∉ fs.map Prod.fst → a.roles = none) (h2 : b!"succinct_roles" ∉ fs.map Prod.fst → a.succinctRoles = none) :
    RT env (Delegations.unmarshal env) (.obj (mkDict a.unrec ((b!"keys", encMap (encPtr Key.marshal) a.keys) :: fs))) a := by
  have hk := rt_map (mapWF_ptr Key.marshal_ne (fun x => Key.rt) hw.keys hp.keys)
  refine rt_struct (agree := Delegations.agree) (a1 := a) (by unfold Delegations.agree; grind) (by unfold Delegations.agree; grind) hw.fields (by decide) hp.fields (by exact hn) ?_ ?_ ?_ ?_
  · intro e he
    rcases List.mem_cons.1 he with rfl | he
    · exact ⟨by simp [Delegations.names], hk.2⟩
    · rcases hfs e he with ⟨h3, h4⟩ | ⟨h3, h4⟩
      · exact ⟨by simp [Delegations.names, h3], h4.2⟩
      · exact ⟨by simp [Delegations.names, h3], h4.2⟩
  · intro e he x hx
    rcases List.mem_cons.1 he with rfl | he
    · have hx' : x.keys = none := hx.1 rfl
      exact ⟨{ x with keys := a.keys }, by simp [Delegations.setField, hx', hk.1], by unfold Delegations.agree; grind, by unfold Delegations.agree; grind⟩
    · obtain ⟨k, j⟩ := e
      rcases hfs _ he with ⟨rfl, h4⟩ | ⟨rfl, h4⟩
      · exact ⟨{ x with roles := a.roles }, by have := h4.1; simp_all [Delegations.setField], by unfold Delegations.agree; grind, by unfold Delegations.agree; grind⟩
      · exact ⟨{ x with succinctRoles := a.succinctRoles }, by have := h4.1; simp_all [Delegations.setField], by unfold Delegations.agree; grind, by unfold Delegations.agree; grind⟩
  · intro f hf hn
    rw [List.map_cons, List.mem_cons, not_or] at hn
    unfold Delegations.agree
    refine ⟨?_, ?_, ?_⟩
    · rintro rfl; exact absurd rfl hn.1
    · rintro rfl; exact (h1 hn.2).symm
    · rintro rfl; exact (h2 hn.2).symm
  · intro y hy
    refine ⟨y, rfl, ?_⟩
    have h1 := (hy b!"keys" (by decide)).1 rfl
    have h2 := (hy b!"roles" (by decide)).2.1 rfl
    have h3 := (hy b!"succinct_roles" (by decide)).2.2 rfl
    cases y; cases a; simp_all

theorem Delegations.rt (laws : EnvLaws env) {a : Delegations} (hw : Delegations.WF env a) (hp : PlainDelegations a) :
    ∃ j, a.marshal = .ok j ∧ RT env (Delegations.unmarshal env) j a ∧ j ≠ .null := by
  cases h1 : a.roles with
  | some l =>
    have hnone : a.succinctRoles = none := by rcases hp.oneKind with h | h <;> simp_all
    obtain ⟨js, h2, h3, h4⟩ := marshalRoles_rt laws (l := l) (fun r hr => hw.roles r (by rw [h1]; exact hr)) (fun r hr => hp.roles r (by rw [h1]; exact hr))
    refine ⟨_, by unfold Delegations.marshal; rw [h1]; dsimp only; rw [h2, Res.bind_ok], ?_, by simp⟩
    refine Delegations.rt_fields hw hp _ (by simp) ?_ (by simp) (fun _ => hnone)
    intro e he
    mem_cases he
    subst he
    exact .inl ⟨rfl, by rw [h1]; show (decList _ js).map some = _; rw [h3]; rfl, toAny_arr_isSome.2 h4⟩
  | none =>
    cases h2 : a.succinctRoles with
    | some s =>
      have hs := SuccinctRoles.rt laws (hw.succinct s h2) (hp.succinct s h2)
      refine ⟨_, by unfold Delegations.marshal; rw [h1, h2], ?_, by simp⟩
      refine Delegations.rt_fields hw hp _ (by simp) ?_ (fun _ => h1) (by simp)
      intro e he
      mem_cases he
      subst he
      refine .inr ⟨rfl, ?_⟩
      rw [h2]
      exact rt_ptr (enc := SuccinctRoles.marshal) (p := some s) (fun x hx => by cases hx; exact ⟨hs, SuccinctRoles.marshal_ne s⟩)
    | none =>
      refine ⟨_, by unfold Delegations.marshal; rw [h1, h2], ?_, by simp⟩
      exact Delegations.rt_fields hw hp [] (by simp) (by simp) (fun _ => h1) (fun _ => h2)

/-! ## The four signed types -/

/-- A decoded time: parsed, or the zero time of an absent field. -/
def TimeWF (env : Env) (t : Time) : Prop := (∃ s, env.parseTime s = some t) ∨ t = Time.zero

structure RootType.WF (env : Env) (a : RootType) : Prop where
  fields : FieldsWF env RootType.names a.unrec
  version : inInt64 a.version = true
  expires : TimeWF env a.expires
  keys : MapWF (fun p => ∀ x, p = some x → Key.WF env x) a.keys
  roles : MapWF (fun p => ∀ x, p = some x → Role.WF env x) a.roles

structure SnapshotType.WF (env : Env) (a : SnapshotType) : Prop where
  fields : FieldsWF env SnapshotType.names a.unrec
  version : inInt64 a.version = true
  expires : TimeWF env a.expires
  metas : MapWF (fun p => ∀ x, p = some x → MetaFiles.WF env x) a.metas

structure TimestampType.WF (env : Env) (a : TimestampType) : Prop where
  fields : FieldsWF env TimestampType.names a.unrec
  version : inInt64 a.version = true
  expires : TimeWF env a.expires
  metas : MapWF (fun p => ∀ x, p = some x → MetaFiles.WF env x) a.metas

structure TargetsType.WF (env : Env) (a : TargetsType) : Prop where
  fields : FieldsWF env TargetsType.names a.unrec
  version : inInt64 a.version = true
  expires : TimeWF env a.expires
  targets : Entries.Sorted a.targets.entries
  target : ∀ e ∈ a.targets.entries, ∃ t, e.2 = some t ∧ t.path = e.1 ∧ TargetFiles.WF env t
  delegations : ∀ d, a.delegations = some d → Delegations.WF env d

def RootType.agree (f : Str) (x y : RootType) : Prop :=
    (f = b!"_type" → x.type = y.type) ∧
    (f = b!"spec_version" → x.specVersion = y.specVersion) ∧
    (f = b!"consistent_snapshot" → x.consistentSnapshot = y.consistentSnapshot) ∧
    (f = b!"version" → x.version = y.version) ∧
    (f = b!"expires" → x.expires = y.expires) ∧
    (f = b!"keys" → x.keys = y.keys) ∧
    (f = b!"roles" → x.roles = y.roles)

theorem RootType.rt (laws : EnvLaws env) {a : RootType} (hw : RootType.WF env a) (hp : PlainRoot a) : ∃ j, a.marshal = .ok j ∧ RT env (RootType.unmarshal env) j a := by
  have hk := rt_map (mapWF_ptr Key.marshal_ne (fun x => Key.rt) hw.keys hp.keys)
  have hr := rt_map (mapWF_ptr Role.marshal_ne (fun x => Role.rt laws) hw.roles hp.roles)
  refine ⟨_, rfl, rt_struct (agree := RootType.agree) (a1 := a) (by unfold RootType.agree; grind) (by unfold RootType.agree; grind) hw.fields (by decide) hp.fields (by simp) ?_ ?_ ?_ ?_⟩
  · intro e he
    mem_cases he
    rcases he with rfl | rfl | rfl | rfl | rfl | rfl | rfl
    · exact ⟨by simp [RootType.names], any_str _ _⟩
    · exact ⟨by simp [RootType.names], any_str _ _⟩
    · exact ⟨by simp [RootType.names], any_bool _ _⟩
    · exact ⟨by simp [RootType.names], any_int laws hw.version⟩
    · exact ⟨by simp [RootType.names], any_str _ _⟩
    · exact ⟨by simp [RootType.names], hk.2⟩
    · exact ⟨by simp [RootType.names], hr.2⟩
  · intro e he x hx
    unfold RootType.agree at hx
    mem_cases he
    rcases he with rfl | rfl | rfl | rfl | rfl | rfl | rfl
    · exact ⟨{ x with type := a.type }, by simp [RootType.setField, decStr], by unfold RootType.agree; grind, by unfold RootType.agree; grind⟩
    · exact ⟨{ x with specVersion := a.specVersion }, by simp [RootType.setField, decStr], by unfold RootType.agree; grind, by unfold RootType.agree; grind⟩
    · exact ⟨{ x with consistentSnapshot := a.consistentSnapshot }, by simp [RootType.setField, decBool], by unfold RootType.agree; grind, by unfold RootType.agree; grind⟩
    · exact ⟨{ x with version := a.version }, by simp [RootType.setField, decInt_num hw.version], by unfold RootType.agree; grind, by unfold RootType.agree; grind⟩
    · exact ⟨{ x with expires := a.expires }, by simp [RootType.setField, decTime_text laws hw.expires], by unfold RootType.agree; grind, by unfold RootType.agree; grind⟩
    · have hx' : x.keys = none := by simp at hx; exact hx
      exact ⟨{ x with keys := a.keys }, by simp [RootType.setField, hk.1, hx'], by unfold RootType.agree; grind, by unfold RootType.agree; grind⟩
    · have hx' : x.roles = none := by simp at hx; exact hx
      exact ⟨{ x with roles := a.roles }, by simp [RootType.setField, hr.1, hx'], by unfold RootType.agree; grind, by unfold RootType.agree; grind⟩
  · intro f hf hn
    exact absurd hf hn
  · intro y hy
    refine ⟨y, rfl, ?_⟩
    unfold RootType.agree at hy
    have h0 : y.type = a.type := by have := hy b!"_type" (by decide); simp at this; exact this
    have h1 : y.specVersion = a.specVersion := by have := hy b!"spec_version" (by decide); simp at this; exact this
    have h2 : y.consistentSnapshot = a.consistentSnapshot := by have := hy b!"consistent_snapshot" (by decide); simp at this; exact this
    have h3 : y.version = a.version := by have := hy b!"version" (by decide); simp at this; exact this
    have h4 : y.expires = a.expires := by have := hy b!"expires" (by decide); simp at this; exact this
    have h5 : y.keys = a.keys := by have := hy b!"keys" (by decide); simp at this; exact this
    have h6 : y.roles = a.roles := by have := hy b!"roles" (by decide); simp at this; exact this
    cases y; cases a; simp_all

def SnapshotType.agree (f : Str) (x y : SnapshotType) : Prop :=
    (f = b!"_type" → x.type = y.type) ∧
    (f = b!"spec_version" → x.specVersion = y.specVersion) ∧
    (f = b!"version" → x.version = y.version) ∧
    (f = b!"expires" → x.expires = y.expires) ∧
    (f = b!"meta" → x.metas = y.metas)

theorem SnapshotType.rt (laws : EnvLaws env) {a : SnapshotType} (hw : SnapshotType.WF env a) (hp : PlainSnapshot a) : ∃ j, a.marshal = .ok j ∧ RT env (SnapshotType.unmarshal env) j a := by
  have hm := rt_map (mapWF_ptr MetaFiles.marshal_ne (fun x => MetaFiles.rt laws) hw.metas hp.metas)
  refine ⟨_, rfl, rt_struct (agree := SnapshotType.agree) (a1 := a) (by unfold SnapshotType.agree; grind) (by unfold SnapshotType.agree; grind) hw.fields (by decide) hp.fields (by simp) ?_ ?_ ?_ ?_⟩
  · intro e he
    mem_cases he
    rcases he with rfl | rfl | rfl | rfl | rfl
    · exact ⟨by simp [SnapshotType.names], any_str _ _⟩
    · exact ⟨by simp [SnapshotType.names], any_str _ _⟩
    · exact ⟨by simp [SnapshotType.names], any_int laws hw.version⟩
    · exact ⟨by simp [SnapshotType.names], any_str _ _⟩
    · exact ⟨by simp [SnapshotType.names], hm.2⟩
  · intro e he x hx
    unfold SnapshotType.agree at hx
    mem_cases he
    rcases he with rfl | rfl | rfl | rfl | rfl
    · exact ⟨{ x with type := a.type }, by simp [SnapshotType.setField, decStr], by unfold SnapshotType.agree; grind, by unfold SnapshotType.agree; grind⟩
    · exact ⟨{ x with specVersion := a.specVersion }, by simp [SnapshotType.setField, decStr], by unfold SnapshotType.agree; grind, by unfold SnapshotType.agree; grind⟩
    · exact ⟨{ x with version := a.version }, by simp [SnapshotType.setField, decInt_num hw.version], by unfold SnapshotType.agree; grind, by unfold SnapshotType.agree; grind⟩
    · exact ⟨{ x with expires := a.expires }, by simp [SnapshotType.setField, decTime_text laws hw.expires], by unfold SnapshotType.agree; grind, by unfold SnapshotType.agree; grind⟩
    · have hx' : x.metas = none := by simp at hx; exact hx
      exact ⟨{ x with metas := a.metas }, by simp [SnapshotType.setField, hm.1, hx'], by unfold SnapshotType.agree; grind, by unfold SnapshotType.agree; grind⟩
  · intro f hf hn
    exact absurd hf hn
  · intro y hy
    refine ⟨y, rfl, ?_⟩
    unfold SnapshotType.agree at hy
    have h0 : y.type = a.type := by have := hy b!"_type" (by decide); simp at this; exact this
    have h1 : y.specVersion = a.specVersion := by have := hy b!"spec_version" (by decide); simp at this; exact this
    have h2 : y.version = a.version := by have := hy b!"version" (by decide); simp at this; exact this
    have h3 : y.expires = a.expires := by have := hy b!"expires" (by decide); simp at this; exact this
    have h4 : y.metas = a.metas := by have := hy b!"meta" (by decide); simp at this; exact this
    cases y; cases a; simp_all

def TimestampType.agree (f : Str) (x y : TimestampType) : Prop :=
    (f = b!"_type" → x.type = y.type) ∧
    (f = b!"spec_version" → x.specVersion = y.specVersion) ∧
    (f = b!"version" → x.version = y.version) ∧
    (f = b!"expires" → x.expires = y.expires) ∧
    (f = b!"meta" → x.metas = y.metas)

theorem TimestampType.rt (laws : EnvLaws env) {a : TimestampType} (hw : TimestampType.WF env a) (hp : PlainTimestamp a) : ∃ j, a.marshal = .ok j ∧ RT env (TimestampType.unmarshal env) j a := by
  have hm := rt_map (mapWF_ptr MetaFiles.marshal_ne (fun x => MetaFiles.rt laws) hw.metas hp.metas)
  refine ⟨_, rfl, rt_struct (agree := TimestampType.agree) (a1 := a) (by unfold TimestampType.agree; grind) (by unfold TimestampType.agree; grind) hw.fields (by decide) hp.fields (by simp) ?_ ?_ ?_ ?_⟩
  · intro e he
    mem_cases he
    rcases he with rfl | rfl | rfl | rfl | rfl
    · exact ⟨by simp [TimestampType.names], any_str _ _⟩
    · exact ⟨by simp [TimestampType.names], any_str _ _⟩
    · exact ⟨by simp [TimestampType.names], any_int laws hw.version⟩
    · exact ⟨by simp [TimestampType.names], any_str _ _⟩
    · exact ⟨by simp [TimestampType.names], hm.2⟩
  · intro e he x hx
    unfold TimestampType.agree at hx
    mem_cases he
    rcases he with rfl | rfl | rfl | rfl | rfl
    · exact ⟨{ x with type := a.type }, by simp [TimestampType.setField, decStr], by unfold TimestampType.agree; grind, by unfold TimestampType.agree; grind⟩
    · exact ⟨{ x with specVersion := a.specVersion }, by simp [TimestampType.setField, decStr], by unfold TimestampType.agree; grind, by unfold TimestampType.agree; grind⟩
    · exact ⟨{ x with version := a.version }, by simp [TimestampType.setField, decInt_num hw.version], by unfold TimestampType.agree; grind, by unfold TimestampType.agree; grind⟩
    · exact ⟨{ x with expires := a.expires }, by simp [TimestampType.setField, decTime_text laws hw.expires], by unfold TimestampType.agree; grind, by unfold TimestampType.agree; grind⟩
    · have hx' : x.metas = none := by simp at hx; exact hx
      exact ⟨{ x with metas := a.metas }, by simp [TimestampType.setField, hm.1, hx'], by unfold TimestampType.agree; grind, by unfold TimestampType.agree; grind⟩
  · intro f hf hn
    exact absurd hf hn
  · intro y hy
    refine ⟨y, rfl, ?_⟩
    unfold TimestampType.agree at hy
    have h0 : y.type = a.type := by have := hy b!"_type" (by decide); simp at this; exact this
    have h1 : y.specVersion = a.specVersion := by have := hy b!"spec_version" (by decide); simp at this; exact this
    have h2 : y.version = a.version := by have := hy b!"version" (by decide); simp at this; exact this
    have h3 : y.expires = a.expires := by have := hy b!"expires" (by decide); simp at this; exact this
    have h4 : y.metas = a.metas := by have := hy b!"meta" (by decide); simp at this; exact this
    cases y; cases a; simp_all

/-! `targets` needs the paths put back. -/

/-- A target as it comes out of `TargetFiles.UnmarshalJSON`. -/
def clearPath (p : Option TargetFiles) : Option TargetFiles := p.map (fun t => { t with path := [] })

theorem setPaths_clear {es : Entries (Option TargetFiles)} (h : ∀ e ∈ es, ∃ t, e.2 = some t ∧ t.path = e.1) :
    setPaths (es.map (fun e => (e.1, clearPath e.2))) = .ok es := by
  induction es with
  | nil => rfl
  | cons e es ih =>
    rw [List.forall_mem_cons] at h
    obtain ⟨⟨t, ht, hpth⟩, h⟩ := h
    obtain ⟨k, p⟩ := e
    dsimp only at ht hpth
    subst ht
    rw [List.map_cons]
    show (setPaths _ >>= _) = _
    rw [ih h, Res.bind_ok]
    cases t
    dsimp only at hpth
    subst hpth
    rfl

theorem targets_rt (laws : EnvLaws env) {m : GoMap (Option TargetFiles)} (hs : Entries.Sorted m.entries)
    (hw : ∀ e ∈ m.entries, ∃ t, e.2 = some t ∧ t.path = e.1 ∧ TargetFiles.WF env t) (hp : ∀ k x, m.get? k = some (some x) → PlainTarget x) :
    decMap (decPtr (TargetFiles.unmarshal env)) (encMap (encPtr TargetFiles.marshal) m) none = .ok (m.map (fun es => es.map (fun e => (e.1, clearPath e.2)))) ∧
    (Json.toAny env.anyNum (encMap (encPtr TargetFiles.marshal) m)).isSome := by
  cases m with
  | none => exact ⟨rfl, by simp [encMap, Json.toAny]⟩
  | some es =>
    have hm : ∀ t : TargetFiles, TargetFiles.marshal { t with path := [] } = t.marshal := fun t => rfl
    have hm' : encMap (encPtr TargetFiles.marshal) (some es) = encMap (encPtr TargetFiles.marshal) (some (es.map (fun e => (e.1, clearPath e.2)))) := by
      unfold encMap
      dsimp only
      rw [List.map_map]
      congr 1
      apply List.map_congr_left
      intro e he
      obtain ⟨t, ht, -, -⟩ := hw e he
      simp [clearPath, ht, encPtr, hm]
    rw [hm']
    refine rt_map ⟨(Entries.sorted_map es _).2 hs, ?_⟩
    intro e he
    obtain ⟨e', he', rfl⟩ := List.mem_map.1 he
    obtain ⟨t, ht, -, hwt⟩ := hw e' he'
    have hg := Entries.get?_of_mem hs.nodup he'
    rw [ht] at hg
    have := TargetFiles.rt laws hwt (hp _ t hg)
    refine rt_ptr (fun x hx => ⟨?_, TargetFiles.marshal_ne x⟩)
    simp only [clearPath, ht, Option.map_some, Option.some.injEq] at hx
    rw [← hx]
    exact this

def TargetsType.agree (f : Str) (x y : TargetsType) : Prop :=
  (f = b!"_type" → x.type = y.type) ∧ (f = b!"spec_version" → x.specVersion = y.specVersion) ∧ (f = b!"version" → x.version = y.version) ∧
  (f = b!"expires" → x.expires = y.expires) ∧ (f = b!"targets" → x.targets = y.targets) ∧ (f = b!"delegations" → x.delegations = y.delegations)

theorem TargetsType.rt_fields (laws : EnvLaws env) {a : TargetsType} (hw : TargetsType.WF env a) (hp : PlainTargets a) (fs : List (Str × Json))
    (hn : ((b!"_type" :: b!"spec_version" :: b!"version" :: b!"expires" :: b!"targets" :: fs.map Prod.fst).Nodup))
    (hfs : ∀ e ∈ fs, e.1 = b!"delegations" ∧ RT env (decPtr (Delegations.unmarshal env)) e.2 a.delegations)
    (h1 : b!"delegations" ∉ fs.map Prod.fst → a.delegations = none) :
    RT env (TargetsType.unmarshal env) (.obj (mkDict a.unrec ([(b!"_type", .str a.type), (b!"spec_version", .str a.specVersion),
      (b!"version", .num a.version), (b!"expires", .str a.expires.text),
      (b!"targets", encMap (encPtr TargetFiles.marshal) a.targets)] ++ fs))) a := by
  have ht := targets_rt laws hw.targets hw.target hp.targets
  refine rt_struct (agree := TargetsType.agree) (a1 := { a with targets := a.targets.map (fun es => es.map (fun e => (e.1, clearPath e.2))) })
    (by unfold TargetsType.agree; grind) (by unfold TargetsType.agree; grind) hw.fields (by decide) hp.fields (by exact hn) ?_ ?_ ?_ ?_
  · intro e he
    rw [List.mem_append] at he
    rcases he with he | he
    · mem_cases he
      rcases he with rfl | rfl | rfl | rfl | rfl
      · exact ⟨by simp [TargetsType.names], any_str _ _⟩
      · exact ⟨by simp [TargetsType.names], any_str _ _⟩
      · exact ⟨by simp [TargetsType.names], any_int laws hw.version⟩
      · exact ⟨by simp [TargetsType.names], any_str _ _⟩
      · exact ⟨by simp [TargetsType.names], ht.2⟩
    · exact ⟨by simp [TargetsType.names, (hfs e he).1], (hfs e he).2.2⟩
  · intro e he x hx
    rw [List.mem_append] at he
    rcases he with he | he
    · mem_cases he
      rcases he with rfl | rfl | rfl | rfl | rfl
      · exact ⟨{ x with type := a.type }, by simp [TargetsType.setField, decStr], by unfold TargetsType.agree; simp, by unfold TargetsType.agree; grind⟩
      · exact ⟨{ x with specVersion := a.specVersion }, by simp [TargetsType.setField, decStr], by unfold TargetsType.agree; simp, by unfold TargetsType.agree; grind⟩
      · exact ⟨{ x with version := a.version }, by simp [TargetsType.setField, decInt_num hw.version], by unfold TargetsType.agree; simp, by unfold TargetsType.agree; grind⟩
      · exact ⟨{ x with expires := a.expires }, by simp [TargetsType.setField, decTime_text laws hw.expires], by unfold TargetsType.agree; simp, by unfold TargetsType.agree; grind⟩
      · have hx' : x.targets = none := hx.2.2.2.2.1 rfl
        exact ⟨{ x with targets := a.targets.map (fun es => es.map (fun e => (e.1, clearPath e.2))) }, by simp [TargetsType.setField, hx', ht.1], by unfold TargetsType.agree; simp, by unfold TargetsType.agree; grind⟩
    · obtain ⟨k, j⟩ := e
      obtain ⟨rfl, h4⟩ := hfs _ he
      exact ⟨{ x with delegations := a.delegations }, by have := h4.1; simp_all [TargetsType.setField], by unfold TargetsType.agree; simp, by unfold TargetsType.agree; grind⟩
  · intro f hf hn
    rw [List.map_append, List.mem_append, not_or] at hn
    unfold TargetsType.agree
    refine ⟨?_, ?_, ?_, ?_, ?_, ?_⟩
    · rintro rfl; exact absurd (by simp) hn.1
    · rintro rfl; exact absurd (by simp) hn.1
    · rintro rfl; exact absurd (by simp) hn.1
    · rintro rfl; exact absurd (by simp) hn.1
    · rintro rfl; exact absurd (by simp) hn.1
    · rintro rfl; exact (h1 hn.2).symm
  · intro y hy
    have h1 := (hy b!"_type" (by decide)).1 rfl
    have h2 := (hy b!"spec_version" (by decide)).2.1 rfl
    have h3 := (hy b!"version" (by decide)).2.2.1 rfl
    have h4 := (hy b!"expires" (by decide)).2.2.2.1 rfl
    have h5 := (hy b!"targets" (by decide)).2.2.2.2.1 rfl
    have h6 := (hy b!"delegations" (by decide)).2.2.2.2.2 rfl
    refine ⟨{ y with targets := a.targets }, ?_, ?_⟩
    · unfold TargetsType.setTargetPaths
      rw [h5]
      cases hm : a.targets with
      | none =>
        dsimp only [Option.map_none]
        rw [hm] at h5
        cases y
        simp_all
      | some es =>
        dsimp only [Option.map_some]
        have hpaths : setPaths (es.map (fun e => (e.1, clearPath e.2))) = .ok es := setPaths_clear (fun e he => by
          obtain ⟨t, h7, h8, -⟩ := hw.target e (by rw [hm]; exact he)
          exact ⟨t, h7, h8⟩)
        rw [hpaths, Res.bind_ok]
    · cases y; cases a; simp_all

theorem TargetsType.rt (laws : EnvLaws env) {a : TargetsType} (hw : TargetsType.WF env a) (hp : PlainTargets a) :
    ∃ j, a.marshal = .ok j ∧ RT env (TargetsType.unmarshal env) j a := by
  cases h1 : a.delegations with
  | none =>
    refine ⟨_, by unfold TargetsType.marshal; rw [h1], ?_⟩
    exact TargetsType.rt_fields laws hw hp [] (by simp) (by simp) (fun _ => h1)
  | some d =>
    obtain ⟨j, h2, h3, h4⟩ := Delegations.rt laws (hw.delegations d h1) (hp.delegations d h1)
    refine ⟨_, by unfold TargetsType.marshal; rw [h1]; dsimp only; rw [h2, Res.bind_ok], ?_⟩
    refine TargetsType.rt_fields laws hw hp _ (by simp) ?_ (by simp)
    intro e he
    mem_cases he
    subst he
    refine ⟨rfl, ?_⟩
    rw [h1]
    refine ⟨?_, h3.2⟩
    unfold decPtr
    dsimp only
    split
    · exact absurd rfl h4
    · rw [h3.1]; rfl

/-! ## The whole document -/

structure Metadata.WF {T : Type} (P : T → Prop) (env : Env) (m : Metadata T) : Prop where
  signed : P m.signed
  signatures : ∀ s ∈ m.signatures.elems, Signature.WF env s
  fields : FieldsWF env Metadata.names m.unrec

def Metadata.agree {T : Type} (f : Str) (x y : Metadata T) : Prop :=
  (f = b!"signed" → x.signed = y.signed) ∧ (f = b!"signatures" → x.signatures = y.signatures)

theorem Metadata.rt {T : Type} [RoleType T] {P Q : T → Prop} (hT : ∀ a : T, P a → Q a → ∃ j, RoleType.marshal a = .ok j ∧ RT env (RoleType.unmarshal env) j a)
    {m : Metadata T} (hw : Metadata.WF P env m) (hp : PlainDocument Q m) : ∃ j, m.marshal = .ok j ∧ RT env (Metadata.unmarshal env) j m := by
  obtain ⟨j, h1, h2⟩ := hT m.signed hw.signed hp.signed
  have hs : RT env (decSlice (Signature.unmarshal env)) (encSlice Signature.marshal m.signatures) m.signatures :=
    rt_slice (fun s hs => Signature.rt (hw.signatures s hs) (hp.signatures s hs))
  refine ⟨_, by unfold Metadata.marshal; rw [h1, Res.bind_ok], ?_⟩
  refine rt_struct (agree := Metadata.agree) (a1 := m) (by unfold Metadata.agree; grind) (by unfold Metadata.agree; grind) hw.fields (by decide) hp.fields (by simp) ?_ ?_ ?_ ?_
  · intro e he
    mem_cases he
    rcases he with rfl | rfl
    · exact ⟨by simp [Metadata.names], h2.2⟩
    · exact ⟨by simp [Metadata.names], hs.2⟩
  · intro e he x hx
    mem_cases he
    rcases he with rfl | rfl
    · exact ⟨{ x with signed := m.signed }, by simp [Metadata.setField, h2.1], by unfold Metadata.agree; simp, by unfold Metadata.agree; grind⟩
    · exact ⟨{ x with signatures := m.signatures }, by simp [Metadata.setField, hs.1], by unfold Metadata.agree; simp, by unfold Metadata.agree; grind⟩
  · intro f hf hn
    exact absurd hf hn
  · intro y hy
    refine ⟨y, rfl, ?_⟩
    have h1 := (hy b!"signed" (by decide)).1 rfl
    have h2 := (hy b!"signatures" (by decide)).2 rfl
    cases y; cases m; simp_all

end
end Tuf
