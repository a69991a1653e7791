import Verif.Spec.Publish
import Verif.Props.RoundTrip
import Verif.Props.Verify
import Verif.Props.Trusted
import Verif.Props.Progress

/-!
# Publishing: what a repository builds, a client reads (C85)
-/

namespace Tuf
open Spec

variable {env : Env}

theorem _root_.Tuf.Spec.GoodFields.wf {names : List Str} {u : Fields} (h : GoodFields env names u) : FieldsWF env names u := by
  refine ⟨h.sorted, ?_, h.values⟩
  intro e he hm
  have hg : (Entries.get? u e.1).isSome := by rw [Entries.get?_of_mem h.sorted.nodup he]; rfl
  exact h.fresh e.1 hg e.1 hm (Spelled.refl' _)

/-! ## Maps -/

theorem mapValues_entries {α : Type} (f : α → α) (m : GoMap (Option α)) : (mapValues f m).entries = m.entries.map (fun e => (e.1, e.2.map f)) := by
  cases m <;> rfl

theorem sorted_map {α β : Type} {l : List (Str × α)} (h : Entries.Sorted l) (f : Str × α → β) : Entries.Sorted (l.map (fun e => (e.1, f e))) := by
  unfold Entries.Sorted at h ⊢
  rw [List.pairwise_map]
  exact h

theorem _root_.Tuf.Spec.GoodMap.wf {α : Type} {P Q : α → Prop} {m : GoMap (Option α)} (h : GoodMap P m) (hpq : ∀ a, P a → Q a) :
    MapWF (fun p => ∀ x, p = some x → Q x) m := by
  refine ⟨h.sorted, ?_⟩
  intro e he x hx
  obtain ⟨y, h1, h2⟩ := h.values e he
  rw [h1] at hx
  cases hx
  exact hpq _ h2

theorem _root_.Tuf.Spec.GoodMap.get {α : Type} {P : α → Prop} {m : GoMap (Option α)} (h : GoodMap P m) {k : Str} {x : α} (hx : m.get? k = some (some x)) : P x := by
  obtain ⟨a, h1, h2⟩ := h.values _ (Entries.mem_of_get? hx)
  cases h1
  exact h2

theorem _root_.Tuf.Spec.GoodMap.mapValues {α : Type} {P Q : α → Prop} {f : α → α} {m : GoMap (Option α)} (h : GoodMap P m) (hpq : ∀ a, P a → Q (f a)) :
    GoodMap Q (mapValues f m) := by
  constructor
  · rw [mapValues_entries]
    exact sorted_map h.sorted (fun e => e.2.map f)
  · intro e he
    rw [mapValues_entries, List.mem_map] at he
    obtain ⟨e', he', rfl⟩ := he
    obtain ⟨a, h1, h2⟩ := h.values e' he'
    exact ⟨f a, by rw [h1]; rfl, hpq a h2⟩

theorem encMap_mapValues {α : Type} {f : α → α} {enc : α → Json} (h : ∀ a, enc (f a) = enc a) (m : GoMap (Option α)) :
    encMap (encPtr enc) (mapValues f m) = encMap (encPtr enc) m := by
  cases m with
  | none => rfl
  | some es =>
    show Json.obj (List.map _ (List.map _ es)) = _
    rw [List.map_map]
    congr 1
    refine List.map_congr_left fun e _ => ?_
    simp only [Function.comp]
    cases e.2 <;> simp [encPtr, h]

theorem encMap_readTargetMap (m : GoMap (Option TargetFiles)) :
    encMap (encPtr TargetFiles.marshal) (readTargetMap m) = encMap (encPtr TargetFiles.marshal) m := by
  cases m with
  | none => rfl
  | some es =>
    show Json.obj (List.map _ (List.map _ es)) = _
    rw [List.map_map]
    congr 1
    refine List.map_congr_left fun e _ => ?_
    simp only [Function.comp]
    cases e.2 <;> rfl

/-! ## The parts -/

/-- A good key whose ID is not computed. -/
structure ReadKey (env : Env) (a : Key) : Prop where
  good : GoodKey env a
  id : a.id = []

theorem ReadKey.wf {a : Key} (h : ReadKey env a) : Key.WF env a := ⟨h.good.fields.wf, h.good.value.wf, h.id⟩
theorem ReadKey.plain {a : Key} (h : ReadKey env a) : PlainKey a := ⟨h.good.fields.fresh, h.good.value.fresh⟩
theorem readKey_good {a : Key} (h : GoodKey env a) : ReadKey env (readKey a) := ⟨⟨h.fields, h.value⟩, rfl⟩

/-- A good entry without an empty hash map. -/
structure ReadMeta (env : Env) (a : MetaFiles) : Prop where
  good : GoodMeta env a
  hashes : a.hashes ≠ some []

theorem ReadMeta.wf {a : MetaFiles} (h : ReadMeta env a) : MetaFiles.WF env a := ⟨h.good.fields.wf, h.good.length, h.good.version, h.good.hashes⟩
theorem ReadMeta.plain {a : MetaFiles} (h : ReadMeta env a) : PlainMeta a := ⟨h.good.fields.fresh, h.hashes⟩
theorem readMeta_good {a : MetaFiles} (h : GoodMeta env a) : ReadMeta env (viewMeta a) := by
  unfold viewMeta
  split
  · exact ⟨⟨h.fields, h.length, h.version, List.Pairwise.nil⟩, by simp⟩
  · next hn => exact ⟨⟨h.fields, h.length, h.version, h.hashes⟩, fun he => hn (by have he' : a.hashes = some [] := he; rw [he']; rfl)⟩

theorem viewMeta_marshal (a : MetaFiles) : (viewMeta a).marshal = a.marshal := by
  unfold viewMeta
  split
  · next h =>
    unfold MetaFiles.marshal
    rw [h]
    rfl
  · rfl

theorem goodRole_wf {a : Role} (h : GoodRole env a) : Role.WF env a := ⟨h.fields.wf, h.threshold⟩
theorem goodTime_wf {t : Time} (h : GoodTime env t) : TimeWF env t := .inl ⟨_, h⟩
theorem goodTarget_wf {a : TargetFiles} (h : GoodTarget env a) (p : Str) : TargetFiles.WF env { a with path := p } := ⟨h.fields.wf, h.length, h.hashes, h.custom⟩

theorem goodDelegations_wf {d : Delegations} (h : GoodDelegations env d) : Delegations.WF env { d with keys := mapValues readKey d.keys } :=
  ⟨h.fields.wf, (h.keys.mapValues fun _ => readKey_good).wf fun _ => ReadKey.wf, fun r hr => ⟨(h.roles r hr).fields.wf, (h.roles r hr).threshold⟩,
    fun s hs => ⟨(h.succinct s hs).fields.wf, (h.succinct s hs).threshold, (h.succinct s hs).bitLength⟩⟩

theorem goodDelegations_plain {d : Delegations} (h : GoodDelegations env d) : PlainDelegations { d with keys := mapValues readKey d.keys } :=
  ⟨h.fields.fresh, fun _ _ hx => ((h.keys.mapValues fun _ => readKey_good).get hx).plain, fun r hr => ⟨(h.roles r hr).fields.fresh, (h.roles r hr).oneKind⟩,
    fun s hs => (h.succinct s hs).fields.fresh, h.oneKind⟩

theorem readDelegations_marshal (d : Delegations) : Delegations.marshal { d with keys := mapValues readKey d.keys } = d.marshal := by
  unfold Delegations.marshal
  dsimp only
  rw [encMap_mapValues (f := readKey) (enc := Key.marshal) (fun _ => rfl)]

/-! ## The four types -/

theorem readRoot_marshal (a : RootType) : (readRoot a).marshal = a.marshal := by
  unfold readRoot RootType.marshal
  dsimp only
  rw [encMap_mapValues (f := readKey) (enc := Key.marshal) (fun _ => rfl)]

theorem viewSnapshot_marshal (a : SnapshotType) : (viewSnapshot a).marshal = a.marshal := by
  unfold viewSnapshot SnapshotType.marshal
  dsimp only
  rw [encMap_mapValues viewMeta_marshal]

theorem viewTimestamp_marshal (a : TimestampType) : (viewTimestamp a).marshal = a.marshal := by
  unfold viewTimestamp TimestampType.marshal
  dsimp only
  rw [encMap_mapValues viewMeta_marshal]

theorem readTargets_marshal (a : TargetsType) : (readTargets a).marshal = a.marshal := by
  unfold readTargets TargetsType.marshal
  dsimp only
  rw [encMap_readTargetMap]
  cases a.delegations with
  | none => rfl
  | some d => simp only [Option.map_some]; rw [readDelegations_marshal]

theorem goodRoot_rt (laws : EnvLaws env) {a : RootType} (h : GoodRoot env a) : ∃ s, a.marshal = .ok (.obj s) ∧ RT env (RootType.unmarshal env) (.obj s) (readRoot a) ∧
    LastText s b!"_type" ROOT := by
  obtain ⟨j, h1, h2⟩ := RootType.rt laws (a := readRoot a)
    ⟨h.fields.wf, h.version, goodTime_wf h.expires, (h.keys.mapValues fun _ => readKey_good).wf fun _ => ReadKey.wf, h.roles.wf fun _ => goodRole_wf⟩
    ⟨h.fields.fresh, fun _ _ hx => ((h.keys.mapValues fun _ => readKey_good).get hx).plain, fun _ _ hx => (h.roles.get hx).fields.fresh⟩
  rw [readRoot_marshal] at h1
  refine ⟨_, rfl, ?_, LastMember.text (mkDict_last h.fields.wf (by simp) (by rw [h.type]; simp [Entries.get?_cons]; rfl))⟩
  cases h1
  exact h2

theorem goodSnapshot_rt (laws : EnvLaws env) {a : SnapshotType} (h : GoodSnapshot env a) : ∃ s, a.marshal = .ok (.obj s) ∧
    RT env (SnapshotType.unmarshal env) (.obj s) (viewSnapshot a) ∧ LastText s b!"_type" SNAPSHOT := by
  obtain ⟨j, h1, h2⟩ := SnapshotType.rt laws (a := viewSnapshot a)
    ⟨h.fields.wf, h.version, goodTime_wf h.expires, (h.metas.mapValues fun _ => readMeta_good).wf fun _ => ReadMeta.wf⟩
    ⟨h.fields.fresh, fun _ _ hx => ((h.metas.mapValues fun _ => readMeta_good).get hx).plain⟩
  rw [viewSnapshot_marshal] at h1
  refine ⟨_, rfl, ?_, LastMember.text (mkDict_last h.fields.wf (by simp) (by rw [h.type]; simp [Entries.get?_cons]; rfl))⟩
  cases h1
  exact h2

theorem goodTimestamp_rt (laws : EnvLaws env) {a : TimestampType} (h : GoodTimestamp env a) : ∃ s, a.marshal = .ok (.obj s) ∧
    RT env (TimestampType.unmarshal env) (.obj s) (viewTimestamp a) ∧ LastText s b!"_type" TIMESTAMP := by
  obtain ⟨j, h1, h2⟩ := TimestampType.rt laws (a := viewTimestamp a)
    ⟨h.fields.wf, h.version, goodTime_wf h.expires, (h.metas.mapValues fun _ => readMeta_good).wf fun _ => ReadMeta.wf⟩
    ⟨h.fields.fresh, fun _ _ hx => ((h.metas.mapValues fun _ => readMeta_good).get hx).plain⟩
  rw [viewTimestamp_marshal] at h1
  refine ⟨_, rfl, ?_, LastMember.text (mkDict_last h.fields.wf (by simp) (by rw [h.type]; simp [Entries.get?_cons]; rfl))⟩
  cases h1
  exact h2

theorem readTargetMap_entries (m : GoMap (Option TargetFiles)) :
    (readTargetMap m).entries = m.entries.map (fun e => (e.1, e.2.map (fun t => { t with path := e.1 }))) := by
  cases m <;> rfl

theorem goodTargets_rt (laws : EnvLaws env) {a : TargetsType} (h : GoodTargets env a) : ∃ s, a.marshal = .ok (.obj s) ∧
    RT env (TargetsType.unmarshal env) (.obj s) (readTargets a) ∧ LastText s b!"_type" TARGETS := by
  have hmem : ∀ e ∈ (readTargetMap a.targets).entries, ∃ t, GoodTarget env t ∧ e.2 = some { t with path := e.1 } := by
    intro e he
    rw [readTargetMap_entries, List.mem_map] at he
    obtain ⟨e', he', rfl⟩ := he
    obtain ⟨t, h1, h2⟩ := h.targets.values e' he'
    exact ⟨t, h2, by rw [h1]; rfl⟩
  have hw : TargetsType.WF env (readTargets a) := by
    refine ⟨h.fields.wf, h.version, goodTime_wf h.expires, ?_, ?_, ?_⟩
    · show Entries.Sorted (readTargetMap a.targets).entries
      rw [readTargetMap_entries]
      exact sorted_map h.targets.sorted (fun e => e.2.map (fun t => { t with path := e.1 }))
    · intro e he
      obtain ⟨t, h1, h2⟩ := hmem e he
      exact ⟨_, h2, rfl, goodTarget_wf h1 _⟩
    · intro d hd
      obtain ⟨d', hd', rfl⟩ := Option.map_eq_some_iff.1 (show a.delegations.map _ = some d from hd)
      exact goodDelegations_wf (h.delegations d' hd')
  have hp : PlainTargets (readTargets a) := by
    refine ⟨h.fields.fresh, ?_, ?_⟩
    · intro k x hx
      obtain ⟨t, h1, h2⟩ := hmem _ (Entries.mem_of_get? hx)
      have h3 : x = _ := Option.some.inj h2
      rw [h3]
      exact h1.fields.fresh
    · intro d hd
      obtain ⟨d', hd', rfl⟩ := Option.map_eq_some_iff.1 (show a.delegations.map _ = some d from hd)
      exact goodDelegations_plain (h.delegations d' hd')
  obtain ⟨j, h1, h2⟩ := TargetsType.rt laws hw hp
  rw [readTargets_marshal] at h1
  have hl : ∃ s, a.marshal = .ok (.obj s) ∧ LastText s b!"_type" TARGETS := by
    have h3 := h1
    unfold TargetsType.marshal at h3 ⊢
    dsimp only at h3 ⊢
    cases hd : a.delegations with
    | none => exact ⟨_, rfl, LastMember.text (mkDict_last h.fields.wf (by simp) (by rw [h.type]; simp [Entries.get?_cons]; rfl))⟩
    | some d =>
      rw [hd] at h3
      dsimp only at h3 ⊢
      obtain ⟨jd, h4, h5⟩ := Res.bind_eq_ok.1 h3
      rw [h4]
      exact ⟨_, rfl, LastMember.text (mkDict_last h.fields.wf (by simp) (by rw [h.type]; simp [Entries.get?_cons]; rfl))⟩
  obtain ⟨s, h3, h4⟩ := hl
  refine ⟨s, h3, ?_, h4⟩
  rw [h3] at h1
  cases h1
  exact h2

/-! ## Documents -/

/-- Reading what was printed from a good value. -/
theorem publish_decode {T : Type} [RoleType T] {P : T → Prop} {read : T → T} (hT : ∀ a : T, P a → ∃ s, RoleType.marshal a = .ok (.obj s) ∧
      RT env (RoleType.unmarshal env) (.obj s) (read a) ∧ LastText s b!"_type" (RoleType.typeName T))
    {m : Metadata T} (hsigned : P m.signed) (hsigs : ∀ s ∈ m.signatures.elems, GoodFields env [b!"keyid", b!"sig"] s.unrec)
    (hfields : GoodFields env [b!"signed", b!"signatures"] m.unrec) {pretty : Bool} (hprint : ∀ j, m.marshal = .ok j → env.parse (env.print pretty j) = some j) :
    ∃ data, toBytes env m pretty = .ok data ∧
      fromBytes env data = (checkUniqueSignatures m >>= fun _ => .ok { m with signed := read m.signed }) := by
  obtain ⟨s, h1, h2, h3⟩ := hT m.signed hsigned
  have hm : m.marshal = .ok (.obj (mkDict m.unrec [(b!"signed", .obj s), (b!"signatures", encSlice Signature.marshal m.signatures)])) := by
    unfold Metadata.marshal
    rw [h1, Res.bind_ok]
  have hpr := hprint _ hm
  have hs : RT env (decSlice (Signature.unmarshal env)) (encSlice Signature.marshal m.signatures) m.signatures :=
    rt_slice (fun s hs => Signature.rt ⟨(hsigs s hs).wf⟩ (hsigs s hs).fresh)
  have hrt : RT env (Metadata.unmarshal env) (.obj (mkDict m.unrec [(b!"signed", .obj s), (b!"signatures", encSlice Signature.marshal m.signatures)]))
      { m with signed := read m.signed } := by
    refine rt_struct (agree := Metadata.agree) (a1 := { m with signed := read m.signed }) (by unfold Metadata.agree; grind) (by unfold Metadata.agree; grind)
      hfields.wf (by decide) hfields.fresh (by simp) ?_ ?_ ?_ ?_
    · intro e he
      mem_cases he
      rcases he with rfl | rfl
      · exact ⟨by simp, h2.2⟩
      · exact ⟨by simp, hs.2⟩
    · intro e he x hx
      mem_cases he
      rcases he with rfl | rfl
      · exact ⟨{ x with signed := read m.signed }, by simp [Metadata.setField, h2.1], by unfold Metadata.agree; simp, by unfold Metadata.agree; grind⟩
      · exact ⟨{ x with signatures := m.signatures }, by simp [Metadata.setField, hs.1], by unfold Metadata.agree; simp, by unfold Metadata.agree; grind⟩
    · intro f hf hn
      exact absurd hf hn
    · intro y hy
      refine ⟨y, rfl, ?_⟩
      have h1 := (hy b!"signed" (by decide)).1 rfl
      have h2 := (hy b!"signatures" (by decide)).2 rfl
      cases y; cases m; simp_all
  have hlast : LastMember (mkDict m.unrec [(b!"signed", .obj s), (b!"signatures", encSlice Signature.marshal m.signatures)]) b!"signed" (.obj s) :=
    mkDict_last hfields.wf (by simp) (by simp [Entries.get?_cons])
  have hct : checkType env (RoleType.typeName T) (env.print pretty _) = .ok () := checkType_ok.2 ⟨_, hpr, hrt.2, _, s, rfl, hlast, h3⟩
  refine ⟨_, by unfold toBytes; rw [hm, Res.bind_ok], ?_⟩
  unfold fromBytes
  rw [hct, Res.bind_ok, hpr]
  show (Metadata.unmarshal env _ >>= _) = _
  rw [hrt.1, Res.bind_ok]
  rfl

theorem publish {T : Type} [RoleType T] {P : T → Prop} {read : T → T} (hT : ∀ a : T, P a → ∃ s, RoleType.marshal a = .ok (.obj s) ∧
      RT env (RoleType.unmarshal env) (.obj s) (read a) ∧ LastText s b!"_type" (RoleType.typeName T))
    {m : Metadata T} (h : GoodDocument env P m) {pretty : Bool} (hprint : ∀ j, m.marshal = .ok j → env.parse (env.print pretty j) = some j) :
    ∃ data, toBytes env m pretty = .ok data ∧ fromBytes env data = .ok { m with signed := read m.signed } := by
  obtain ⟨data, h1, h2⟩ := publish_decode hT h.signed h.signatures h.fields hprint
  rw [show checkUniqueSignatures m = .ok () from checkUnique_ok.2 ⟨h.distinct, by simp⟩] at h2
  exact ⟨data, h1, h2⟩

/-! ## C85 -/

/-- C85 for root metadata: any good value (built with the library, not only values that were read) can be written, and reading gives it back; only the cached
key IDs are gone. -/
theorem C85_root (laws : EnvLaws env) {m : Metadata RootType} (h : GoodDocument env (GoodRoot env) m) {pretty : Bool}
    (hprint : ∀ j, m.marshal = .ok j → env.parse (env.print pretty j) = some j) :
    ∃ data, toBytes env m pretty = .ok data ∧ fromBytes env data = .ok { m with signed := readRoot m.signed } :=
  publish (fun _ => goodRoot_rt laws) h hprint

/-- C85 for snapshot metadata: reading gives back what was written; only empty hash maps become nil. -/
theorem C85_snapshot (laws : EnvLaws env) {m : Metadata SnapshotType} (h : GoodDocument env (GoodSnapshot env) m) {pretty : Bool}
    (hprint : ∀ j, m.marshal = .ok j → env.parse (env.print pretty j) = some j) :
    ∃ data, toBytes env m pretty = .ok data ∧ fromBytes env data = .ok { m with signed := viewSnapshot m.signed } :=
  publish (fun _ => goodSnapshot_rt laws) h hprint

/-- C85 for timestamp metadata: reading gives back what was written; only empty hash maps become nil. -/
theorem C85_timestamp (laws : EnvLaws env) {m : Metadata TimestampType} (h : GoodDocument env (GoodTimestamp env) m) {pretty : Bool}
    (hprint : ∀ j, m.marshal = .ok j → env.parse (env.print pretty j) = some j) :
    ∃ data, toBytes env m pretty = .ok data ∧ fromBytes env data = .ok { m with signed := viewTimestamp m.signed } :=
  publish (fun _ => goodTimestamp_rt laws) h hprint

/-- C85 for targets metadata: reading gives back what was written; cached key IDs are gone, and every target has its path. -/
theorem C85_targets (laws : EnvLaws env) {m : Metadata TargetsType} (h : GoodDocument env (GoodTargets env) m) {pretty : Bool}
    (hprint : ∀ j, m.marshal = .ok j → env.parse (env.print pretty j) = some j) :
    ∃ data, toBytes env m pretty = .ok data ∧ fromBytes env data = .ok { m with signed := readTargets m.signed } :=
  publish (fun _ => goodTargets_rt laws) h hprint

/-- C85: what is read has the same signed payload. -/
theorem C85_payload : (∀ a : RootType, payload (readRoot a) = payload a) ∧ (∀ a : SnapshotType, payload (viewSnapshot a) = payload a) ∧
    (∀ a : TimestampType, payload (viewTimestamp a) = payload a) ∧ ∀ a : TargetsType, payload (readTargets a) = payload a := by
  refine ⟨fun a => ?_, fun a => ?_, fun a => ?_, fun a => ?_⟩
  · show RootType.marshal _ >>= canonical = RootType.marshal _ >>= canonical
    rw [readRoot_marshal]
  · show SnapshotType.marshal _ >>= canonical = SnapshotType.marshal _ >>= canonical
    rw [viewSnapshot_marshal]
  · show TimestampType.marshal _ >>= canonical = TimestampType.marshal _ >>= canonical
    rw [viewTimestamp_marshal]
  · show TargetsType.marshal _ >>= canonical = TargetsType.marshal _ >>= canonical
    rw [readTargets_marshal]

/-! ## Signed and published documents -/

/-- The signatures after signing: as many as signers, each filed under its signer's key ID and without unrecognised fields. -/
theorem signedBy_new {T : Type} [RoleType T] {m0 m : Metadata T} {ss : List Signer} (h : SignedBy env m0 ss m) (h0 : m0.signatures.elems = [])
    (hd : ss.Pairwise (fun s s' => ∀ id, SignerID env s id → ¬ SignerID env s' id)) :
    m.unrec = m0.unrec ∧ (∀ s ∈ m.signatures.elems, s.unrec = [] ∧ ∃ s' ∈ ss, SignerID env s' s.keyID) ∧ (m.signatures.elems.map Signature.keyID).Nodup := by
  induction h with
  | nil => simp [h0]
  | @snoc m1 m2 ss s0 sig h1 h2 ih =>
    rw [List.pairwise_append] at hd
    obtain ⟨i1, i2, i3⟩ := ih hd.1
    obtain ⟨_, b, c, d, _⟩ := C08_sign_appends h2
    have hu : sig.unrec = [] := by
      unfold sign at h2
      obtain ⟨p, hp, h2⟩ := Res.bind_eq_ok.1 h2
      obtain ⟨sb, hsb, h2⟩ := Res.bind_eq_ok.1 h2
      obtain ⟨pk, hpk, h2⟩ := Res.bind_eq_ok.1 h2
      obtain ⟨key, hkey, h2⟩ := Res.bind_eq_ok.1 h2
      obtain ⟨⟨id, key'⟩, hid, h2⟩ := Res.bind_eq_ok.1 h2
      cases h2
      rfl
    refine ⟨by rw [b, i1], ?_, ?_⟩
    · rw [c]
      intro s hs
      rcases List.mem_append.1 hs with hs | hs
      · obtain ⟨j1, s', j2, j3⟩ := i2 s hs
        exact ⟨j1, s', by simp [j2], j3⟩
      · rw [List.mem_singleton] at hs
        subst hs
        exact ⟨hu, s0, by simp, d⟩
    · rw [c, List.map_append, List.nodup_append]
      refine ⟨i3, by simp, ?_⟩
      intro x hx y hy hxy
      obtain ⟨s, hs, rfl⟩ := List.mem_map.1 hx
      simp only [List.map_cons, List.map_nil, List.mem_singleton] at hy
      obtain ⟨_, s', j2, j3⟩ := i2 s hs
      refine hd.2.2 s' j2 s0 (by simp) _ j3 ?_
      rw [hxy, hy]
      exact d

theorem goodFields_nil (names : List Str) : GoodFields env names [] := ⟨List.Pairwise.nil, by intro k hk; simp [Entries.get?] at hk, by simp⟩

/-- A published document is read back, with signatures that suffice wherever the signers do. -/
theorem publishes_read {T : Type} [RoleType T] {P : T → Prop} {read : T → T} (hT : ∀ a : T, P a → ∃ s, RoleType.marshal a = .ok (.obj s) ∧
      RT env (RoleType.unmarshal env) (.obj s) (read a) ∧ LastText s b!"_type" (RoleType.typeName T))
    (hpay : ∀ a, payload (read a) = payload a)
    (hany : ∀ m : Metadata T, (RoleType.any m).signatures = m.signatures.elems ∧ (RoleType.any m).payload = payload m.signed)
    {a : T} (ha : P a) {ss : List Signer} {data : Bytes} (h : Publishes env a ss data) :
    ∃ m, ParsesTo env data m ∧ m.signed = read a ∧ ∀ D role, Suffice env D role ss → Verifies env D role (RoleType.any m) := by
  obtain ⟨m0, m, pretty, rfl, h0, hf, hs, hb, hpr⟩ := h.written
  obtain ⟨k1, k2, k3⟩ := signedBy_new hs h0 h.distinct
  have hsig := signedBy_signed hs
  obtain ⟨data', h1, h2⟩ := publish hT (m := m) ⟨by rw [hsig]; exact ha, fun s hs => by rw [(k2 s hs).1]; exact goodFields_nil _, k3, by rw [k1]; exact hf⟩ hpr
  rw [hb] at h1
  cases h1
  refine ⟨_, h2, by rw [hsig], ?_⟩
  intro D role ⟨keys, ids, t, hd, ht, ⟨S, hS, hle, hin⟩, hk⟩
  obtain ⟨id0, hid0⟩ : ∃ id, id ∈ S := by
    cases S with
    | nil => simp at hle; omega
    | cons a l => exact ⟨a, by simp⟩
  obtain ⟨hm0, s0, hs0, hsid0⟩ := hin id0 hid0
  obtain ⟨_, _, _, p, hp, _⟩ := signedBy_signature hs hs0 hsid0
  have hpm : payload m.signed = .ok p := by rw [hsig, hp]
  have hc : Carries (RoleType.any { m with signed := read m.signed }) m.signatures.elems p := any_carries hany (by rw [hpay, hpm])
  refine ⟨keys, ids, t, hd, List.ne_nil_of_mem hm0, ?_, S, hS, hle, ?_⟩
  · intro id hid
    obtain ⟨key, pk, hf, e1, e2, e3, _⟩ := hk id hid
    exact ⟨pk, hf, _, p, ⟨key, _, e1, e2, hc, signatureFor_pick _ _⟩, e3 _ _⟩
  · intro id hid
    obtain ⟨hmem, s, hss, hsid⟩ := hin id hid
    obtain ⟨s', hs', hid', p', e, f⟩ := signedBy_signature hs hss hsid
    rw [hp] at e
    cases e
    obtain ⟨key, pk, hf, e1, e2, e3, e4⟩ := hk id hmem
    exact ⟨hmem, pk, hf, _, p, ⟨key, _, e1, e2, hc, signatureFor_pick _ _⟩, e4 s' hs' hid' _ _ f⟩

/-! ## Signers suffice for what was read if they suffice for what was written -/

theorem get?_map {α β : Type} (f : α → β) (l : Entries α) (k : Str) : Entries.get? (l.map (fun e => (e.1, f e.2))) k = (Entries.get? l k).map f := by
  induction l with
  | nil => rfl
  | cons e l ih =>
    rw [List.map_cons, Entries.get?_cons, Entries.get?_cons]
    split
    · rfl
    · exact ih

theorem mapValues_get? {α : Type} {f : α → α} {m : GoMap (Option α)} {k : Str} {x : α} (h : m.get? k = some (some x)) : (mapValues f m).get? k = some (some (f x)) := by
  cases m with
  | none => simp [GoMap.get?, GoMap.entries] at h
  | some es =>
    have h' : Entries.get? es k = some (some x) := h
    show Entries.get? (es.map (fun e => (e.1, e.2.map f))) k = _
    rw [get?_map (fun p : Option α => p.map f), h']
    rfl

theorem verifierOf_read {key : Key} {pk : PublicKey} {hf : HashFn} (h : VerifierOf env key pk hf) : VerifierOf env (readKey key) pk hf := by
  cases h with
  | rsa a b c d => exact .rsa a b c d
  | ecdsa a b c d => exact .ecdsa a b c d
  | ed25519 a b c d => exact .ed25519 a b c d

theorem suffice_read {D D' : AnyMeta} {role : Str} {ss : List Signer} (hD : ∀ keys ids t, Delegates D role keys ids t → Delegates D' role (mapValues readKey keys) ids t)
    (h : Suffice env D role ss) : Suffice env D' role ss := by
  obtain ⟨keys, ids, t, hd, ht, hS, hk⟩ := h
  refine ⟨_, ids, t, hD _ _ _ hd, ht, hS, ?_⟩
  intro id hid
  obtain ⟨key, pk, hf, e1, e2, e3, e4⟩ := hk id hid
  exact ⟨readKey key, pk, hf, mapValues_get? e1, verifierOf_read e2, e3, e4⟩

theorem suffice_root {m m' : Metadata RootType} {role : Str} {ss : List Signer} (hm : m'.signed = readRoot m.signed) (h : Suffice env (.root m) role ss) :
    Suffice env (.root m') role ss := by
  refine suffice_read ?_ h
  intro keys ids t hd
  cases hd with
  | @root _ _ r hr =>
    have : mapValues readKey m.signed.keys = m'.signed.keys := by rw [hm]; rfl
    rw [this]
    exact .root (by rw [hm]; exact hr)

theorem suffice_targets {m m' : Metadata TargetsType} {role : Str} {ss : List Signer} (hm : m'.signed = readTargets m.signed) (h : Suffice env (.targets m) role ss) :
    Suffice env (.targets m') role ss := by
  refine suffice_read ?_ h
  intro keys ids t hd
  cases hd with
  | @targets _ _ d before after v h1 h2 h3 h4 =>
    exact .targets (d := { d with keys := mapValues readKey d.keys }) (by rw [hm]; simp [readTargets, h1]) h2 h3 h4
  | @succinct _ _ d sr h1 h2 h3 =>
    exact .succinct (d := { d with keys := mapValues readKey d.keys }) (by rw [hm]; simp [readTargets, h1]) h2 h3

/-! ## C86 -/

/-- C86: a published root, signed by enough of its own signers, starts a trusted set. -/
theorem C86_root (laws : EnvLaws env) {r : RootType} (hr : GoodRoot env r) {ss : List Signer} {data : Bytes} (hp : Publishes env r ss data)
    (hs : Suffice env (.root { signed := r }) b!"root" ss) (now : Time) :
    ∃ t, Trusted.new env now data = .ok t ∧ t.root.signed = readRoot r ∧ t.timestamp = none ∧ t.snapshot = none ∧ t.targets = [] ∧ t.refTime = now := by
  obtain ⟨m, h1, h2, h3⟩ := publishes_read (fun _ => goodRoot_rt laws) C85_payload.1 C08_all_types.1 hr hp
  refine ⟨{ root := m, refTime := now }, C78_new.2 ⟨m, h1, by rw [h2]; exact hr.type, h3 _ _ (suffice_root h2 hs), rfl⟩, h2, rfl, rfl, rfl, rfl⟩

/-- C86: a published next root, signed by enough signers of the trusted root and of its own, is accepted as the next root. -/
theorem C86_next_root (laws : EnvLaws env) {t : Trusted} (ht : t.timestamp = none) {r : RootType} (hr : GoodRoot env r) {ss : List Signer} {data : Bytes}
    (hp : Publishes env r ss data) (hold : Suffice env (.root t.root) b!"root" ss) (hnew : Suffice env (.root { signed := r }) b!"root" ss)
    (hv : r.version = t.root.signed.version + 1) :
    ∃ m, t.updateRoot env data = (.ok m, { t with root := m }) ∧ m.signed = readRoot r := by
  obtain ⟨m, h1, h2, h3⟩ := publishes_read (fun _ => goodRoot_rt laws) C85_payload.1 C08_all_types.1 hr hp
  have hw : r.version = wrap64 (t.root.signed.version + 1) := by
    have := hr.version
    rw [← hv]
    unfold inInt64 at this
    simp only [Bool.and_eq_true, decide_eq_true_eq] at this
    exact (wrap64_of_bounds (by omega) (by omega)).symm
  have ha : RootAccepted env t data m := ⟨ht, h1, by rw [h2]; exact hr.type, h3 _ _ hold, by rw [h2]; exact hw, h3 _ _ (suffice_root h2 hnew)⟩
  refine ⟨m, ?_, h2⟩
  have := checkRoot_ok.2 ha
  unfold Trusted.updateRoot
  rw [this]

theorem metaMatches_view {f : MetaFiles} {data : Bytes} (h : MetaMatches env f data) : MetaMatches env (viewMeta f) data := by
  refine ⟨h.1, ?_⟩
  unfold viewMeta
  dsimp only
  split
  · intro alg v hv; simp [GoMap.entries] at hv
  · exact h.2

theorem lists_view {metas : GoMap (Option MetaFiles)} {name : Str} {v : Int} (h : Lists metas name v) : Lists (mapValues viewMeta metas) name v := by
  obtain ⟨f, h1, h2⟩ := h
  exact ⟨_, mapValues_get? h1, h2⟩

/-- The documents of a release are acceptable one after the other. -/
theorem release_accepted (laws : EnvLaws env) {now : Time} {r : RootType} {ts : TimestampType} {sn : SnapshotType} {tg : TargetsType} {dts dsn dtg : Bytes} {fsn ftg : MetaFiles}
    (h : Release env now r ts sn tg dts dsn dtg fsn ftg) {t : Trusted} (hroot : t.root.signed = readRoot r) (h1 : t.timestamp = none) (h2 : t.snapshot = none)
    (h3 : t.targets = []) (hnow : t.refTime = now) :
    ∃ mts msn mtg, mts.signed = viewTimestamp ts ∧ msn.signed = viewSnapshot sn ∧ mtg.signed = readTargets tg ∧ TimestampAccepted env t dts mts ∧
      SnapshotAccepted env { t with timestamp := some mts } dsn false msn ∧
      TargetsAccepted env { t with timestamp := some mts, snapshot := some msn } dtg b!"targets" b!"root" mtg := by
  obtain ⟨ss1, p1, s1⟩ := h.timestamp
  obtain ⟨ss2, p2, s2⟩ := h.snapshot
  obtain ⟨ss3, p3, s3⟩ := h.targets
  obtain ⟨mts, a1, a2, a3⟩ := publishes_read (fun _ => goodTimestamp_rt laws) C85_payload.2.2.1 C08_all_types.2.2.1 h.goodTimestamp p1
  obtain ⟨msn, b1, b2, b3⟩ := publishes_read (fun _ => goodSnapshot_rt laws) C85_payload.2.1 C08_all_types.2.1 h.goodSnapshot p2
  obtain ⟨mtg, c1, c2, c3⟩ := publishes_read (fun _ => goodTargets_rt laws) C85_payload.2.2.2 C08_all_types.2.2.2 h.goodTargets p3
  have v1 := a3 _ _ (suffice_root (m' := t.root) hroot s1)
  have v2 := b3 _ _ (suffice_root (m' := t.root) hroot s2)
  have v3 := c3 _ _ (suffice_root (m' := t.root) hroot s3)
  obtain ⟨l1, l2, l3⟩ := h.snapshotListed
  obtain ⟨k1, k2, k3⟩ := h.targetsListed
  have g1 : mts.signed.metas.get? b!"snapshot.json" = some (some (viewMeta fsn)) := by rw [a2]; exact mapValues_get? l1
  have g2 : msn.signed.metas.get? b!"targets.json" = some (some (viewMeta ftg)) := by rw [b2]; exact mapValues_get? k1
  refine ⟨mts, msn, mtg, a2, b2, c2, ?_, ?_, ?_⟩
  · exact ⟨h2, by rw [hroot, hnow]; exact h.rootFresh, a1, by rw [a2]; exact h.goodTimestamp.type, v1, by simp [h1], by simp [h1]⟩
  · refine ⟨⟨mts, rfl, by rw [a2]; dsimp only; rw [hnow]; exact h.timestampFresh, fun _ => ⟨_, g1, metaMatches_view l3⟩⟩, by simp [h3], b1,
      by rw [b2]; exact h.goodSnapshot.type, v2, by simp [h2]⟩
  · refine ⟨⟨msn, mts, viewMeta ftg, .root t.root, rfl, rfl, by rw [b2]; dsimp only; rw [hnow]; exact h.snapshotFresh, ⟨_, g1, ?_⟩, g2, metaMatches_view k3, ?_, .root, v3⟩,
      c1, by rw [c2]; exact h.goodTargets.type, by rw [c2]; dsimp only; rw [hnow]; exact h.targetsFresh⟩
    · rw [b2]; exact l2
    · rw [c2]; exact k2.symm

/-- C86: a trusted set with the published root accepts a published release, document by document, and then holds exactly what was published. -/
theorem C86_release (laws : EnvLaws env) {now : Time} {r : RootType} {ts : TimestampType} {sn : SnapshotType} {tg : TargetsType} {dts dsn dtg : Bytes} {fsn ftg : MetaFiles}
    (h : Release env now r ts sn tg dts dsn dtg fsn ftg) {t : Trusted} (hroot : t.root.signed = readRoot r) (h1 : t.timestamp = none) (h2 : t.snapshot = none)
    (h3 : t.targets = []) (hnow : t.refTime = now) :
    ∃ mts msn mtg, t.updateTimestamp env dts = (.ok mts, { t with timestamp := some mts }) ∧
      ({ t with timestamp := some mts } : Trusted).updateSnapshot env dsn false = (.ok msn, { t with timestamp := some mts, snapshot := some msn }) ∧
      (({ t with timestamp := some mts, snapshot := some msn } : Trusted).updateDelegatedTargets env dtg b!"targets" b!"root").1 = .ok mtg ∧
      mts.signed = viewTimestamp ts ∧ msn.signed = viewSnapshot sn ∧ mtg.signed = readTargets tg := by
  obtain ⟨mts, msn, mtg, a2, b2, c2, x1, x2, x3⟩ := release_accepted laws h hroot h1 h2 h3 hnow
  refine ⟨mts, msn, mtg, ?_, ?_, C78_targets.2 x3, a2, b2, c2⟩
  · have hx : ¬ Expired mts.signed.expires t.refTime := by rw [a2, hnow]; exact h.timestampFresh
    have := checkTimestamp_ok.2 x1
    unfold Trusted.updateTimestamp
    rw [this]
    simp [Trusted.checkFinalTimestamp, Res.deref, isExpired_false.2 hx]
  · have := checkSnapshot_ok.2 x2
    unfold Trusted.updateSnapshot
    rw [this]
    have hf : ({ t with timestamp := some mts, snapshot := some msn } : Trusted).checkFinalSnapshot = .ok () := by
      refine checkFinalSnapshot_ok.2 ⟨msn, mts, rfl, rfl, by rw [b2]; dsimp only; rw [hnow]; exact h.snapshotFresh, ?_⟩
      rw [a2, b2]
      exact lists_view ⟨fsn, h.snapshotListed.1, h.snapshotListed.2.1⟩
    simp [hf]

/-- C86: a published delegated role, signed by enough signers for the delegation in trusted targets metadata, is accepted. -/
theorem C86_delegated (laws : EnvLaws env) {t : Trusted} {role delegator : Str} {D : AnyMeta} {tg : TargetsType} (hg : GoodTargets env tg) {ss : List Signer} {data : Bytes}
    (hp : Publishes env tg ss data) (hD : DelegatorIs t delegator D) (hs : Suffice env D role ss) {sn : Metadata SnapshotType} {ts : Metadata TimestampType} {f : MetaFiles}
    (h1 : t.snapshot = some sn) (h2 : t.timestamp = some ts) (h3 : ¬ Expired sn.signed.expires t.refTime) (h4 : Lists ts.signed.metas b!"snapshot.json" sn.signed.version)
    (h5 : sn.signed.metas.get? (role ++ b!".json") = some (some f)) (h6 : MetaMatches env f data) (h7 : f.version = tg.version) (h8 : ¬ Expired tg.expires t.refTime) :
    ∃ m, (t.updateDelegatedTargets env data role delegator).1 = .ok m ∧ m.signed = readTargets tg := by
  obtain ⟨m, a1, a2, a3⟩ := publishes_read (fun _ => goodTargets_rt laws) C85_payload.2.2.2 C08_all_types.2.2.2 hg hp
  exact ⟨m, C78_targets.2 ⟨⟨sn, ts, f, D, h1, h2, h3, h4, h5, h6, by rw [a2]; exact h7.symm, hD, a3 _ _ hs⟩, a1, by rw [a2]; exact hg.type, by rw [a2]; exact h8⟩, a2⟩

end Tuf
