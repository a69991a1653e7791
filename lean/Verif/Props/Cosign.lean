import Verif.Props.Publish
import Verif.Spec.Cosign

/-!
# Signing a file in turn (C115)
-/

namespace Tuf
open Spec Sample

variable {env : Env}

/-- What is needed of a type of metadata: good values are read back, and reading changes nothing that matters. -/
structure Rereads {T : Type} [RoleType T] (env : Env) (P : T → Prop) (read : T → T) : Prop where
  rt : ∀ a : T, P a → ∃ s, RoleType.marshal a = .ok (.obj s) ∧ RT env (RoleType.unmarshal env) (.obj s) (read a) ∧
    LastText s b!"_type" (RoleType.typeName T)
  good : ∀ a, P a → P (read a)
  idem : ∀ a, read (read a) = read a
  marshal : ∀ a, RoleType.marshal (read a) = RoleType.marshal a

theorem Rereads.payload {T : Type} [RoleType T] {P : T → Prop} {read : T → T} (h : Rereads env P read) (a : T) : payload (read a) = payload a := by
  show RoleType.marshal _ >>= canonical = RoleType.marshal _ >>= canonical
  rw [h.marshal]

theorem mapValues_mapValues {α : Type} {f : α → α} (hf : ∀ a, f (f a) = f a) (m : GoMap (Option α)) : mapValues f (mapValues f m) = mapValues f m := by
  unfold mapValues
  cases m with
  | none => rfl
  | some es =>
    simp only [Option.map_some, List.map_map, Option.some.injEq]
    apply List.map_congr_left
    intro e _
    cases h : e.2 <;> simp [h, hf]

theorem readTargetMap_idem (m : GoMap (Option TargetFiles)) : readTargetMap (readTargetMap m) = readTargetMap m := by
  unfold readTargetMap
  cases m with
  | none => rfl
  | some es =>
    simp only [Option.map_some, List.map_map, Option.some.injEq]
    apply List.map_congr_left
    intro e _
    cases h : e.2 <;> simp [h]

theorem goodMap_readTargetMap {m : GoMap (Option TargetFiles)} (h : GoodMap (GoodTarget env) m) : GoodMap (GoodTarget env) (readTargetMap m) := by
  cases m with
  | none => exact h
  | some es =>
    refine ⟨?_, ?_⟩
    · exact List.pairwise_map.2 h.sorted
    · intro e he
      obtain ⟨e0, h0, rfl⟩ := List.mem_map.1 he
      obtain ⟨a, h1, h2⟩ := h.values e0 h0
      exact ⟨{ a with path := e0.1 }, by simp [h1], ⟨h2.fields, h2.length, h2.hashes, h2.custom⟩⟩

theorem viewMeta_idem (a : MetaFiles) : viewMeta (viewMeta a) = viewMeta a := by
  unfold viewMeta
  dsimp only
  by_cases h : a.hashes.entries = []
  · simp only [if_pos h]
    rw [if_pos (show GoMap.entries (none : GoMap Bytes) = [] from rfl)]
  · simp only [if_neg h]

theorem goodMeta_view {a : MetaFiles} (h : GoodMeta env a) : GoodMeta env (viewMeta a) := by
  refine ⟨h.fields, h.length, h.version, ?_⟩
  unfold viewMeta
  dsimp only
  split
  · exact List.Pairwise.nil
  · exact h.hashes

theorem rereadsRoot (laws : EnvLaws env) : Rereads env (GoodRoot env) readRoot where
  rt _ h := goodRoot_rt laws h
  good a h := ⟨h.fields, h.type, h.version, h.expires, h.keys.mapValues (fun _ k => ⟨k.fields, k.value⟩), h.roles⟩
  idem a := by unfold readRoot; simp only [mapValues_mapValues (f := readKey) (fun _ => rfl)]
  marshal a := readRoot_marshal a

theorem rereadsSnapshot (laws : EnvLaws env) : Rereads env (GoodSnapshot env) viewSnapshot where
  rt _ h := goodSnapshot_rt laws h
  good a h := ⟨h.fields, h.type, h.version, h.expires, h.metas.mapValues (fun _ => goodMeta_view)⟩
  idem a := by unfold viewSnapshot; simp only [mapValues_mapValues viewMeta_idem]
  marshal a := viewSnapshot_marshal a

theorem rereadsTimestamp (laws : EnvLaws env) : Rereads env (GoodTimestamp env) viewTimestamp where
  rt _ h := goodTimestamp_rt laws h
  good a h := ⟨h.fields, h.type, h.version, h.expires, h.metas.mapValues (fun _ => goodMeta_view)⟩
  idem a := by unfold viewTimestamp; simp only [mapValues_mapValues viewMeta_idem]
  marshal a := viewTimestamp_marshal a

theorem rereadsTargets (laws : EnvLaws env) : Rereads env (GoodTargets env) readTargets where
  rt _ h := goodTargets_rt laws h
  good a h := by
    refine ⟨h.fields, h.type, h.version, h.expires, goodMap_readTargetMap h.targets, ?_⟩
    intro d hd
    obtain ⟨d0, h0, rfl⟩ := Option.map_eq_some_iff.1 hd
    have g := h.delegations d0 h0
    exact ⟨g.fields, g.keys.mapValues (fun _ k => ⟨k.fields, k.value⟩), g.roles, g.succinct, g.oneKind⟩
  idem a := by
    unfold readTargets
    simp only [readTargetMap_idem, Option.map_map]
    congr 1
    cases a.delegations with
    | none => rfl
    | some d => simp [mapValues_mapValues (f := readKey) (fun _ => rfl)]
  marshal a := readTargets_marshal a

/-! ## One signature more -/

section
variable {T : Type} [RoleType T] {P : T → Prop} {read : T → T}

/-- Signing looks only at the payload. -/
theorem sign_same {m m' m1 : Metadata T} {s : Signer} {sig : Signature} (hp : payload m'.signed = payload m.signed) (h : sign env m s = .ok (sig, m1)) :
    sign env m' s = .ok (sig, { m' with signatures := some (m'.signatures.elems ++ [sig]) }) := by
  unfold sign at h ⊢
  rw [hp]
  obtain ⟨p, h1, h⟩ := Res.bind_eq_ok.1 h
  obtain ⟨sb, h2, h⟩ := Res.bind_eq_ok.1 h
  obtain ⟨pk, h3, h⟩ := Res.bind_eq_ok.1 h
  obtain ⟨key, h4, h⟩ := Res.bind_eq_ok.1 h
  obtain ⟨⟨id, k'⟩, h5, h⟩ := Res.bind_eq_ok.1 h
  cases h
  rw [h1, Res.bind_ok, h2, Res.bind_ok, h3, Res.bind_ok, h4, Res.bind_ok, h5, Res.bind_ok]

theorem sign_fields {m m1 : Metadata T} {s : Signer} {sig : Signature} (h : sign env m s = .ok (sig, m1)) : sig.unrec = [] := by
  unfold sign at h
  obtain ⟨p, h1, h⟩ := Res.bind_eq_ok.1 h
  obtain ⟨sb, h2, h⟩ := Res.bind_eq_ok.1 h
  obtain ⟨pk, h3, h⟩ := Res.bind_eq_ok.1 h
  obtain ⟨key, h4, h⟩ := Res.bind_eq_ok.1 h
  obtain ⟨⟨id, k'⟩, h5, h⟩ := Res.bind_eq_ok.1 h
  cases h
  rfl

/-- One step: the file that is written after signing is read if and only if the key ID is new. -/
theorem cosign_step (hT : Rereads env P read) {m m1 : Metadata T} (hg : GoodDocument env P m) {s : Signer} {sig : Signature} (h : sign env m s = .ok (sig, m1))
    {pretty : Bool} (hprint : ∀ j, m1.marshal = .ok j → env.parse (env.print pretty j) = some j) :
    ∃ data, toBytes env m1 pretty = .ok data ∧
      (sig.keyID ∉ signatureIDs m → fromBytes env data = .ok { m1 with signed := read m1.signed } ∧ GoodDocument env P { m1 with signed := read m1.signed }) ∧
      (sig.keyID ∈ signatureIDs m → ∃ e, (fromBytes env data : Res (Metadata T)) = .err e) := by
  obtain ⟨e1, e2, e3, _⟩ := C08_sign_appends h
  have hs : ∀ s ∈ m1.signatures.elems, GoodFields env [b!"keyid", b!"sig"] s.unrec := by
    intro x hx
    rw [e3, List.mem_append, List.mem_singleton] at hx
    rcases hx with hx | rfl
    · exact hg.signatures x hx
    · rw [sign_fields h]; exact goodFields_nil _
  have hf : GoodFields env [b!"signed", b!"signatures"] m1.unrec := e2 ▸ hg.fields
  have hP : P m1.signed := e1 ▸ hg.signed
  obtain ⟨data, h1, h2⟩ := publish_decode hT.rt hP hs hf hprint
  refine ⟨data, h1, fun hn => ?_, fun hi => ?_⟩
  · have hd : (m1.signatures.elems.map Signature.keyID).Nodup := by
      rw [e3, List.map_append, List.nodup_append]
      refine ⟨hg.distinct, by simp, ?_⟩
      intro a ha b hb hab
      simp only [List.map_cons, List.map_nil, List.mem_singleton] at hb
      exact hn (hb ▸ hab ▸ ha)
    rw [h2, show checkUniqueSignatures m1 = .ok () from checkUnique_ok.2 ⟨hd, by simp⟩]
    exact ⟨rfl, ⟨hT.good _ hP, hs, hd, hf⟩⟩
  · rw [h2]
    rcases checkUnique_cases [] m1.signatures.elems with hc | hc
    · have hd := (checkUnique_ok.1 hc).1
      rw [e3, List.map_append, List.nodup_append] at hd
      exact absurd rfl (hd.2.2 sig.keyID hi sig.keyID (by simp))
    · unfold checkUniqueSignatures
      rw [hc]
      exact ⟨_, rfl⟩

theorem signedBy_cons {m m1 m' : Metadata T} {s : Signer} {ss : List Signer} {sig : Signature} (h : sign env m s = .ok (sig, m1)) (hs : SignedBy env m1 ss m') :
    SignedBy env m (s :: ss) m' := by
  induction hs with
  | nil => exact .snoc (ss := []) .nil h
  | snoc _ h2 ih => exact .snoc (ss := s :: _) ih h2

theorem signedBy_transfer {m1 m2 m' : Metadata T} {ss : List Signer} (hp : payload m1.signed = payload m2.signed) (he : m1.signatures.elems = m2.signatures.elems)
    (h : SignedBy env m2 ss m') : ∃ m'', SignedBy env m1 ss m'' ∧ m''.signatures.elems = m'.signatures.elems := by
  induction h with
  | nil => exact ⟨m1, .nil, he⟩
  | snoc h1 h2 ih =>
    obtain ⟨n, i1, i2⟩ := ih
    have hq := sign_same (m' := n) (by rw [signedBy_signed i1, signedBy_signed h1, hp]) h2
    refine ⟨_, .snoc i1 hq, ?_⟩
    obtain ⟨_, _, e3, _⟩ := C08_sign_appends h2
    rw [e3, ← i2]
    rfl

theorem signedBy_unrec {m m' : Metadata T} {ss : List Signer} (h : SignedBy env m ss m') : m'.unrec = m.unrec := by
  induction h with
  | nil => rfl
  | snoc _ h2 ih => rw [(C08_sign_appends h2).2.1, ih]

theorem signerID_unique {s : Signer} {id id' : Str} (h : SignerID env s id) (h' : SignerID env s id') : id = id' := by
  obtain ⟨pk, k, k1, a1, a2, a3⟩ := h
  obtain ⟨pk', k', k1', b1, b2, b3⟩ := h'
  rw [a1] at b1; cases b1
  rw [a2] at b2; cases b2
  rw [a3] at b3; cases b3
  rfl

theorem cosigned_same (hT : Rereads env P read) {m m3 : Metadata T} {ss : List Signer} (hg : GoodDocument env P m) (h : Cosigned env m ss m3) :
    GoodDocument env P m3 ∧ (∃ m', SignedBy env m ss m' ∧ m3.signatures.elems = m'.signatures.elems) ∧ m3.unrec = m.unrec ∧
      RoleType.marshal m3.signed = RoleType.marshal m.signed := by
  induction h with
  | nil => exact ⟨hg, ⟨_, .nil, rfl⟩, rfl, rfl⟩
  | @cons m m1 m2 m3 s ss sig pretty data h1 h2 h3 h4 _ ih =>
    obtain ⟨d, g1, g2, g3⟩ := cosign_step hT hg h1 h3
    rw [h2] at g1
    cases g1
    by_cases hi : sig.keyID ∈ signatureIDs m
    · obtain ⟨e, he⟩ := g3 hi
      rw [h4] at he
      cases he
    · obtain ⟨k1, k2⟩ := g2 hi
      rw [h4] at k1
      cases k1
      obtain ⟨j1, ⟨n, j2, j3⟩, j4, j5⟩ := ih k2
      obtain ⟨e1, e2, e3, _⟩ := C08_sign_appends h1
      obtain ⟨n', l1, l2⟩ := signedBy_transfer (m1 := m1) (m2 := { m1 with signed := read m1.signed }) (hT.payload m1.signed).symm rfl j2
      exact ⟨j1, ⟨n', signedBy_cons h1 l1, by rw [l2, j3]⟩, by rw [j4]; exact e2, by rw [j5, hT.marshal, e1]⟩

theorem signedBy_distinct {m m' : Metadata T} {ss : List Signer} (h : SignedBy env m ss m') (hd : (signatureIDs m').Nodup) :
    (signatureIDs m).Nodup ∧ (∀ id ∈ signatureIDs m, id ∈ signatureIDs m') ∧ (∀ s ∈ ss, ∀ id, SignerID env s id → id ∈ signatureIDs m' ∧ id ∉ signatureIDs m) ∧
      ss.Pairwise (fun s s' => ∀ id, SignerID env s id → ¬ SignerID env s' id) := by
  induction h with
  | nil => exact ⟨hd, fun _ h => h, by simp, .nil⟩
  | @snoc m1 m2 ss s sig h1 h2 ih =>
    obtain ⟨_, _, e3, e4, _⟩ := C08_sign_appends h2
    unfold signatureIDs at hd ⊢
    rw [e3, List.map_append, List.nodup_append] at hd
    obtain ⟨i1, i2, i3, i4⟩ := ih hd.1
    have hn : sig.keyID ∉ signatureIDs m1 := fun hc => hd.2.2 sig.keyID hc sig.keyID (by simp) rfl
    rw [e3, List.map_append]
    refine ⟨i1, fun id hid => List.mem_append_left _ (i2 id hid), ?_, ?_⟩
    · intro s' hs' id hid
      rw [List.mem_append, List.mem_singleton] at hs'
      rcases hs' with hs' | rfl
      · exact ⟨List.mem_append_left _ (i3 s' hs' id hid).1, (i3 s' hs' id hid).2⟩
      · have := signerID_unique hid e4
        subst this
        exact ⟨List.mem_append_right _ (by simp), fun hc => hn (i2 _ hc)⟩
    · rw [List.pairwise_append]
      refine ⟨i4, by simp, ?_⟩
      intro a ha b hb id hida hidb
      rw [List.mem_singleton] at hb
      subst hb
      have := signerID_unique hidb e4
      subst this
      exact hn (i3 a ha _ hida).1

theorem cosigned_snoc {m m1 m2 m3 : Metadata T} {s : Signer} {ss : List Signer} {sig : Signature} {pretty : Bool} {data : Bytes} (h : Cosigned env m ss m1)
    (h1 : sign env m1 s = .ok (sig, m2)) (h2 : toBytes env m2 pretty = .ok data) (h3 : ∀ j, m2.marshal = .ok j → env.parse (env.print pretty j) = some j)
    (h4 : fromBytes env data = .ok m3) : Cosigned env m (ss ++ [s]) m3 := by
  induction h with
  | nil => exact .cons h1 h2 h3 h4 .nil
  | cons a1 a2 a3 a4 _ ih => exact .cons a1 a2 a3 a4 (ih h1)

theorem cosigned_possible (hT : Rereads env P read) {m m' : Metadata T} {ss : List Signer} {pretty : Bool} (hg : GoodDocument env P m) (h : SignedBy env m ss m')
    (hd : (signatureIDs m').Nodup)
    (hprint : ∀ pre m1 j, pre <+: ss → SignedBy env m pre m1 → m1.marshal = .ok j → env.parse (env.print pretty j) = some j) :
    ∃ m3, Cosigned env m ss m3 ∧ m3.signatures.elems = m'.signatures.elems := by
  induction h with
  | nil => exact ⟨_, .nil, rfl⟩
  | @snoc m1 m2 ss s sig h1 h2 ih =>
    obtain ⟨e1, e2, e3, e4, _⟩ := C08_sign_appends h2
    have hd2 := hd
    unfold signatureIDs at hd
    rw [e3, List.map_append, List.nodup_append] at hd
    obtain ⟨n, i1, i2⟩ := ih hd.1 (fun pre x j hp => hprint pre x j (hp.trans (List.prefix_append _ _)))
    obtain ⟨j1, _, j3, j4⟩ := cosigned_same hT hg i1
    have hpay : payload n.signed = payload m1.signed := by
      show RoleType.marshal _ >>= canonical = RoleType.marshal _ >>= canonical
      rw [j4, signedBy_signed h1]
    have hsn := sign_same (m' := n) hpay h2
    have hm2 : m2.signatures = some (n.signatures.elems ++ [sig]) := by
      rw [i2]
      unfold sign at h2
      obtain ⟨p, q1, h2⟩ := Res.bind_eq_ok.1 h2
      obtain ⟨sb, q2, h2⟩ := Res.bind_eq_ok.1 h2
      obtain ⟨pk, q3, h2⟩ := Res.bind_eq_ok.1 h2
      obtain ⟨key, q4, h2⟩ := Res.bind_eq_ok.1 h2
      obtain ⟨⟨id, k'⟩, q5, h2⟩ := Res.bind_eq_ok.1 h2
      cases h2
      rfl
    have hmar : ({ n with signatures := some (n.signatures.elems ++ [sig]) } : Metadata T).marshal = m2.marshal := by
      unfold Metadata.marshal
      dsimp only
      rw [j4, j3, e1, e2, signedBy_signed h1, hm2, signedBy_unrec h1]
    have hpr : ∀ j, ({ n with signatures := some (n.signatures.elems ++ [sig]) } : Metadata T).marshal = .ok j → env.parse (env.print pretty j) = some j :=
      fun j hj => hprint _ m2 j (List.prefix_refl _) (.snoc h1 h2) (hmar ▸ hj)
    obtain ⟨data, k1, k2, _⟩ := cosign_step hT j1 hsn hpr
    have hnew : sig.keyID ∉ signatureIDs n := by
      unfold signatureIDs
      rw [i2]
      exact fun hc => hd.2.2 sig.keyID hc sig.keyID (by simp) rfl
    obtain ⟨l1, _⟩ := k2 hnew
    exact ⟨_, cosigned_snoc i1 hsn k1 hpr l1, by rw [hm2]⟩

theorem cosigningWorks (hT : Rereads env P read) : CosigningWorks env P where
  same m m3 ss hg h := by
    obtain ⟨_, ⟨m', h1, h2⟩, h3, h4⟩ := cosigned_same hT hg h
    exact ⟨m', h1, h2, h3, h4⟩
  distinct m m3 ss hg h := by
    obtain ⟨h0, ⟨m', h1, h2⟩, h3, h4⟩ := cosigned_same hT hg h
    have hd : (signatureIDs m').Nodup := by unfold signatureIDs; rw [← h2]; exact h0.distinct
    obtain ⟨_, _, g1, g2⟩ := signedBy_distinct h1 hd
    exact ⟨g2, fun s hs id hid => (g1 s hs id hid).2⟩
  possible m m' ss pretty hg h hd hp := by
    obtain ⟨m3, h1, _⟩ := cosigned_possible hT hg h hd hp
    exact ⟨m3, h1⟩
  refused m m1 m3 s sig data pretty hg h hi hb hp := by
    obtain ⟨d, h1, _, h2⟩ := cosign_step hT hg h hp
    rw [hb] at h1
    cases h1
    obtain ⟨e, he⟩ := h2 hi
    rw [he]
    simp

end

/-! ## C115 -/

/-- C115 for root metadata. -/
theorem C115_root (laws : EnvLaws env) : CosigningWorks env (GoodRoot env) := cosigningWorks (rereadsRoot laws)
/-- C115 for snapshot metadata. -/
theorem C115_snapshot (laws : EnvLaws env) : CosigningWorks env (GoodSnapshot env) := cosigningWorks (rereadsSnapshot laws)
/-- C115 for timestamp metadata. -/
theorem C115_timestamp (laws : EnvLaws env) : CosigningWorks env (GoodTimestamp env) := cosigningWorks (rereadsTimestamp laws)
/-- C115 for targets metadata. -/
theorem C115_targets (laws : EnvLaws env) : CosigningWorks env (GoodTargets env) := cosigningWorks (rereadsTargets laws)

end Tuf
