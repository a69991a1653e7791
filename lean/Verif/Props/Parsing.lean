import Verif.Proofs.Parsing
import Verif.Proofs.Trusted
import Verif.Props.Trusted

/-!
# Parsing (C19, C21, C22)
-/

namespace Tuf
open Spec Sample

/-! ## C19 -/

/-- C19 for `FromBytes`: it accepts only documents that declare the expected type (in the last member spelled exactly `signed`, and there in the
last member spelled exactly `_type`). -/
theorem C19_declared {T : Type} [RoleType T] {env : Env} {data : Bytes} {m : Metadata T} (h : fromBytes env data = .ok m) :
    ∃ j, env.parse data = some j ∧ Declares j (RoleType.typeName T) := by
  obtain ⟨doc, s, h1, h2, h3, _⟩ := fromBytes_last_signed h
  exact ⟨_, h1, doc, s, rfl, h2, h3⟩

/-- C19 for the value that `FromBytes` returns: it has the expected type if no member of the document and of its signed part is another
spelling (up to case) of `signed` and `_type`. -/
theorem C19_returned_type_partial {env : Env} {data : Bytes} {doc s : List (Str × Json)} (hdoc : env.parse data = some (.obj doc))
    (hs : LastMember doc b!"signed" (.obj s)) (h1 : SpelledExactly doc b!"signed") (h2 : SpelledExactly s b!"_type") :
    (∀ m : Metadata RootType, fromBytes env data = .ok m → m.signed.type = b!"root") ∧
    (∀ m : Metadata TimestampType, fromBytes env data = .ok m → m.signed.type = b!"timestamp") ∧
    (∀ m : Metadata SnapshotType, fromBytes env data = .ok m → m.signed.type = b!"snapshot") ∧
    (∀ m : Metadata TargetsType, fromBytes env data = .ok m → m.signed.type = b!"targets") := by
  refine ⟨?_, ?_, ?_, ?_⟩
  all_goals
    intro m h
    obtain ⟨doc', s', e1, e2, e3, e4⟩ := fromBytes_last_signed h
    rw [hdoc] at e1
    cases e1
    have := hs.functional e2
    cases this
    have hu := e4 h1
  · exact RootType.type_of h2 e3 hu
  · exact TimestampType.type_of h2 e3 hu
  · exact SnapshotType.type_of h2 e3 hu
  · exact TargetsType.type_of h2 e3 hu

/-- A document with the members `signed` (a root) and `Signed` (the same with the type `timestamp`). -/
def Sample.confusingEnv : Env :=
  { repoEnv with parse := fun _ => some (.obj [(b!"signed", .obj [(b!"_type", .str ROOT)]), (b!"Signed", .obj [(b!"_type", .str TIMESTAMP)])]) }

/-- C19 is false for `FromBytes` in general: struct decoding ignores case, the type check does not, so that root metadata of type `timestamp` is returned.
(`New` and `Update*` check the type of the returned value again: `C19_trusted_types`.) -/
theorem C19_type_confusion : (fromBytes (T := RootType) confusingEnv []).map (·.signed.type) = .ok TIMESTAMP := by decide +kernel

/-! ## C22 -/

/-- C22: loaded metadata has at most one signature per key ID. -/
theorem C22_unique_signatures {T : Type} [RoleType T] {env : Env} {data : Bytes} {m : Metadata T} (h : fromBytes env data = .ok m) :
    (m.signatures.elems.map (·.keyID)).Nodup := by
  unfold fromBytes at h
  obtain ⟨_, _, h⟩ := Res.bind_eq_ok.1 h
  obtain ⟨j, _, h⟩ := Res.bind_eq_ok.1 h
  obtain ⟨m', _, h⟩ := Res.bind_eq_ok.1 h
  obtain ⟨_, hc, h⟩ := Res.bind_eq_ok.1 h
  cases h
  exact (checkUnique_ok.1 hc).1

/-- C22: a document that declares the right type and decodes is rejected only if two signatures have the same key ID. -/
theorem C22_rejected_only_then {T : Type} [RoleType T] {env : Env} {data : Bytes} {j : Json} {m : Metadata T} (hp : env.parse data = some j)
    (hn : NumbersFit env j) (ht : Declares j (RoleType.typeName T)) (hm : Metadata.unmarshal env j = .ok m)
    (hu : (m.signatures.elems.map (·.keyID)).Nodup) : fromBytes env data = .ok m := by
  unfold fromBytes
  rw [checkType_ok.2 ⟨j, hp, hn, ht⟩, hp]
  simp only [Res.bind_ok, Res.ofOption_some, hm]
  rw [show checkUniqueSignatures m = .ok () from checkUnique_ok.2 ⟨hu, by simp⟩]
  rfl

/-- Two signatures of key `a`: refused. One: accepted. -/
example : (fromBytes (T := RootType) { env0 with parse := fun _ => some (.obj [(b!"signed", .obj [(b!"_type", .str ROOT)]), (b!"signatures",
      .arr [.obj [(b!"keyid", .str b!"a"), (b!"sig", .str b!"aa")], .obj [(b!"keyid", .str b!"a"), (b!"sig", .str b!"bb")]])]) } []).isOk = false ∧
    (fromBytes (T := RootType) repoEnv [1, 1]).isOk = true := by decide +kernel

/-! ## C21 -/

/-- C21 is false: every document that is a JSON object without `signed._type` makes `FromBytes`, `New` and all `Update*` methods panic (an empty
object, for example). -/
theorem C21_crash {env : Env} {data : Bytes} {j : Json} (hp : env.parse data = some j) (hj : j = .null ∨ ∃ m, j = .obj m)
    (hn : NumbersFit env j) (ht : ∀ ty, ¬ Declares j ty) :
    fromBytes (T := RootType) env data = .panic ∧ fromBytes (T := TimestampType) env data = .panic ∧
    fromBytes (T := SnapshotType) env data = .panic ∧ fromBytes (T := TargetsType) env data = .panic ∧
    (∀ now, Trusted.new env now data = .panic) ∧
    (∀ t : Trusted, t.timestamp = none → t.updateRoot env data = (.panic, t)) := by
  have hc : ∀ want, checkType env want data = .panic := fun want => checkType_panic.2 ⟨j, hp, hj, hn, ht⟩
  have hr : fromBytes (T := RootType) env data = .panic := by unfold fromBytes; rw [hc]; rfl
  refine ⟨hr, ?_, ?_, ?_, ?_, ?_⟩
  · unfold fromBytes; rw [hc]; rfl
  · unfold fromBytes; rw [hc]; rfl
  · unfold fromBytes; rw [hc]; rfl
  · intro now
    unfold Trusted.new loadTrustedRoot
    rw [hr]
    rfl
  · intro t h0
    unfold Trusted.updateRoot Trusted.checkRoot
    rw [h0, hr]
    rfl

/-- The empty object is such a document. -/
example : (∃ m, (Json.obj []) = .obj m) ∧ NumbersFit env0 (.obj []) ∧ ∀ ty, ¬ Declares (.obj []) ty := by
  refine ⟨⟨[], rfl⟩, rfl, ?_⟩
  rintro ty ⟨m, s, h, ⟨p, q, hp, _⟩, _⟩
  cases h
  simp at hp

/-- C21, where it holds: `FromBytes` panics in no other case, except for targets metadata with a `null` target. -/
theorem C21_fromBytes_partial {env : Env} {data : Bytes} {j : Json} (hp : env.parse data = some j) (ht : (∃ ty, Declares j ty) ∨ ¬ NumbersFit env j ∨ (j ≠ .null ∧ ∀ m, j ≠ .obj m)) :
    fromBytes (T := RootType) env data ≠ .panic ∧ fromBytes (T := TimestampType) env data ≠ .panic ∧
    fromBytes (T := SnapshotType) env data ≠ .panic ∧ (¬ HasNullTarget j → fromBytes (T := TargetsType) env data ≠ .panic) := by
  have hc : ∀ want, checkType env want data ≠ .panic := by
    intro want h
    obtain ⟨j', h1, h2, h3, h4⟩ := checkType_panic.1 h
    rw [hp] at h1
    cases h1
    rcases ht with ⟨ty, ht⟩ | ht | ⟨ht, ht'⟩
    · exact h4 ty ht
    · exact ht h3
    · rcases h2 with h2 | ⟨m, h2⟩
      · exact ht h2
      · exact ht' m h2
  refine ⟨?_, ?_, ?_, ?_⟩
  · rw [Ne, fromBytes_panic (RootType.unmarshal_np env)]; exact hc _
  · rw [Ne, fromBytes_panic (TimestampType.unmarshal_np env)]; exact hc _
  · rw [Ne, fromBytes_panic (SnapshotType.unmarshal_np env)]; exact hc _
  · intro hnt h
    rcases fromBytes_targets_panic h with h | ⟨j', h1, h2⟩
    · exact hc _ h
    · rw [hp] at h1; cases h1; exact hnt h2

/-- Bytes that are not JSON never panic. -/
theorem C21_not_json_partial {env : Env} {data : Bytes} (hp : env.parse data = none) {T : Type} [RoleType T] :
    fromBytes (T := T) env data = .err (.other "json") := by
  unfold fromBytes checkType
  rw [hp]
  rfl

theorem marshalRoles_np (rs : List DelegatedRole) : marshalRoles rs ≠ .panic := by
  induction rs with
  | nil => simp [marshalRoles]
  | cons r rs ih =>
    refine Res.bind_ne_panic ?_ (fun _ _ => Res.bind_ne_panic ih (fun _ _ => by simp))
    unfold DelegatedRole.marshal
    dsimp only
    split <;> simp

theorem canonical_np (j : Json) : canonical j ≠ .panic := by unfold canonical; split <;> simp

theorem AnyMeta.payload_np (d : AnyMeta) : d.payload ≠ .panic := by
  cases d with
  | root m => exact Res.bind_ne_panic (by simp [RoleType.marshal, RootType.marshal]) (fun j _ => canonical_np j)
  | snapshot m => exact Res.bind_ne_panic (by simp [RoleType.marshal, SnapshotType.marshal]) (fun j _ => canonical_np j)
  | timestamp m => exact Res.bind_ne_panic (by simp [RoleType.marshal, TimestampType.marshal]) (fun j _ => canonical_np j)
  | targets m =>
    refine Res.bind_ne_panic ?_ (fun j _ => canonical_np j)
    show TargetsType.marshal m.signed ≠ .panic
    unfold TargetsType.marshal
    dsimp only
    split
    · simp
    · refine Res.bind_ne_panic ?_ (fun _ _ => by simp)
      unfold Delegations.marshal
      dsimp only
      split
      · exact Res.bind_ne_panic (marshalRoles_np _) (fun _ _ => by simp)
      · split <;> simp
  | other => simp [AnyMeta.payload]

theorem Key.toPublicKey_np (env : Env) (k : Key) : k.toPublicKey env ≠ .panic := by
  unfold Key.toPublicKey
  repeat' split
  all_goals simp

theorem noNil_get {α : Type} {m : GoMap (Option α)} (h : NoNil m) {k : Str} {v : Option α} (hv : m.get? k = some v) : v.isSome :=
  h (k, v) (Entries.mem_of_get? hv)

theorem toPublicKey_length {env : Env} {k : Key} {m : Bytes} (h : k.toPublicKey env = .ok (.ed25519 m)) : k.type = b!"ed25519" ∧ hexDecode k.value.publicKey = some m := by
  unfold Key.toPublicKey at h
  repeat' split at h
  all_goals first | (cases h; done) | skip
  all_goals simp_all [KeyTypeEd25519]

theorem verifyLoop_np {env : Env} (hv : PanicsOnlyOnLength env) {keys : GoMap (Option Key)} (hk : SolidKeys keys)
    (d : AnyMeta) (ids acc : List Str) : verifyLoop env keys d ids acc ≠ .panic := by
  induction ids generalizing acc with
  | nil => simp [verifyLoop]
  | cons id r ih =>
    refine Res.bind_ne_panic ?_ (fun _ _ => ih _)
    unfold verifyWithKey
    split
    · simp
    · next key hkey =>
      obtain ⟨k, rfl⟩ := Option.isSome_iff_exists.1 (noNil_get hk.1 hkey)
      simp only [Res.deref_some, Res.bind_ok]
      refine Res.bind_ne_panic (Key.toPublicKey_np env k) (fun pk hpk => ?_)
      split
      · simp
      · refine Res.bind_ne_panic (AnyMeta.payload_np d) (fun p _ => ?_)
        cases h : env.verifySig pk (hashFor k) (pickSignature id d.signatures).sig p with
        | ok u => simp
        | err e => simp
        | panic =>
          obtain ⟨m, rfl, hm⟩ := hv _ _ _ _ h
          exact absurd (toPublicKey_length hpk) (fun hl => hk.2 id k hkey ⟨hl.1, m, hl.2, hm⟩)

/-- Delegators without `null` entries and keys of a wrong length. -/
def Spec.SolidDelegator : AnyMeta → Prop
  | .root m => SolidRoot m
  | .targets m => SolidTargets m
  | _ => True

theorem verifyDelegate_np {env : Env} (hv : PanicsOnlyOnLength env) {D : AnyMeta} (hD : SolidDelegator D)
    (role : Str) (d : AnyMeta) : verifyDelegate env D role d ≠ .panic := by
  have tail : ∀ (x : GoMap (Option Key) × List Str × Int), SolidKeys x.1 →
      (if x.2.1 = [] then Res.err (.value "no delegation found")
       else do
        let signingKeys ← verifyLoop env x.1 d x.2.1 []
        if (signingKeys.length : Int) < x.2.2 then .err (.unsignedMetadata "not enough signatures")
        else .ok ()) ≠ Res.panic := by
    intro x hx
    split
    · simp
    · refine Res.bind_ne_panic (verifyLoop_np hv hx d _ _) (fun a _ => ?_)
      split <;> simp
  unfold verifyDelegate
  cases h : delegationOf D role with
  | err e => simp
  | ok x =>
    rw [Res.bind_ok]
    refine tail x ?_
    unfold delegationOf at h
    split at h
    · next m =>
      split at h
      · obtain ⟨r, _, h⟩ := Res.bind_eq_ok.1 h
        cases h
        exact hD.1
      · cases h
    · next m =>
      split at h
      · cases h
      · next dl hdl =>
        have hkeys := hD dl hdl
        split at h
        · split at h <;> cases h
          exact hkeys
        · split at h <;> cases h <;> exact hkeys
    · cases h
  | panic =>
    exfalso
    unfold delegationOf at h
    split at h
    · next m =>
      split at h
      · next r hr =>
        obtain ⟨r', rfl⟩ := Option.isSome_iff_exists.1 (noNil_get hD.2 hr)
        cases h
      · cases h
    · next m =>
      split at h
      · cases h
      · split at h
        · split at h <;> cases h
        · split at h <;> cases h
    · cases h

theorem verifyHashes_np (env : Env) (data : Bytes) (es : Entries Bytes) : verifyHashes env data es ≠ .panic := by
  induction es with
  | nil => simp [verifyHashes]
  | cons e r ih =>
    obtain ⟨k, v⟩ := e
    unfold verifyHashes
    repeat' split
    all_goals first | exact ih | simp

theorem metaVerify_np (env : Env) (f : MetaFiles) (data : Bytes) : f.verifyLengthHashes env data ≠ .panic := by
  rw [metaVerify_eq]
  refine Res.bind_ne_panic ?_ (fun _ _ => ?_)
  · exact verifyHashes_np _ _ _
  · split
    · unfold verifyLength; split <;> simp
    · simp

/-- The trusted set holds no `null` where a value is needed, and no Ed25519 key of a wrong length. -/
structure Spec.SolidSet (t : Trusted) : Prop where
  root : SolidRoot t.root
  timestamp : ∀ m, t.timestamp = some m → SolidTimestamp m
  snapshot : ∀ m, t.snapshot = some m → SolidSnapshot m
  targets : ∀ r m, t.targets.get? r = some m → SolidTargets m
  order : t.snapshot.isSome → t.timestamp.isSome

/-- The document of a call declares a type and has no `null` where a value is needed, and no Ed25519 key of a wrong length. -/
def Spec.SolidCall (env : Env) : Call → Prop
  | .root d => (∀ j, env.parse d = some j → ∃ ty, Declares j ty) ∧ ∀ m, ParsesTo env d m → SolidRoot m
  | .timestamp d => (∀ j, env.parse d = some j → ∃ ty, Declares j ty) ∧ ∀ m, ParsesTo env d m → SolidTimestamp m
  | .snapshot d _ => (∀ j, env.parse d = some j → ∃ ty, Declares j ty) ∧ ∀ m, ParsesTo env d m → SolidSnapshot m
  | .targets d _ _ => (∀ j, env.parse d = some j → (∃ ty, Declares j ty) ∧ ¬ HasNullTarget j) ∧ ∀ m, ParsesTo env d m → SolidTargets m

theorem fromBytes_np_of_solid {env : Env} {data : Bytes} :
    ((∀ j, env.parse data = some j → ∃ ty, Declares j ty) → fromBytes (T := RootType) env data ≠ .panic ∧
      fromBytes (T := TimestampType) env data ≠ .panic ∧ fromBytes (T := SnapshotType) env data ≠ .panic) ∧
    ((∀ j, env.parse data = some j → (∃ ty, Declares j ty) ∧ ¬ HasNullTarget j) → fromBytes (T := TargetsType) env data ≠ .panic) := by
  cases hp : env.parse data with
  | none =>
    refine ⟨fun _ => ⟨?_, ?_, ?_⟩, fun _ => ?_⟩
    all_goals rw [C21_not_json_partial hp]; simp
  | some j =>
    refine ⟨fun h => ?_, fun h => ?_⟩
    · obtain ⟨h1, h2, h3, _⟩ := C21_fromBytes_partial hp (.inl (h j rfl))
      exact ⟨h1, h2, h3⟩
    · exact (C21_fromBytes_partial hp (.inl (h j rfl).1)).2.2.2 (h j rfl).2

theorem outcome_np {α : Type} {r : Res α} (h : r ≠ .panic) : outcome r ≠ .panic := by cases r <;> simp_all [outcome]

/-- C21 for `Update*`, where it holds: without `null` values and Ed25519 keys of a wrong length in the trusted set and the document, no call
panics, and the trusted set stays free of them. -/
theorem C21_update_partial {env : Env} (hv : PanicsOnlyOnLength env) {t : Trusted} (ht : SolidSet t) (c : Call)
    (hc : SolidCall env c) : (c.run env t).1 ≠ .panic ∧ SolidSet (c.run env t).2 := by
  have solid : ∀ t', Change env t c t' → SolidSet t' := by
    intro t' hch
    cases hch with
    | none => exact ht
    | root ha => exact ⟨hc.2 _ ha.parsed, ht.timestamp, ht.snapshot, ht.targets, ht.order⟩
    | timestamp ha => exact ⟨ht.root, fun m hm => by cases hm; exact hc.2 _ ha.parsed, ht.snapshot, ht.targets, fun _ => rfl⟩
    | snapshot ha => exact ⟨ht.root, ht.timestamp, fun m hm => by cases hm; exact hc.2 _ ha.parsed, ht.targets,
        fun _ => by obtain ⟨ts, h, _⟩ := ha.timestamp; simp [h]⟩
    | @targets d r p new ha =>
      refine ⟨ht.root, ht.timestamp, ht.snapshot, fun r' m hm => ?_, ht.order⟩
      have hm' : (t.targets.set r new).get? r' = some m := hm
      rw [Entries.get?_set] at hm'
      split at hm'
      · cases hm'; exact hc.2 _ ha.parsed
      · exact ht.targets r' m hm'
  refine ⟨?_, solid _ (run_change env t c)⟩
  cases c with
  | root d =>
    have hf := (fromBytes_np_of_solid.1 hc.1).1
    refine outcome_np ?_
    have : t.checkRoot env d ≠ .panic := by
      unfold Trusted.checkRoot
      split
      · simp
      · refine Res.bind_ne_panic hf (fun m hm => ?_)
        split
        · simp
        · refine Res.bind_ne_panic (verifyDelegate_np hv (D := .root t.root) ht.root _ _) (fun _ _ => ?_)
          split
          · simp
          · exact Res.bind_ne_panic (verifyDelegate_np hv (D := .root m) (hc.2 m hm) _ _) (fun _ _ => by simp)
    unfold Trusted.updateRoot
    split <;> simp_all
  | timestamp d =>
    have hf := (fromBytes_np_of_solid.1 hc.1).2.1
    refine outcome_np ?_
    have : t.checkTimestamp env d ≠ .panic := by
      unfold Trusted.checkTimestamp
      split
      · simp
      · split
        · simp
        · refine Res.bind_ne_panic hf (fun m hm => ?_)
          split
          · simp
          · refine Res.bind_ne_panic (verifyDelegate_np hv (D := .root t.root) ht.root _ _) (fun _ _ => ?_)
            split
            · simp
            · next old hold =>
              refine Res.bind_ne_panic ?_ (fun _ _ => by simp)
              obtain ⟨f, hfo⟩ := ht.timestamp old hold
              obtain ⟨g, hgn⟩ := hc.2 m hm
              have h1 : old.signed.metas.ptr (jsonName SNAPSHOT) = some f := ptr_eq_some.2 hfo
              have h2 : m.signed.metas.ptr (jsonName SNAPSHOT) = some g := ptr_eq_some.2 hgn
              unfold checkTimestampRollback
              rw [h1, h2]
              simp only [Res.deref_some, Res.bind_ok]
              repeat' split
              all_goals simp
    unfold Trusted.updateTimestamp
    split
    · next new _ =>
      simp only [Trusted.checkFinalTimestamp, Res.deref_some, Res.bind_ok]
      split
      · simp
      · simp
      · next h => split at h <;> cases h
    · simp
    · contradiction
  | snapshot d b =>
    have hf := (fromBytes_np_of_solid.1 hc.1).2.2
    refine outcome_np ?_
    have hch : t.checkSnapshot env d b ≠ .panic := by
      unfold Trusted.checkSnapshot
      split
      · simp
      · next ts hts =>
        split
        · simp
        · obtain ⟨f, hfo⟩ := ht.timestamp ts hts
          have h1 : ts.signed.metas.ptr (jsonName SNAPSHOT) = some f := ptr_eq_some.2 hfo
          refine Res.bind_ne_panic ?_ (fun _ _ => ?_)
          · unfold Trusted.checkFinalTimestamp
            rw [hts]
            simp only [Res.deref_some, Res.bind_ok]
            split <;> simp
          · have tail : ∀ u : Unit, (do
                let new ← fromBytes (T := SnapshotType) env d
                if new.signed.type ≠ SNAPSHOT then Res.err (.repository "expected snapshot")
                else do
                  verifyDelegate env (.root t.root) SNAPSHOT (.snapshot new)
                  match t.snapshot with
                  | none => .ok new
                  | some old => do
                    checkSnapshotRollback new.signed.metas old.signed.metas.entries
                    .ok new) ≠ Res.panic := by
              intro _
              refine Res.bind_ne_panic hf (fun m hm => ?_)
              split
              · simp
              · refine Res.bind_ne_panic (verifyDelegate_np hv (D := .root t.root) ht.root _ _) (fun _ _ => ?_)
                split
                · simp
                · next old hold =>
                  refine Res.bind_ne_panic ?_ (fun _ _ => by simp)
                  have hnew := hc.2 m hm
                  have : ∀ es : Entries (Option MetaFiles), AllSome es → checkSnapshotRollback m.signed.metas es ≠ .panic := by
                    intro es
                    induction es with
                    | nil => intro _; simp [checkSnapshotRollback]
                    | cons e r ih =>
                      obtain ⟨name, info⟩ := e
                      intro hall
                      obtain ⟨o, rfl⟩ := Option.isSome_iff_exists.1 (hall (name, info) (by simp))
                      unfold checkSnapshotRollback
                      split
                      · simp
                      · next nf hnf =>
                        obtain ⟨n, rfl⟩ := Option.isSome_iff_exists.1 (noNil_get hnew hnf)
                        simp only [Res.deref_some, Res.bind_ok]
                        split
                        · simp
                        · exact ih (fun e he => hall e (List.mem_cons_of_mem _ he))
                  exact this _ (ht.snapshot old hold)
            dsimp only
            by_cases hb : b = false
            · rw [if_pos hb, h1]
              simp only [Res.deref_some, Res.bind_ok]
              exact Res.bind_ne_panic (metaVerify_np env f d) (fun _ _ => tail ())
            · rw [if_neg hb]
              exact tail ()
    unfold Trusted.updateSnapshot
    split
    · next new hnew =>
      obtain ⟨ts, hts, _⟩ := (checkSnapshot_ok.1 hnew).timestamp
      obtain ⟨f, hfo⟩ := ht.timestamp ts hts
      have h1 : ts.signed.metas.ptr (jsonName SNAPSHOT) = some f := ptr_eq_some.2 hfo
      have : ({ t with snapshot := some new } : Trusted).checkFinalSnapshot ≠ .panic := by
        unfold Trusted.checkFinalSnapshot
        simp only [Res.deref_some, Res.bind_ok]
        split
        · simp
        · rw [hts]
          simp only [Res.deref_some, Res.bind_ok, h1]
          split <;> simp
      simp only
      split
      · simp
      · simp
      · contradiction
    · simp
    · contradiction
  | targets d r p =>
    have hf := fromBytes_np_of_solid.2 hc.1
    refine outcome_np ?_
    have : t.checkTargets env d r p ≠ .panic := by
      unfold Trusted.checkTargets
      split
      · simp
      · next sn hsn =>
        refine Res.bind_ne_panic ?_ (fun _ _ => ?_)
        · unfold Trusted.checkFinalSnapshot
          rw [hsn]
          simp only [Res.deref_some, Res.bind_ok]
          split
          · simp
          · cases hts : t.timestamp with
            | none => have := ht.order (by rw [hsn]; rfl); rw [hts] at this; cases this
            | some ts =>
              obtain ⟨f, hfo⟩ := ht.timestamp ts hts
              have h1 : ts.signed.metas.ptr (jsonName SNAPSHOT) = some f := ptr_eq_some.2 hfo
              simp only [Res.deref_some, Res.bind_ok, h1]
              split <;> simp
        · split
          · simp
          · next D hD =>
            split
            · simp
            · next m hm =>
              obtain ⟨f, rfl⟩ := Option.isSome_iff_exists.1 (noNil_get (ht.snapshot sn hsn) hm)
              simp only [Res.deref_some, Res.bind_ok]
              refine Res.bind_ne_panic (metaVerify_np env f d) (fun _ _ => Res.bind_ne_panic hf (fun m hm => ?_))
              split
              · simp
              · refine Res.bind_ne_panic (verifyDelegate_np hv ?_ _ _) (fun _ _ => ?_)
                · cases delegator_iff.1 hD with
                  | root => exact ht.root
                  | targets _ h => exact ht.targets _ _ h
                · repeat' split
                  all_goals simp
    unfold Trusted.updateDelegatedTargets
    split <;> simp_all

/-- The hypothesis of `C21_update_partial` holds for the sample repository: a fresh set has no nil entries, and so have its documents. -/
example : ((start [1, 1]).map fun t => t.root.signed.keys.entries.all (·.2.isSome) && t.root.signed.roles.entries.all (·.2.isSome) &&
      t.timestamp.isNone && t.snapshot.isNone && t.targets.isEmpty) = .ok true ∧
    ((fromBytes (T := TimestampType) repoEnv [2, 4]).map fun m => (m.signed.metas.ptr b!"snapshot.json").isSome) = .ok true := by
  decide +kernel

/-- A correctly signed timestamp that does not list the snapshot makes the next `UpdateSnapshot` panic. -/
theorem C21_missing_entry_crash :
    let env := { repoEnv with parse := fun b => match b with
      | [2, 9] => some (doc TIMESTAMP 9 b!"2030" [(b!"meta", .obj [])])
      | b => repoEnv.parse b }
    (do let t ← Trusted.new env now [1, 1]
        let r1 := Call.run env t (.timestamp [2, 9])
        .ok (r1.1, (Call.run env r1.2 (.snapshot [3, 9] false)).1)) = .ok (.ok (), .panic) := by decide +kernel

/-- A correctly signed targets document with a `null` target makes `FromBytes` panic. -/
theorem C21_null_target_crash :
    outcome (fromBytes (T := TargetsType)
      { env0 with parse := fun _ => some (doc TARGETS 1 b!"2030" [(b!"targets", .obj [(b!"f", .null)])]) } []) = .panic := by
  decide +kernel

/-- A role with an Ed25519 key of a wrong length (say, a public key that was shortened): whoever verifies a document of the role crashes, unless an error comes first. The keys that
are listed before it are usable; whether their signatures are good does not matter. -/
theorem C21_length_crash {env : Env} (hv : PanicsOnLength env) {D d : AnyMeta} {role : Str} {keys : GoMap (Option Key)} {before after : List Str} {id : Str} {t : Int} {k : Key}
    {sigs : List Signature} {p : Bytes} (hd : Delegates D role keys (before ++ id :: after) t) (hk : keys.get? id = some (some k)) (hl : WrongLength k) (hc : Carries d sigs p)
    (hb : ∀ i ∈ before, Decided env keys d i) : verifyDelegate env D role d = .panic := by
  obtain ⟨ht, m, hm, hlen⟩ := hl
  obtain ⟨h1, h2, h3⟩ := hv m hlen
  have hp : d.payload = .ok p := (carries_iff.1 hc).2
  have hver : k.toPublicKey env = .ok (.ed25519 m) ∧ hashFor k = .none ∧ env.loadVerifier (.ed25519 m) .none = true := verifierOf_iff.1 (.ed25519 ht hm h1 h2)
  have hbad : verifyWithKey env keys d id = .panic := by
    unfold verifyWithKey
    rw [hk]
    simp only [Res.deref_some, Res.bind_ok, hver.1, hver.2.1, h2, hp]
    rw [h3]
    rfl
  have hdel : delegationOf D role = .ok (keys, before ++ id :: after, t) := (delegationOf_ok_iff (by simp)).2 hd
  have hloop : ∀ acc, verifyLoop env keys d (before ++ id :: after) acc = .panic := by
    clear hd hdel
    induction before with
    | nil =>
      intro acc
      show (verifyWithKey env keys d id >>= _) = _
      rw [hbad]
      rfl
    | cons i r ih =>
      intro acc
      have hx : ∃ good, verifyWithKey env keys d i = .ok good := verifyWithKey_ok_iff.2 (hb i (by simp))
      obtain ⟨good, hg⟩ := hx
      show (verifyWithKey env keys d i >>= _) = _
      rw [hg, Res.bind_ok]
      exact ih (fun j hj => hb j (by simp [hj])) _
  unfold verifyDelegate
  rw [hdel]
  simp only [Res.bind_ok]
  rw [if_neg (by simp), hloop]
  rfl

namespace Sample

/-- Verifiers that panic for Ed25519 keys of a wrong length and accept every other signature that is not empty. -/
def lengthVerify (pk : PublicKey) (_ : HashFn) (sig _ : Bytes) : Res Unit :=
  match pk with
  | .ed25519 m => if m.length ≠ 32 then .panic else if sig ≠ [] then .ok () else .err (.other "bad signature")
  | _ => if sig ≠ [] then .ok () else .err (.other "bad signature")

/-- The sample repository, whose root has a key of 32 bytes; the delegated role `d` has a key of one byte. -/
def lengthEnv : Env := { repoEnv with
  verifySig := lengthVerify
  parse := fun b => match b with
    | [1, 1] => some (doc ROOT 1 b!"2030" [(b!"consistent_snapshot", .bool true), (b!"keys", .obj [(b!"a", .obj [(b!"keytype", .str b!"ed25519"), (b!"scheme", .str b!"ed25519"),
        (b!"keyval", .obj [(b!"public", .str (List.replicate 64 97))])])]),
        (b!"roles", .obj [(ROOT, roleJ), (TIMESTAMP, roleJ), (SNAPSHOT, roleJ), (TARGETS, roleJ)])])
    | b => repoEnv.parse b }

end Sample

/-- The hypotheses about verifiers of `C21_update_partial` and `C21_length_crash` can be met. -/
example : PanicsOnlyOnLength lengthEnv ∧ PanicsOnLength lengthEnv := by
  refine ⟨fun pk h sig p hp => ?_, fun m hm => ⟨rfl, rfl, fun sig p => if_pos hm⟩⟩
  have hp : lengthVerify pk h sig p = .panic := hp
  cases pk with
  | ed25519 m =>
    unfold lengthVerify at hp
    dsimp only at hp
    split at hp
    · next h => exact ⟨m, rfl, h⟩
    · split at hp <;> cases hp
  | _ => unfold lengthVerify at hp; dsimp only at hp; split at hp <;> cases hp

/-- A key of a wrong length in a delegation of correctly signed targets metadata: the client that loads the delegated role crashes. -/
theorem C21_length_client_crash : PanicsOnLength lengthEnv ∧ (session { ctx with env := lengthEnv } [] (refresh { ctx with env := lengthEnv })).1 = .ok () ∧
    ((session { ctx with env := lengthEnv } [] (getTargetInfo { ctx with env := lengthEnv } b!"d/g")).1.map fun _ => ()) = .panic :=
  ⟨fun m hm => ⟨rfl, rfl, fun sig p => if_pos hm⟩, by decide +kernel, by decide +kernel⟩

end Tuf
