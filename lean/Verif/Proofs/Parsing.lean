import Verif.Proofs.Spelling
import Verif.Proofs.Decode
import Verif.Spec.Document

/-! Proofs about `FromBytes`: the type check, the signature check, panics. -/

namespace Tuf
open Spec

theorem Spec.LastMember.functional {m : List (Str × Json)} {k : Str} {j j' : Json} (h : LastMember m k j) (h' : LastMember m k j') : j = j' := by
  obtain ⟨p, q, h1, h2⟩ := h
  obtain ⟨p', q', h3, h4⟩ := h'
  rw [h1] at h3
  rcases List.append_eq_append_iff.1 h3 with ⟨a, ha, hb⟩ | ⟨a, ha, hb⟩
  · cases a with
    | nil => simp at hb; exact hb.1
    | cons x a =>
      simp at hb
      exact absurd rfl (h2 (k, j') (by simp [hb.2]))
  · cases a with
    | nil => simp at hb; exact hb.1.symm
    | cons x a =>
      simp at hb
      exact absurd rfl (h4 (k, j) (by simp [hb.2]))

theorem LastMember_cons {e : Str × Json} {m : List (Str × Json)} {k : Str} {j : Json} :
    LastMember (e :: m) k j ↔ LastMember m k j ∨ (e = (k, j) ∧ ∀ e ∈ m, e.1 ≠ k) := by
  constructor
  · rintro ⟨p, q, h1, h2⟩
    cases p with
    | nil => simp at h1; right; rw [h1.2]; exact ⟨h1.1, h2⟩
    | cons x p => simp at h1; left; exact ⟨p, q, h1.2, h2⟩
  · rintro (⟨p, q, h1, h2⟩ | ⟨rfl, h⟩)
    · exact ⟨e :: p, q, by simp [h1], h2⟩
    · exact ⟨[], m, rfl, h⟩

/-- What assigning all entries to a map leaves under a key. -/
theorem foldl_set_get? (es : List (Str × Json)) (acc : Entries Json) (k : Str) (v : Json) :
    (es.foldl (fun acc e => Entries.set acc e.1 e.2) acc).get? k = some v ↔
      LastMember es k v ∨ ((∀ e ∈ es, e.1 ≠ k) ∧ acc.get? k = some v) := by
  induction es generalizing acc with
  | nil =>
    simp only [List.foldl_nil]
    constructor
    · intro h; exact .inr ⟨by simp, h⟩
    · rintro (⟨p, q, h, _⟩ | ⟨_, h⟩)
      · simp at h
      · exact h
  | cons e r ih =>
    rw [List.foldl_cons, ih, Entries.get?_set, LastMember_cons]
    obtain ⟨k', j'⟩ := e
    constructor
    · rintro (h | ⟨h1, h2⟩)
      · exact .inl (.inl h)
      · split at h2
        · next hk => cases h2; cases hk; exact .inl (.inr ⟨rfl, h1⟩)
        · next hk => exact .inr ⟨List.forall_mem_cons.2 ⟨hk, h1⟩, h2⟩
    · rintro ((h | ⟨h1, h2⟩) | ⟨h1, h2⟩)
      · exact .inl h
      · cases h1; exact .inr ⟨h2, by simp⟩
      · obtain ⟨h3, h1⟩ := List.forall_mem_cons.1 h1
        exact .inr ⟨h1, by rw [if_neg h3]; exact h2⟩

theorem toAny_obj_inv {f : NumLit → Option NumLit} {j : Json} {d : List (Str × Json)} (h : Json.toAny f j = some (.obj d)) :
    ∃ m es, j = .obj m ∧ Json.toAnyFields f m = some es ∧ d = es.foldl (fun acc e => Entries.set acc e.1 e.2) [] := by
  cases j with
  | null => simp [Json.toAny] at h
  | bool b => simp [Json.toAny] at h
  | num n => simp [Json.toAny] at h; obtain ⟨a | a, _, h⟩ := h <;> simp [Json.ofLit] at h
  | frac n => simp [Json.toAny] at h; obtain ⟨a | a, _, h⟩ := h <;> simp [Json.ofLit] at h
  | str s => simp [Json.toAny] at h
  | esc r s => simp [Json.toAny] at h
  | arr l => simp [Json.toAny] at h
  | obj m =>
    simp [Json.toAny] at h
    obtain ⟨es, h1, h2⟩ := h
    exact ⟨m, es, rfl, h1, h2.symm⟩

theorem IsText.functional {j : Json} {s s' : Str} (h : IsText j s) (h' : IsText j s') : s = s' := by
  rcases h with rfl | ⟨_, rfl⟩ <;> rcases h' with h' | ⟨_, h'⟩ <;> cases h' <;> rfl

theorem LastMember.text {m : List (Str × Json)} {k s : Str} (h : LastMember m k (.str s)) : LastText m k s := ⟨_, h, .inl rfl⟩

theorem toAny_str_inv {f : NumLit → Option NumLit} {j : Json} {s : Str} (h : Json.toAny f j = some (.str s)) : IsText j s := by
  cases j with
  | null => simp [Json.toAny] at h
  | bool b => simp [Json.toAny] at h
  | num n => simp [Json.toAny] at h; obtain ⟨a | a, _, h⟩ := h <;> simp [Json.ofLit] at h
  | frac n => simp [Json.toAny] at h; obtain ⟨a | a, _, h⟩ := h <;> simp [Json.ofLit] at h
  | str s => simp [Json.toAny] at h; exact .inl (by rw [h])
  | esc r s => simp [Json.toAny] at h; exact .inr ⟨r, by rw [h]⟩
  | arr l => simp [Json.toAny] at h
  | obj m => simp [Json.toAny] at h

theorem toAnyFields_cons {f : NumLit → Option NumLit} {k : Str} {j : Json} {r es : List (Str × Json)} :
    Json.toAnyFields f ((k, j) :: r) = some es ↔ ∃ a b, Json.toAny f j = some a ∧ Json.toAnyFields f r = some b ∧ es = (k, a) :: b := by
  simp only [Json.toAnyFields]
  constructor
  · intro h
    split at h
    · next a b h1 h2 => cases h; exact ⟨a, b, h1, h2, rfl⟩
    · cases h
  · rintro ⟨a, b, h1, h2, rfl⟩
    rw [h1, h2]

theorem toAnyFields_keys {f : NumLit → Option NumLit} {m es : List (Str × Json)} (h : Json.toAnyFields f m = some es) :
    es.map Prod.fst = m.map Prod.fst := by
  induction m generalizing es with
  | nil => simp [Json.toAnyFields] at h; subst h; rfl
  | cons e r ih =>
    obtain ⟨k, j⟩ := e
    obtain ⟨a, b, h1, h2, rfl⟩ := toAnyFields_cons.1 h
    simp [ih h2]

theorem keys_ne {es m : List (Str × Json)} (h : es.map Prod.fst = m.map Prod.fst) {k : Str} :
    (∀ e ∈ es, e.1 ≠ k) ↔ (∀ e ∈ m, e.1 ≠ k) := by
  have : (∀ x ∈ es.map Prod.fst, x ≠ k) ↔ (∀ x ∈ m.map Prod.fst, x ≠ k) := by rw [h]
  rw [List.forall_mem_map, List.forall_mem_map] at this
  exact this

/-- Last members before and after conversion to `any`. -/
theorem toAnyFields_last {f : NumLit → Option NumLit} {m es : List (Str × Json)} (h : Json.toAnyFields f m = some es) (k : Str) (v : Json) :
    LastMember es k v ↔ ∃ j, LastMember m k j ∧ Json.toAny f j = some v := by
  induction m generalizing es with
  | nil =>
    simp [Json.toAnyFields] at h
    subst h
    constructor
    · rintro ⟨p, q, h, _⟩; simp at h
    · rintro ⟨j, ⟨p, q, h, _⟩, _⟩; simp at h
  | cons e r ih =>
    obtain ⟨k', j'⟩ := e
    obtain ⟨a, b, h1, h2, rfl⟩ := toAnyFields_cons.1 h
    rw [LastMember_cons, ih h2, keys_ne (toAnyFields_keys h2)]
    constructor
    · rintro (⟨j, h3, h4⟩ | ⟨h3, h4⟩)
      · exact ⟨j, LastMember_cons.2 (.inl h3), h4⟩
      · cases h3; exact ⟨j', LastMember_cons.2 (.inr ⟨rfl, h4⟩), h1⟩
    · rintro ⟨j, h3, h4⟩
      rcases LastMember_cons.1 h3 with h3 | ⟨h3, h5⟩
      · exact .inl ⟨j, h3, h4⟩
      · cases h3
        rw [h1] at h4
        cases h4
        exact .inr ⟨rfl, h5⟩

theorem dict_get? {f : NumLit → Option NumLit} {m es : List (Str × Json)} (h : Json.toAnyFields f m = some es) (k : Str) (v : Json) :
    (es.foldl (fun acc e => Entries.set acc e.1 e.2) []).get? k = some v ↔ ∃ j, LastMember m k j ∧ Json.toAny f j = some v := by
  rw [foldl_set_get?, toAnyFields_last h]
  simp

/-- The part of `checkType` after decoding. -/
def checkTypeOf (want : Str) (m : Fields) : Res Unit :=
  match Entries.get? m b!"signed" with
  | some (.obj signed) =>
    match Entries.get? signed b!"_type" with
    | some (.str signedType) =>
      if want ≠ signedType then .err (.value "unexpected metadata type") else .ok ()
    | _ => .panic
  | _ => .panic

theorem checkType_eq (env : Env) (want : Str) (data : Bytes) :
    checkType env want data = (Res.ofOption jsonErr (env.parse data) >>= fun j => decAnyMap env j >>= checkTypeOf want) := rfl

theorem checkTypeOf_cases (want : Str) (m : Fields) :
    (∃ s ty, m.get? b!"signed" = some (.obj s) ∧ Entries.get? s b!"_type" = some (.str ty) ∧
      checkTypeOf want m = if want = ty then .ok () else .err (.value "unexpected metadata type")) ∨
    ((∀ s ty, m.get? b!"signed" = some (.obj s) → Entries.get? s b!"_type" ≠ some (.str ty)) ∧ checkTypeOf want m = .panic) := by
  unfold checkTypeOf
  split
  · next s hs =>
    split
    · next ty ht =>
      refine .inl ⟨s, ty, hs, ht, ?_⟩
      by_cases h : want = ty
      · rw [if_neg (fun h' => h' h), if_pos h]
      · rw [if_pos h, if_neg h]
    · next hn =>
      refine .inr ⟨fun s' ty hs' => ?_, rfl⟩
      rw [hs] at hs'
      cases hs'
      exact hn ty
  · next hn => exact .inr ⟨fun s ty hs => absurd hs (hn s), rfl⟩

theorem declares_iff {env : Env} {m : List (Str × Json)} {d : Fields} (h : decAnyMap env (.obj m) = .ok d) (ty : Str) :
    Declares (.obj m) ty ↔ ∃ s, d.get? b!"signed" = some (.obj s) ∧ Entries.get? s b!"_type" = some (.str ty) := by
  unfold decAnyMap at h
  simp only at h
  split at h
  · next d' hd =>
    cases h
    obtain ⟨m', es, hm, hes, rfl⟩ := toAny_obj_inv hd
    cases hm
    constructor
    · rintro ⟨m', s, hm, h1, t, h2, ht⟩
      cases hm
      -- the value of the last `signed` was converted as well
      have conv : ∃ v, Json.toAny env.anyNum (.obj s) = some v := by
        obtain ⟨p, q, hp, _⟩ := h1
        have : ∀ (l es : List (Str × Json)), Json.toAnyFields env.anyNum l = some es → ∀ e ∈ l, ∃ v, Json.toAny env.anyNum e.2 = some v := by
          intro l
          induction l with
          | nil => simp
          | cons e r ih =>
            obtain ⟨k, j⟩ := e
            intro es h
            obtain ⟨a, b, h1, h2, rfl⟩ := toAnyFields_cons.1 h
            intro e he
            rcases List.mem_cons.1 he with rfl | he
            · exact ⟨a, h1⟩
            · exact ih b h2 e he
        exact this _ _ hes (b!"signed", .obj s) (by rw [hp]; simp)
      obtain ⟨v, hv⟩ := conv
      have hv0 := hv
      simp only [Json.toAny, Option.map_eq_some_iff] at hv
      obtain ⟨es2, hes2, rfl⟩ := hv
      refine ⟨_, (dict_get? hes _ _).2 ⟨_, h1, hv0⟩, ?_⟩
      exact (dict_get? hes2 _ _).2 ⟨_, h2, by rcases ht with rfl | ⟨_, rfl⟩ <;> simp [Json.toAny]⟩
    · rintro ⟨s, h1, h2⟩
      obtain ⟨j, h3, h4⟩ := (dict_get? hes _ _).1 h1
      obtain ⟨m2, es2, rfl, h5, rfl⟩ := toAny_obj_inv h4
      obtain ⟨j2, h6, h7⟩ := (dict_get? h5 _ _).1 h2
      exact ⟨m, m2, rfl, h3, j2, h6, toAny_str_inv h7⟩
  · cases h

theorem decAnyMap_ok_of_fit {env : Env} {m : List (Str × Json)} (h : NumbersFit env (.obj m)) : ∃ d, decAnyMap env (.obj m) = .ok d := by
  unfold NumbersFit at h
  simp only [Json.toAny, Option.isSome_map] at h
  obtain ⟨es, hes⟩ := Option.isSome_iff_exists.1 h
  exact ⟨_, by simp [decAnyMap, Json.toAny, hes]; rfl⟩

theorem decAnyMap_fit {env : Env} {m : List (Str × Json)} {d : Fields} (h : decAnyMap env (.obj m) = .ok d) : NumbersFit env (.obj m) := by
  unfold decAnyMap at h
  simp only at h
  split at h
  · next d' hd => unfold NumbersFit; rw [hd]; rfl
  · cases h

theorem decAnyMap_no_panic (env : Env) (j : Json) : decAnyMap env j ≠ .panic := by
  unfold decAnyMap
  repeat' split
  all_goals simp

/-- Exactly when the type check passes. -/
theorem checkType_ok {env : Env} {want : Str} {data : Bytes} :
    checkType env want data = .ok () ↔ ∃ j, env.parse data = some j ∧ NumbersFit env j ∧ Declares j want := by
  rw [checkType_eq, Res.bind_eq_ok]
  constructor
  · rintro ⟨j, hj, h⟩
    rw [Res.ofOption_eq_ok] at hj
    obtain ⟨d, hd, h⟩ := Res.bind_eq_ok.1 h
    refine ⟨j, hj, ?_⟩
    rcases checkTypeOf_cases want d with ⟨s, ty, h1, h2, h3⟩ | ⟨_, h3⟩
    · rw [h3] at h
      split at h
      · next hw =>
        subst hw
        cases j with
        | obj m => exact ⟨decAnyMap_fit hd, (declares_iff hd _).2 ⟨s, h1, h2⟩⟩
        | null => simp [decAnyMap] at hd; rw [hd] at h1; simp at h1
        | _ => simp [decAnyMap] at hd
      · cases h
    · rw [h3] at h; cases h
  · rintro ⟨j, hj, hf, hd⟩
    have hd' := hd
    obtain ⟨m, s, rfl, _⟩ := hd'
    obtain ⟨d, hdec⟩ := decAnyMap_ok_of_fit hf
    obtain ⟨s', h1, h2⟩ := (declares_iff hdec want).1 hd
    refine ⟨_, Res.ofOption_eq_ok.2 hj, Res.bind_eq_ok.2 ⟨d, hdec, ?_⟩⟩
    rcases checkTypeOf_cases want d with ⟨s, ty, h3, h4, h5⟩ | ⟨h3, _⟩
    · rw [h1] at h3; cases h3; rw [h2] at h4; cases h4; rw [h5, if_pos rfl]
    · exact absurd h2 (h3 s' want h1)

/-- Exactly when the type check panics. -/
theorem checkType_panic {env : Env} {want : Str} {data : Bytes} :
    checkType env want data = .panic ↔ ∃ j, env.parse data = some j ∧ (j = .null ∨ ∃ m, j = .obj m) ∧ NumbersFit env j ∧ ∀ ty, ¬ Declares j ty := by
  rw [checkType_eq]
  constructor
  · intro h
    cases hj : env.parse data with
    | none => rw [hj] at h; cases h
    | some j =>
      rw [hj] at h
      simp only [Res.ofOption_some, Res.bind_ok] at h
      refine ⟨j, rfl, ?_⟩
      cases hd : decAnyMap env j with
      | err e => rw [hd] at h; cases h
      | panic => exact absurd hd (decAnyMap_no_panic env j)
      | ok d =>
        rw [hd, Res.bind_ok] at h
        rcases checkTypeOf_cases want d with ⟨s, ty, h1, h2, h3⟩ | ⟨h1, h3⟩
        · rw [h3] at h; split at h <;> cases h
        · cases j with
          | obj m =>
            refine ⟨.inr ⟨m, rfl⟩, decAnyMap_fit hd, fun ty hdecl => ?_⟩
            obtain ⟨s, h4, h5⟩ := (declares_iff hd ty).1 hdecl
            exact h1 s ty h4 h5
          | null => exact ⟨.inl rfl, by simp [NumbersFit, Json.toAny], fun ty ⟨m, s, h, _⟩ => by cases h⟩
          | _ => simp [decAnyMap] at hd
  · rintro ⟨j, hj, h0, hf, hn⟩
    rw [hj]
    simp only [Res.ofOption_some, Res.bind_ok]
    rcases h0 with rfl | ⟨m, rfl⟩
    · rfl
    · obtain ⟨d, hdec⟩ := decAnyMap_ok_of_fit hf
      rw [hdec, Res.bind_ok]
      rcases checkTypeOf_cases want d with ⟨s, ty, h1, h2, h3⟩ | ⟨h1, h3⟩
      · exact absurd ((declares_iff hdec ty).2 ⟨s, h1, h2⟩) (hn ty)
      · exact h3

/-! ## Unique signatures -/

theorem checkUnique_ok {seen : List Str} {sigs : List Signature} :
    checkUnique seen sigs = .ok () ↔ (sigs.map (·.keyID)).Nodup ∧ ∀ s ∈ sigs, s.keyID ∉ seen := by
  induction sigs generalizing seen with
  | nil => simp [checkUnique]
  | cons s r ih =>
    simp only [checkUnique]
    split
    · next h => simp [h]
    · next h =>
      rw [ih, List.map_cons, List.nodup_cons]
      constructor
      · rintro ⟨h1, h2⟩
        refine ⟨⟨?_, h1⟩, ?_⟩
        · intro hm
          obtain ⟨x, hx, he⟩ := List.mem_map.1 hm
          exact h2 x hx (by simp [he])
        · intro x hx
          rcases List.mem_cons.1 hx with rfl | hx
          · exact h
          · exact fun hs => h2 x hx (List.mem_cons_of_mem _ hs)
      · rintro ⟨⟨h1, h2⟩, h3⟩
        refine ⟨h2, fun x hx hs => ?_⟩
        rcases List.mem_cons.1 hs with he | hs
        · exact h1 (List.mem_map.2 ⟨x, hx, he⟩)
        · exact h3 x (List.mem_cons_of_mem _ hx) hs

theorem checkUnique_cases (seen : List Str) (sigs : List Signature) :
    checkUnique seen sigs = .ok () ∨ checkUnique seen sigs = .err (.value "multiple signatures for key ID") := by
  induction sigs generalizing seen with
  | nil => exact .inl rfl
  | cons s r ih =>
    simp only [checkUnique]
    split
    · exact .inr rfl
    · exact ih _

/-! ## Decoding never panics, except for nil targets -/

theorem Res.bind_ne_panic {α β : Type} {r : Res α} {f : α → Res β} (h : r ≠ .panic) (hf : ∀ a, r = .ok a → f a ≠ .panic) :
    (r >>= f) ≠ .panic := by
  cases r with
  | ok a => exact hf a rfl
  | err e => simp
  | panic => exact absurd rfl h

theorem Res.map_ne_panic {α β : Type} {r : Res α} {f : α → β} (h : r ≠ .panic) : r.map f ≠ .panic := by
  cases r <;> simp_all [Res.map]

theorem Res.ofOption_ne_panic {α : Type} {e : Err} {o : Option α} : Res.ofOption e o ≠ .panic := by
  cases o <;> simp [Res.ofOption]

theorem decStr_np (j : Json) (o : Str) : decStr j o ≠ .panic := by unfold decStr; split <;> simp
theorem decInt_np (j : Json) (o : Int) : decInt j o ≠ .panic := by
  unfold decInt; split
  · simp
  · split <;> simp
  · split <;> simp
  · simp
theorem decBool_np (j : Json) (o : Bool) : decBool j o ≠ .panic := by unfold decBool; split <;> simp
theorem decTime_np (env : Env) (j : Json) (o : Time) : decTime env j o ≠ .panic := by
  unfold decTime; split
  · simp
  · exact Res.ofOption_ne_panic
  · simp
theorem decHex_np (j : Json) : decHex j ≠ .panic := by
  unfold decHex; split
  · exact Res.ofOption_ne_panic
  · simp
theorem decList_np {α : Type} {dec : Json → Res α} (h : ∀ j, dec j ≠ .panic) (l : List Json) : decList dec l ≠ .panic := by
  induction l with
  | nil => simp [decList]
  | cons j r ih => exact Res.bind_ne_panic (h j) (fun _ _ => Res.bind_ne_panic ih (fun _ _ => by simp))
theorem decSlice_np {α : Type} {dec : Json → Res α} (h : ∀ j, dec j ≠ .panic) (j : Json) : decSlice dec j ≠ .panic := by
  unfold decSlice; split
  · simp
  · exact Res.map_ne_panic (decList_np h _)
  · simp
theorem decEntries_np {α : Type} {dec : Json → Res α} (h : ∀ j, dec j ≠ .panic) (l : List (Str × Json)) (acc : Entries α) :
    decEntries dec l acc ≠ .panic := by
  induction l generalizing acc with
  | nil => simp [decEntries]
  | cons e r ih => obtain ⟨k, j⟩ := e; exact Res.bind_ne_panic (h j) (fun _ _ => ih _)
theorem decMap_np {α : Type} {dec : Json → Res α} (h : ∀ j, dec j ≠ .panic) (j : Json) (o : GoMap α) : decMap dec j o ≠ .panic := by
  unfold decMap; split
  · simp
  · exact Res.map_ne_panic (decEntries_np h _ _)
  · simp
theorem decPtr_np {α : Type} {dec : Json → Res α} (h : ∀ j, dec j ≠ .panic) (j : Json) : decPtr dec j ≠ .panic := by
  unfold decPtr; split
  · simp
  · exact Res.map_ne_panic (h _)
theorem decFields_np {α : Type} {names : List Str} {setField : Str → Json → α → Res α} (h : ∀ f j a, setField f j a ≠ .panic)
    (l : List (Str × Json)) (a : α) : decFields names setField l a ≠ .panic := by
  induction l generalizing a with
  | nil => simp [decFields]
  | cons e r ih =>
    obtain ⟨k, j⟩ := e
    simp only [decFields]
    split
    · exact ih _
    · exact Res.bind_ne_panic (h _ _ _) (fun _ _ => ih _)
theorem decStruct_np {α : Type} {names : List Str} {setField : Str → Json → α → Res α} {zero : α} (h : ∀ f j a, setField f j a ≠ .panic)
    (j : Json) : decStruct names setField zero j ≠ .panic := by
  unfold decStruct; split
  · simp
  · exact decFields_np h _ _
  · simp
theorem unmarshalStruct_np {α : Type} {env : Env} {names : List Str} {setField : Str → Json → α → Res α} {zero : α} {post : α → Res α}
    {setUnrec : Fields → α → α} (h : ∀ f j a, setField f j a ≠ .panic) {j : Json} (hp : ∀ a, decStruct names setField zero j = .ok a → post a ≠ .panic) :
    unmarshalStruct env names setField zero post setUnrec j ≠ .panic :=
  Res.bind_ne_panic (decStruct_np h j) (fun a ha => Res.bind_ne_panic (hp a ha) (fun _ _ =>
    Res.bind_ne_panic (decAnyMap_no_panic env j) (fun _ _ => by simp)))

theorem unmarshalLists_np {α : Type} {env : Env} {names lists : List Str} {setField : Str → Json → α → Res α} {zero : α} {setUnrec : Fields → α → α}
    (h : ∀ f j a, setField f j a ≠ .panic) {j : Json} : unmarshalLists env names lists setField zero setUnrec j ≠ .panic :=
  Res.bind_ne_panic (decStruct_np h _) (fun _ _ => Res.bind_ne_panic (decAnyMap_no_panic env j) (fun _ _ => by simp))

theorem ok_np (j : Json) : (Res.ok : Json → Res Json) j ≠ .panic := by simp

/-- Closes goals of the form "this field setter does not panic". -/
macro "no_panic" : tactic => `(tactic| (
  repeat' split
  all_goals
    refine Res.bind_ne_panic ?_ (fun _ _ => by simp)
    first
      | exact decStr_np _ _ | exact decInt_np _ _ | exact decBool_np _ _ | exact decTime_np _ _ _ | exact decHex_np _
      | exact decSlice_np (fun _ => decStr_np _ _) _ | exact decMap_np decHex_np _ _
      | exact decPtr_np ok_np _ | apply_assumption))

theorem KeyVal.unmarshal_np (env : Env) (j : Json) : KeyVal.unmarshal env j ≠ .panic :=
  unmarshalStruct_np (fun f j a => by unfold KeyVal.setField; no_panic) (fun _ _ => by simp)
theorem Key.unmarshal_np (env : Env) (j : Json) : Key.unmarshal env j ≠ .panic :=
  unmarshalStruct_np (fun f j a => by unfold Key.setField; have := KeyVal.unmarshal_np env; no_panic) (fun _ _ => by simp)
theorem Role.unmarshal_np (env : Env) (j : Json) : Role.unmarshal env j ≠ .panic :=
  unmarshalLists_np (fun f j a => by unfold Role.setField; no_panic)
theorem MetaFiles.unmarshal_np (env : Env) (j : Json) : MetaFiles.unmarshal env j ≠ .panic :=
  unmarshalStruct_np (fun f j a => by unfold MetaFiles.setField; no_panic) (fun _ _ => by simp)
theorem TargetFiles.unmarshal_np (env : Env) (j : Json) : TargetFiles.unmarshal env j ≠ .panic :=
  unmarshalStruct_np (fun f j a => by unfold TargetFiles.setField; no_panic) (fun _ _ => by simp)
theorem DelegatedRole.unmarshal_np (env : Env) (j : Json) : DelegatedRole.unmarshal env j ≠ .panic :=
  unmarshalLists_np (fun f j a => by unfold DelegatedRole.setField; no_panic)
theorem SuccinctRoles.unmarshal_np (env : Env) (j : Json) : SuccinctRoles.unmarshal env j ≠ .panic :=
  unmarshalLists_np (fun f j a => by unfold SuccinctRoles.setField; no_panic)
theorem Signature.unmarshal_np (env : Env) (j : Json) : Signature.unmarshal env j ≠ .panic :=
  unmarshalStruct_np (fun f j a => by unfold Signature.setField; no_panic) (fun _ _ => by simp)
theorem Delegations.unmarshal_np (env : Env) (j : Json) : Delegations.unmarshal env j ≠ .panic :=
  unmarshalStruct_np (fun f j a => by
    unfold Delegations.setField
    have h1 := decMap_np (decPtr_np (Key.unmarshal_np env))
    have h2 := decSlice_np (DelegatedRole.unmarshal_np env)
    have h3 := decPtr_np (SuccinctRoles.unmarshal_np env)
    no_panic) (fun _ _ => by simp)
theorem RootType.setField_np (env : Env) (f : Str) (j : Json) (a : RootType) : RootType.setField env f j a ≠ .panic := by
  unfold RootType.setField
  have h1 := decMap_np (decPtr_np (Key.unmarshal_np env))
  have h2 := decMap_np (decPtr_np (Role.unmarshal_np env))
  no_panic
theorem SnapshotType.setField_np (env : Env) (f : Str) (j : Json) (a : SnapshotType) : SnapshotType.setField env f j a ≠ .panic := by
  unfold SnapshotType.setField
  have h1 := decMap_np (decPtr_np (MetaFiles.unmarshal_np env))
  no_panic
theorem TimestampType.setField_np (env : Env) (f : Str) (j : Json) (a : TimestampType) : TimestampType.setField env f j a ≠ .panic := by
  unfold TimestampType.setField
  have h1 := decMap_np (decPtr_np (MetaFiles.unmarshal_np env))
  no_panic
theorem TargetsType.setField_np (env : Env) (f : Str) (j : Json) (a : TargetsType) : TargetsType.setField env f j a ≠ .panic := by
  unfold TargetsType.setField
  have h1 := decMap_np (decPtr_np (TargetFiles.unmarshal_np env))
  have h2 := decPtr_np (Delegations.unmarshal_np env)
  no_panic
theorem RootType.unmarshal_np (env : Env) (j : Json) : RootType.unmarshal env j ≠ .panic :=
  unmarshalStruct_np (RootType.setField_np env) (fun _ _ => by simp)
theorem SnapshotType.unmarshal_np (env : Env) (j : Json) : SnapshotType.unmarshal env j ≠ .panic :=
  unmarshalStruct_np (SnapshotType.setField_np env) (fun _ _ => by simp)
theorem TimestampType.unmarshal_np (env : Env) (j : Json) : TimestampType.unmarshal env j ≠ .panic :=
  unmarshalStruct_np (TimestampType.setField_np env) (fun _ _ => by simp)

/-- `FromBytes` panics exactly if the type check does, for role types whose decoding does not panic. -/
theorem fromBytes_panic {T : Type} [RoleType T] {env : Env} (hnp : ∀ j, RoleType.unmarshal (T := T) env j ≠ .panic) {data : Bytes} :
    fromBytes (T := T) env data = .panic ↔ checkType env (RoleType.typeName T) data = .panic := by
  unfold fromBytes
  constructor
  · intro h
    cases hc : checkType env (RoleType.typeName T) data with
    | panic => rfl
    | err e => rw [hc] at h; cases h
    | ok u =>
      exfalso
      revert h
      refine Res.bind_ne_panic (by rw [hc]; simp) (fun _ _ => Res.bind_ne_panic Res.ofOption_ne_panic (fun j _ => Res.bind_ne_panic ?_ (fun m _ =>
        Res.bind_ne_panic ?_ (fun _ _ => by simp))))
      · exact unmarshalStruct_np (fun f j a => by
          unfold Metadata.setField
          have h1 := decSlice_np (Signature.unmarshal_np env)
          no_panic) (fun _ _ => by simp)
      · rcases checkUnique_cases [] m.signatures.elems with h | h <;> (unfold checkUniqueSignatures; rw [h]; simp)
  · intro h; rw [h]; rfl

end Tuf

namespace Tuf
open Spec

/-! ## Targets: panics only on null targets -/

theorem findField_fold {names : List Str} {k f : Str} (h : findField names k = some f) : foldKey f = foldKey k := by
  unfold findField at h
  split at h
  · cases h; rfl
  · have := List.find?_some h
    simpa using this

theorem findField_mem {names : List Str} {k f : Str} (h : findField names k = some f) : f ∈ names := by
  unfold findField at h
  split at h
  · next hm => cases h; exact hm
  · exact List.mem_of_find?_eq_some h

/-- Like `decFields_inv`, with the members at hand. -/
theorem decFields_inv' {α : Type} {names : List Str} {setField : Str → Json → α → Res α} {P : α → Prop} {m : List (Str × Json)}
    (hset : ∀ k f j a a', (k, j) ∈ m → findField names k = some f → P a → setField f j a = .ok a' → P a') {a a' : α}
    (ha : P a) (h : decFields names setField m a = .ok a') : P a' := by
  induction m generalizing a with
  | nil => simp [decFields] at h; exact h ▸ ha
  | cons e r ih =>
    obtain ⟨k, j⟩ := e
    simp only [decFields] at h
    have hset' : ∀ k f j a a', (k, j) ∈ r → findField names k = some f → P a → setField f j a = .ok a' → P a' :=
      fun k f j a a' hm => hset k f j a a' (List.mem_cons_of_mem _ hm)
    split at h
    · exact ih hset' ha h
    · next f hf =>
      obtain ⟨a1, h1, h⟩ := Res.bind_eq_ok.1 h
      exact ih hset' (hset k f j a a1 (by simp) hf ha h1) h

/-- All entries are non-nil. -/
def AllSome {α : Type} (es : Entries (Option α)) : Prop := ∀ e ∈ es, e.2.isSome

theorem AllSome.set {α : Type} {es : Entries (Option α)} (h : AllSome es) (k : Str) (v : α) : AllSome (Entries.set es k (some v)) := by
  intro e he
  rcases Entries.mem_set he with rfl | he
  · rfl
  · exact h e he

theorem decPtr_some {α : Type} {dec : Json → Res α} {j : Json} (hj : j ≠ .null) {v : Option α} (h : decPtr dec j = .ok v) : v.isSome := by
  unfold decPtr at h
  split at h
  · exact absurd rfl hj
  · obtain ⟨a, _, rfl⟩ := Res.map_eq_ok.1 h; rfl

theorem decEntries_allSome {α : Type} {dec : Json → Res α} {l : List (Str × Json)} (hl : ∀ e ∈ l, e.2 ≠ .null) {acc es : Entries (Option α)}
    (hacc : AllSome acc) (h : decEntries (decPtr dec) l acc = .ok es) : AllSome es := by
  induction l generalizing acc with
  | nil => simp [decEntries] at h; exact h ▸ hacc
  | cons e r ih =>
    obtain ⟨k, j⟩ := e
    obtain ⟨a, h1, h⟩ := Res.bind_eq_ok.1 h
    obtain ⟨v, rfl⟩ := Option.isSome_iff_exists.1 (decPtr_some (hl (k, j) (by simp)) h1)
    exact ih (fun e he => hl e (List.mem_cons_of_mem _ he)) (hacc.set k v) h

theorem setPaths_np {es : Entries (Option TargetFiles)} (h : AllSome es) : setPaths es ≠ .panic := by
  induction es with
  | nil => simp [setPaths]
  | cons e r ih =>
    obtain ⟨k, v⟩ := e
    obtain ⟨t, rfl⟩ := Option.isSome_iff_exists.1 (h (k, v) (by simp))
    exact Res.bind_ne_panic (ih (fun e he => h e (List.mem_cons_of_mem _ he))) (fun _ _ => by simp)

theorem TargetsType.unmarshal_np {env : Env} {j : Json}
    (h : ∀ s k ts name, j = .obj s → (k, .obj ts) ∈ s → Spelled b!"targets" k → (name, .null) ∉ ts) :
    TargetsType.unmarshal env j ≠ .panic := by
  refine unmarshalStruct_np (TargetsType.setField_np env) (fun a ha => ?_)
  have hall : AllSome a.targets.entries := by
    unfold decStruct at ha
    split at ha
    · cases ha; intro e he; simp at he
    · next s =>
      refine decFields_inv' (P := fun a : TargetsType => AllSome a.targets.entries) ?_ (by intro e he; simp at he) ha
      intro k f j a a' hm hf hP hs
      unfold TargetsType.setField at hs
      repeat' split at hs
      all_goals
        obtain ⟨v, hv, hs⟩ := Res.bind_eq_ok.1 hs
        cases hs
      all_goals try exact hP
      next hft =>
        unfold decMap at hv
        split at hv
        · cases hv; intro e he; simp at he
        · next ts =>
          obtain ⟨es, hes, rfl⟩ := Res.map_eq_ok.1 hv
          refine decEntries_allSome ?_ hP hes
          intro e he hnull
          have := findField_fold hf
          rw [hft] at this
          exact h s k ts e.1 rfl hm ((foldKey_spelled (by decide)).1 this.symm) (by rw [← hnull]; exact he)
        · cases hv
    · cases ha
  unfold TargetsType.setTargetPaths
  split
  · simp
  · next es hes =>
    refine Res.bind_ne_panic (setPaths_np ?_) (fun _ _ => by simp)
    rw [hes] at hall
    exact hall

theorem fromBytes_targets_panic {env : Env} {data : Bytes} (h : fromBytes (T := TargetsType) env data = .panic) :
    checkType env b!"targets" data = .panic ∨ ∃ j, env.parse data = some j ∧ HasNullTarget j := by
  refine Classical.byContradiction (fun hn => ?_)
  rw [not_or] at hn
  obtain ⟨h1, h2⟩ := hn
  revert h
  unfold fromBytes
  refine Res.bind_ne_panic h1 (fun _ _ => Res.bind_ne_panic Res.ofOption_ne_panic (fun j hj => Res.bind_ne_panic ?_ (fun m _ =>
    Res.bind_ne_panic ?_ (fun _ _ => by simp))))
  · rw [Res.ofOption_eq_ok] at hj
    have hstep : ∀ (m : List (Str × Json)) (a : Metadata TargetsType), (∀ e ∈ m, e ∈ (match j with | .obj m => m | _ => [])) →
        decFields Metadata.names (Metadata.setField env) m a ≠ .panic := by
      intro m
      induction m with
      | nil => intro a _; simp [decFields]
      | cons e r ih =>
        obtain ⟨k, v⟩ := e
        intro a hm
        simp only [decFields]
        have hr : ∀ a, decFields Metadata.names (Metadata.setField env) r a ≠ .panic := fun a => ih a (fun e he => hm e (List.mem_cons_of_mem _ he))
        split
        · exact hr a
        · next f hf =>
          refine Res.bind_ne_panic ?_ (fun a' _ => hr a')
          unfold Metadata.setField
          split
          · next hfs =>
            refine Res.bind_ne_panic ?_ (fun _ _ => by simp)
            refine TargetsType.unmarshal_np (fun s k' ts name hs h3 h4 h5 => h2 ⟨j, hj, ?_⟩)
            cases j with
            | obj m0 =>
              have hk := findField_fold hf
              rw [hfs] at hk
              exact ⟨m0, k, s, k', ts, name, rfl, hs ▸ hm (k, v) (by simp), (foldKey_spelled (by decide)).1 hk.symm, h3, h4, h5⟩
            | _ => exact absurd (hm (k, v) (by simp)) (by simp)
          · exact Res.bind_ne_panic (decSlice_np (Signature.unmarshal_np env) _) (fun _ _ => by simp)
    refine Res.bind_ne_panic ?_ (fun a _ => Res.bind_ne_panic (by simp) (fun _ _ =>
      Res.bind_ne_panic (decAnyMap_no_panic env j) (fun _ _ => by simp)))
    unfold decStruct
    split
    · simp
    · next m => exact hstep m _ (fun e he => he)
    · simp
  · rcases checkUnique_cases [] m.signatures.elems with h | h <;> (unfold checkUniqueSignatures; rw [h]; simp)

/-! ## The decoded type -/

theorem decFields_append {α : Type} {names : List Str} {setField : Str → Json → α → Res α} (p q : List (Str × Json)) (a : α) :
    decFields names setField (p ++ q) a = (decFields names setField p a >>= decFields names setField q) := by
  induction p generalizing a with
  | nil => rfl
  | cons e r ih =>
    obtain ⟨k, j⟩ := e
    simp only [List.cons_append, decFields]
    split
    · exact ih a
    · next f _ => cases setField f j a <;> simp [ih]

/-- If a field is spelled exactly wherever it occurs, then its last occurrence determines what `get` sees. -/
theorem decFields_last {α β : Type} {names : List Str} {setField : Str → Json → α → Res α} {get : α → β} {f0 : Str} {j0 : Json} {v : β}
    (hmem : f0 ∈ names) (hsi : SimpleName f0) (hother : ∀ f j a a', f ≠ f0 → setField f j a = .ok a' → get a' = get a)
    (hset : ∀ a a', setField f0 j0 a = .ok a' → get a' = v) {m : List (Str × Json)} (hsp : SpelledExactly m f0)
    (hl : LastMember m f0 j0) {a a' : α} (h : decFields names setField m a = .ok a') : get a' = v := by
  obtain ⟨p, q, rfl, hq⟩ := hl
  rw [decFields_append] at h
  obtain ⟨a1, _, h⟩ := Res.bind_eq_ok.1 h
  have hf : findField names f0 = some f0 := by unfold findField; rw [if_pos hmem]
  simp only [decFields, hf] at h
  obtain ⟨a2, h2, h⟩ := Res.bind_eq_ok.1 h
  refine decFields_inv' (P := fun a => get a = v) ?_ (hset a1 a2 h2) h
  intro k f j a a' hm hkf hP hs
  rw [hother f j a a' ?_ hs]
  · exact hP
  · intro hff
    rw [hff] at hkf
    have h1 := hsp (k, j) (by simp [hm]) ((foldKey_spelled hsi).1 (findField_fold hkf).symm)
    exact hq (k, j) hm h1

/-- What each role type must satisfy to have its declared type decoded. -/
theorem unmarshal_type {α : Type} {env : Env} {names : List Str} {setField : Str → Json → α → Res α} {zero : α} {post : α → Res α}
    {setUnrec : Fields → α → α} {get : α → Str} (hmem : b!"_type" ∈ names)
    (hother : ∀ f j a a', f ≠ b!"_type" → setField f j a = .ok a' → get a' = get a)
    (hset : ∀ j s a a', IsText j s → setField b!"_type" j a = .ok a' → get a' = s)
    (hpost : ∀ a a', post a = .ok a' → get a' = get a) (hunrec : ∀ u a, get (setUnrec u a) = get a)
    {s : List (Str × Json)} {ty : Str} (hsp : SpelledExactly s b!"_type") (hl : LastText s b!"_type" ty) {a : α}
    (h : unmarshalStruct env names setField zero post setUnrec (.obj s) = .ok a) : get a = ty := by
  unfold unmarshalStruct at h
  obtain ⟨a1, h1, h⟩ := Res.bind_eq_ok.1 h
  obtain ⟨a2, h2, h⟩ := Res.bind_eq_ok.1 h
  obtain ⟨d, _, h⟩ := Res.bind_eq_ok.1 h
  cases h
  rw [hunrec, hpost a1 a2 h2]
  obtain ⟨j, hl, ht⟩ := hl
  exact decFields_last hmem (by decide) hother (fun a a' => hset j ty a a' ht) hsp hl h1

theorem RootType.type_of {env : Env} {s : List (Str × Json)} {ty : Str} (hsp : SpelledExactly s b!"_type")
    (hl : LastText s b!"_type" ty) {a : RootType} (h : RootType.unmarshal env (.obj s) = .ok a) : a.type = ty := by
  unfold RootType.unmarshal at h
  refine unmarshal_type (get := RootType.type) (by decide) ?_ ?_ ?_ ?_ hsp hl h
  · intro f j a a' hf h
    unfold RootType.setField at h
    rw [if_neg hf] at h
    repeat' split at h
    all_goals (obtain ⟨v, hv, h⟩ := Res.bind_eq_ok.1 h; cases h; rfl)
  · intro j s a a' ht h; rcases ht with rfl | ⟨_, rfl⟩ <;> (cases h; rfl)
  · intro a a' h; cases h; rfl
  · intro _ _; rfl
theorem SnapshotType.type_of {env : Env} {s : List (Str × Json)} {ty : Str} (hsp : SpelledExactly s b!"_type")
    (hl : LastText s b!"_type" ty) {a : SnapshotType} (h : SnapshotType.unmarshal env (.obj s) = .ok a) : a.type = ty := by
  unfold SnapshotType.unmarshal at h
  refine unmarshal_type (get := SnapshotType.type) (by decide) ?_ ?_ ?_ ?_ hsp hl h
  · intro f j a a' hf h
    unfold SnapshotType.setField at h
    rw [if_neg hf] at h
    repeat' split at h
    all_goals (obtain ⟨v, hv, h⟩ := Res.bind_eq_ok.1 h; cases h; rfl)
  · intro j s a a' ht h; rcases ht with rfl | ⟨_, rfl⟩ <;> (cases h; rfl)
  · intro a a' h; cases h; rfl
  · intro _ _; rfl
theorem TimestampType.type_of {env : Env} {s : List (Str × Json)} {ty : Str} (hsp : SpelledExactly s b!"_type")
    (hl : LastText s b!"_type" ty) {a : TimestampType} (h : TimestampType.unmarshal env (.obj s) = .ok a) : a.type = ty := by
  unfold TimestampType.unmarshal at h
  refine unmarshal_type (get := TimestampType.type) (by decide) ?_ ?_ ?_ ?_ hsp hl h
  · intro f j a a' hf h
    unfold TimestampType.setField at h
    rw [if_neg hf] at h
    repeat' split at h
    all_goals (obtain ⟨v, hv, h⟩ := Res.bind_eq_ok.1 h; cases h; rfl)
  · intro j s a a' ht h; rcases ht with rfl | ⟨_, rfl⟩ <;> (cases h; rfl)
  · intro a a' h; cases h; rfl
  · intro _ _; rfl
theorem TargetsType.type_of {env : Env} {s : List (Str × Json)} {ty : Str} (hsp : SpelledExactly s b!"_type")
    (hl : LastText s b!"_type" ty) {a : TargetsType} (h : TargetsType.unmarshal env (.obj s) = .ok a) : a.type = ty := by
  unfold TargetsType.unmarshal at h
  refine unmarshal_type (get := TargetsType.type) (by decide) ?_ ?_ ?_ ?_ hsp hl h
  · intro f j a a' hf h
    unfold TargetsType.setField at h
    rw [if_neg hf] at h
    repeat' split at h
    all_goals (obtain ⟨v, hv, h⟩ := Res.bind_eq_ok.1 h; cases h; rfl)
  · intro j s a a' ht h; rcases ht with rfl | ⟨_, rfl⟩ <;> (cases h; rfl)
  · intro a a' h
    unfold TargetsType.setTargetPaths at h
    split at h
    · cases h; rfl
    · obtain ⟨v, hv, h⟩ := Res.bind_eq_ok.1 h; cases h; rfl
  · intro _ _; rfl

/-- If `signed` is spelled exactly, its last occurrence is what is decoded. -/
theorem fromBytes_last_signed {T : Type} [RoleType T] {env : Env} {data : Bytes} {m : Metadata T} (h : fromBytes env data = .ok m) :
    ∃ doc s, env.parse data = some (.obj doc) ∧ LastMember doc b!"signed" (.obj s) ∧ LastText s b!"_type" (RoleType.typeName T) ∧
      (SpelledExactly doc b!"signed" → RoleType.unmarshal env (.obj s) = .ok m.signed) := by
  unfold fromBytes at h
  obtain ⟨_, hc, h⟩ := Res.bind_eq_ok.1 h
  obtain ⟨j, hj, h⟩ := Res.bind_eq_ok.1 h
  obtain ⟨m', hm, h⟩ := Res.bind_eq_ok.1 h
  obtain ⟨_, _, h⟩ := Res.bind_eq_ok.1 h
  cases h
  rw [Res.ofOption_eq_ok] at hj
  obtain ⟨j', hj', _, doc, s, rfl, h1, h2⟩ := checkType_ok.1 hc
  rw [hj] at hj'
  cases hj'
  refine ⟨doc, s, hj, h1, h2, fun hsp => ?_⟩
  have hm' : unmarshalStruct env Metadata.names (Metadata.setField env) { signed := RoleType.zero } .ok
    (fun u (a : Metadata T) => { a with unrec := u }) (.obj doc) = .ok m := hm
  unfold unmarshalStruct at hm'
  obtain ⟨a1, e1, hm'⟩ := Res.bind_eq_ok.1 hm'
  obtain ⟨a2, e2, hm'⟩ := Res.bind_eq_ok.1 hm'
  obtain ⟨d, _, hm'⟩ := Res.bind_eq_ok.1 hm'
  cases hm'
  cases e2
  have : ∀ v, RoleType.unmarshal (T := T) env (.obj s) = .ok v → a1.signed = v := by
    intro v hv
    refine decFields_last (get := fun m : Metadata T => m.signed) (by decide) (by decide) ?_ ?_ hsp h1 e1
    · intro f j a a' hf hs
      unfold Metadata.setField at hs
      rw [if_neg hf] at hs
      obtain ⟨w, _, hs⟩ := Res.bind_eq_ok.1 hs
      cases hs
      rfl
    · intro a a' hs
      unfold Metadata.setField at hs
      rw [if_pos rfl, hv] at hs
      cases hs
      rfl
  -- the unmarshalling of `signed` succeeded
  obtain ⟨p, q, rfl, hq⟩ := h1
  have e1' : decFields Metadata.names (Metadata.setField env) (p ++ (b!"signed", .obj s) :: q) { signed := RoleType.zero } = .ok a1 := e1
  rw [decFields_append] at e1'
  obtain ⟨b1, _, e1'⟩ := Res.bind_eq_ok.1 e1'
  have hf : findField Metadata.names b!"signed" = some b!"signed" := by decide
  simp only [decFields, hf] at e1'
  obtain ⟨b2, hb2, _⟩ := Res.bind_eq_ok.1 e1'
  unfold Metadata.setField at hb2
  rw [if_pos rfl] at hb2
  obtain ⟨v, hv, _⟩ := Res.bind_eq_ok.1 hb2
  rw [hv]
  show Res.ok v = Res.ok a1.signed
  rw [this v hv]

end Tuf
