import Verif.Spec.Std.Text
import Verif.Proofs.Std.JsonParse
import Verif.Proofs.WellFormed
import Verif.Model.Metadata

/-! Metadata that was read can be written. -/

namespace Tuf.Std
open Tuf Tuf.Spec

theorem writable_mono {d : Nat} {j : Json} (h : Writable d j) : ∀ {d' : Nat}, d ≤ d' → Writable d' j := by
  induction h with
  | null => intro d' _; exact .null
  | bool => intro d' _; exact .bool
  | num => intro d' _; exact .num
  | frac h => intro d' _; exact .frac h
  | str h => intro d' _; exact .str h
  | esc h1 h2 h3 => intro d' _; exact .esc h1 h2 h3
  | arr _ ih =>
    intro d' hd
    obtain ⟨k, rfl⟩ : ∃ k, d' = k + 1 := ⟨d' - 1, by omega⟩
    exact .arr (fun j hj => ih j hj (by omega))
  | obj h _ ih =>
    intro d' hd
    obtain ⟨k, rfl⟩ : ∃ k, d' = k + 1 := ⟨d' - 1, by omega⟩
    exact .obj h (fun j hj => ih j hj (by omega))

theorem writable_obj {d : Nat} {m : List (Str × Json)} (h : FieldsText d m) : Writable (d + 1) (.obj m) := .obj (fun e he => (h e he).1) (fun e he => (h e he).2)

theorem writable_fields {d : Nat} {m : List (Str × Json)} (h : Writable (d + 1) (.obj m)) : FieldsText d m := by
  cases h with
  | obj h1 h2 => exact fun e he => ⟨h1 e he, h2 e he⟩

theorem writable_elems {d : Nat} {l : List Json} (h : Writable (d + 1) (.arr l)) : ∀ j ∈ l, Writable d j := by
  cases h with
  | arr h => exact h

theorem body_utf8 {t s : Bytes} (h : StringBody t s) : Utf8 s := stringRest_utf8 (stringRest_complete h _ [] (Nat.le_refl _))

theorem writable_string {d : Nat} {s : Str} (h : Writable d (.str s)) : Utf8 s := by
  cases h with
  | str h => exact h

/-! ## Decoding -/

theorem foldl_set_text {d : Nat} {es acc : List (Str × Json)} (he : FieldsText d es) (ha : FieldsText d acc) :
    FieldsText d (es.foldl (fun acc e => Entries.set acc e.1 e.2) acc) := by
  induction es generalizing acc with
  | nil => exact ha
  | cons e es ih =>
    refine ih (fun e he' => he e (by simp [he'])) ?_
    intro e' he'
    rcases Entries.mem_set he' with rfl | h
    · exact he e (by simp)
    · exact ha e' h

theorem toAny_writable {f : NumLit → Option NumLit} (hf : ∀ l l', f l = some (.inr l') → FracLit l') {d : Nat} {j : Json} (h : Writable d j) :
    ∀ {j' : Json}, Json.toAny f j = some j' → Writable d j' := by
  have lit : ∀ d l l', f l = some l' → Writable d (Json.ofLit l') := by
    intro d l l' hl
    cases l' with
    | inl n => exact .num
    | inr s => exact .frac (hf _ _ hl)
  induction h with
  | null => intro j' h; rw [Json.toAny] at h; cases h; exact .null
  | bool => intro j' h; rw [Json.toAny] at h; cases h; exact .bool
  | num =>
    intro j' h
    rw [Json.toAny] at h
    obtain ⟨l, h1, rfl⟩ := Option.map_eq_some_iff.1 h
    exact lit _ _ _ h1
  | frac _ =>
    intro j' h
    rw [Json.toAny] at h
    obtain ⟨l, h1, rfl⟩ := Option.map_eq_some_iff.1 h
    exact lit _ _ _ h1
  | str hs => intro j' h; rw [Json.toAny] at h; cases h; exact .str hs
  | esc hs _ _ => intro j' h; rw [Json.toAny] at h; cases h; exact .str (body_utf8 hs)
  | arr hw ih =>
    next d l =>
    intro j' h
    rw [Json.toAny] at h
    obtain ⟨l', h1, rfl⟩ := Option.map_eq_some_iff.1 h
    refine .arr ?_
    clear h
    induction l generalizing l' with
    | nil => rw [Json.toAnyList] at h1; cases h1; simp
    | cons j l ihl =>
      rw [Json.toAnyList] at h1
      split at h1
      · next h2 h3 =>
        cases h1
        intro j' hj'
        rcases List.mem_cons.1 hj' with rfl | hj'
        · exact ih j (by simp) h2
        · exact ihl (fun j hj => hw j (by simp [hj])) (fun j hj _ h => ih j (by simp [hj]) h) _ h3 j' hj'
      · cases h1
  | obj hk hw ih =>
    next d m =>
    intro j' h
    rw [Json.toAny] at h
    obtain ⟨es, h1, rfl⟩ := Option.map_eq_some_iff.1 h
    refine writable_obj (foldl_set_text ?_ (by intro e he; cases he))
    clear h
    induction m generalizing es with
    | nil => rw [Json.toAnyFields] at h1; cases h1; intro e he; cases he
    | cons e m ihl =>
      obtain ⟨k, j⟩ := e
      rw [Json.toAnyFields] at h1
      split at h1
      · next h2 h3 =>
        cases h1
        intro e' he'
        rcases List.mem_cons.1 he' with rfl | he'
        · exact ⟨hk (k, j) (by simp), ih (k, j) (by simp) h2⟩
        · exact ihl (fun e he => hk e (by simp [he])) (fun j hj => hw j (by simp [hj])) (fun j hj _ h => ih j (by simp [hj]) h) _ h3 e' he'
      · cases h1

theorem decStr_text {d : Nat} {j : Json} {old s : Str} (hj : Writable d j) (ho : Utf8 old) (h : decStr j old = .ok s) : Utf8 s := by
  unfold decStr at h
  split at h
  · cases h; exact ho
  · cases h; exact writable_string hj
  · cases h
    cases hj with
    | esc hs _ _ => exact body_utf8 hs
  · cases h

theorem decTime_text {env : Env} (he : TextEnv env) {j : Json} {old t : Time} (ho : Utf8 old.text) (h : decTime env j old = .ok t) : Utf8 t.text := by
  unfold decTime at h
  split at h
  · cases h; exact ho
  · exact he.timeText _ _ (Res.ofOption_eq_ok.1 h)
  · cases h

theorem decSlice_text {β : Type} {dec : Json → Res β} {P : β → Prop} {d : Nat} (hdec : ∀ j x, Writable d j → dec j = .ok x → P x) {j : Json} {s : Slice β}
    (hj : Writable (d + 1) j) (h : decSlice dec j = .ok s) : SliceText P s := by
  unfold decSlice at h
  split at h
  · cases h; intro x hx; cases hx
  · next l =>
    have hl := writable_elems hj
    obtain ⟨l', h1, rfl⟩ := Res.map_eq_ok.1 h
    clear h hj
    show ∀ x ∈ l', P x
    induction l generalizing l' with
    | nil => cases h1; intro x hx; cases hx
    | cons j l ih =>
      obtain ⟨x, h2, h1⟩ := Res.bind_eq_ok.1 h1
      obtain ⟨l2, h3, h1⟩ := Res.bind_eq_ok.1 h1
      cases h1
      rw [List.forall_mem_cons]
      exact ⟨hdec _ _ (hl j (by simp)) h2, ih (fun j hj => hl j (by simp [hj])) l2 h3⟩
  · cases h

theorem decStrings_text {d : Nat} {j : Json} {s : Slice Str} (hj : Writable (d + 1) j) (h : decSlice (fun j => decStr j []) j = .ok s) : SliceText Utf8 s :=
  decSlice_text (fun _ _ hj h => decStr_text hj utf8_nil h) hj h

theorem decMap_text {β : Type} {dec : Json → Res β} {P : β → Prop} {d : Nat} (hdec : ∀ j x, Writable d j → dec j = .ok x → P x) {j : Json} {old m : GoMap β}
    (hj : Writable (d + 1) j) (ho : MapText P old) (h : decMap dec j old = .ok m) : MapText P m := by
  unfold decMap at h
  split at h
  · cases h; intro e he; cases he
  · next es =>
    have hl := writable_fields hj
    obtain ⟨es', h1, rfl⟩ := Res.map_eq_ok.1 h
    clear h hj
    show ∀ e ∈ es', Utf8 e.1 ∧ P e.2
    have ho' : ∀ e ∈ old.entries, Utf8 e.1 ∧ P e.2 := ho
    generalize old.entries = acc at h1 ho'
    clear ho
    induction es generalizing acc with
    | nil => cases h1; exact ho'
    | cons e es ih =>
      obtain ⟨x, h2, h1⟩ := Res.bind_eq_ok.1 h1
      refine ih (fun e he => hl e (by simp [he])) _ h1 ?_
      intro e' he'
      rcases Entries.mem_set he' with rfl | he'
      · exact ⟨(hl e (by simp)).1, hdec _ _ (hl e (by simp)).2 h2⟩
      · exact ho' _ he'
  · cases h

theorem decPtr_text {β : Type} {dec : Json → Res β} {P : β → Prop} {d : Nat} (hdec : ∀ j x, Writable d j → dec j = .ok x → P x) {j : Json} {p : Option β}
    (hj : Writable d j) (h : decPtr dec j = .ok p) : PtrText P p := by
  intro x hx
  subst hx
  unfold decPtr at h
  split at h
  · cases h
  · obtain ⟨y, h1, h2⟩ := Res.map_eq_ok.1 h
    cases h2
    exact hdec _ _ hj h1

theorem unmarshalStruct_text {α : Type} {env : Env} (he : TextEnv env) {d : Nat} {names : List Str} {setField : Str → Json → α → Res α} {zero : α} {post : α → Res α}
    {setUnrec : Fields → α → α} {P : α → Prop} (hzero : P zero) (hset : ∀ f j a a', Writable d j → P a → setField f j a = .ok a' → P a') {j : Json} {a : α}
    (hj : Writable (d + 1) j) (h : unmarshalStruct env names setField zero post setUnrec j = .ok a) :
    ∃ a1 a2 u, P a1 ∧ post a1 = .ok a2 ∧ FieldsText d u ∧ a = setUnrec u a2 := by
  unfold unmarshalStruct at h
  obtain ⟨a1, h1, h⟩ := Res.bind_eq_ok.1 h
  obtain ⟨a2, h2, h⟩ := Res.bind_eq_ok.1 h
  obtain ⟨m, h3, h⟩ := Res.bind_eq_ok.1 h
  cases h
  have hm : FieldsText d m := by
    unfold decAnyMap at h3
    split at h3
    · cases h3; intro e he; cases he
    · split at h3
      · next hd => cases h3; exact writable_fields (toAny_writable he.anyLit hj hd)
      · cases h3
    · cases h3
  refine ⟨a1, a2, _, ?_, h2, ?_, rfl⟩
  · unfold decStruct at h1
    split at h1
    · cases h1; exact hzero
    · next ms =>
      have hms := writable_fields hj
      exact decFields_inv' (fun k f j a a' hm hf ha hs => hset f j a a' (hms _ hm).2 ha hs) hzero h1
    · cases h1
  · intro e he
    have : ∀ (ns : List Str) (m : Fields), (∀ e ∈ ns.foldl Entries.del m, e ∈ m) := by
      intro ns
      induction ns with
      | nil => intro m e he; exact he
      | cons n ns ih => intro m e he; exact (List.mem_filter.1 (ih _ e he)).1
    exact hm e (this _ _ e he)

/-! ## Encoding -/

theorem overCells_text {d : Nat} : ∀ {l : List Json} {cells : List Str}, (∀ j ∈ l, Writable d j) → (∀ s ∈ cells, Utf8 s) → ∀ j ∈ overCells l cells, Writable d j
  | [], _, _, _ => by simp [overCells]
  | j :: l, [], hl, _ => by rw [overCells_nil]; exact hl
  | j :: l, s :: cells, hl, hc => by
    have ih := overCells_text (l := l) (cells := cells) (fun j hj => hl j (List.mem_cons_of_mem _ hj)) (fun s hs => hc s (List.mem_cons_of_mem _ hs))
    have hj := hl j (by simp)
    refine List.forall_mem_cons.2 ⟨?_, ih⟩
    unfold overCell
    split
    · exact .str (hc s (by simp))
    · exact hj

theorem cellText_utf8 {d : Nat} {j : Json} (h : Writable d j) : Utf8 (cellText j) := by
  cases j with
  | str s => exact writable_string h
  | esc b s => cases h with | esc h => exact body_utf8 h
  | _ => exact utf8_nil

theorem refillOne_text {d : Nat} {cells : List Str} {j : Json} (hc : ∀ s ∈ cells, Utf8 s) (hj : Writable (d + 1) j) : Writable (d + 1) (refillOne cells j).1 ∧ ∀ s ∈ (refillOne cells j).2, Utf8 s := by
  unfold refillOne
  split
  · have := overCells_text (writable_elems hj) hc
    refine ⟨.arr this, ?_⟩
    intro s hs
    rcases List.mem_append.1 hs with hs | hs
    · obtain ⟨j, hj, rfl⟩ := List.mem_map.1 hs
      exact cellText_utf8 (this j hj)
    · exact hc s (List.mem_of_mem_drop hs)
  · exact ⟨hj, by simp⟩

theorem refill_text {d : Nat} {names : List Str} {f : Str} {m : List (Str × Json)} : ∀ {cells : List Str}, (∀ s ∈ cells, Utf8 s) → FieldsText (d + 1) m → FieldsText (d + 1) (refill names f cells m) := by
  induction m with
  | nil => intro cells _ _ e he; cases he
  | cons e m ih =>
    obtain ⟨k, j⟩ := e
    intro cells hc hm
    have h1 := hm (k, j) (by simp)
    have h2 : FieldsText (d + 1) m := fun e he => hm e (List.mem_cons_of_mem _ he)
    rw [refill]
    split
    · obtain ⟨h3, h4⟩ := refillOne_text hc h1.2
      exact List.forall_mem_cons.2 ⟨⟨h1.1, h3⟩, ih h4 h2⟩
    · exact List.forall_mem_cons.2 ⟨h1, ih hc h2⟩

theorem refillAll_text {d : Nat} {names lists : List Str} {j : Json} (hj : Writable (d + 1 + 1) j) : Writable (d + 1 + 1) (refillAll names lists j) := by
  unfold refillAll
  split
  · next m =>
    refine .obj ?_ ?_ <;> {
      have : ∀ (l : List Str) (m : List (Str × Json)), FieldsText (d + 1) m → FieldsText (d + 1) (l.foldl (fun m f => refill names f [] m) m) := by
        intro l
        induction l with
        | nil => exact fun _ h => h
        | cons f l ih => exact fun m h => ih _ (refill_text (by simp) h)
      intro e he
      first | exact (this lists m (writable_fields hj) e he).1 | exact (this lists m (writable_fields hj) e he).2 }
  · exact hj

theorem unmarshalLists_text {α : Type} {env : Env} (he : TextEnv env) {d : Nat} {names lists : List Str} {setField : Str → Json → α → Res α} {zero : α}
    {setUnrec : Fields → α → α} {P : α → Prop} (hzero : P zero) (hset : ∀ f j a a', Writable (d + 1) j → P a → setField f j a = .ok a' → P a') {j : Json} {a : α}
    (hj : Writable (d + 1 + 1) j) (h : unmarshalLists env names lists setField zero setUnrec j = .ok a) :
    ∃ a1 u, P a1 ∧ FieldsText (d + 1) u ∧ a = setUnrec u a1 := by
  unfold unmarshalLists at h
  obtain ⟨a1, h1, h⟩ := Res.bind_eq_ok.1 h
  obtain ⟨m, h3, h⟩ := Res.bind_eq_ok.1 h
  cases h
  have hm : FieldsText (d + 1) m := by
    unfold decAnyMap at h3
    split at h3
    · cases h3; intro e he; cases he
    · split at h3
      · next hd => cases h3; exact writable_fields (toAny_writable he.anyLit hj hd)
      · cases h3
    · cases h3
  have hj := refillAll_text (names := names) (lists := lists) hj
  refine ⟨a1, _, ?_, ?_, rfl⟩
  · unfold decStruct at h1
    split at h1
    · cases h1; exact hzero
    · next ms hms =>
      rw [hms] at hj
      have hms := writable_fields hj
      exact decFields_inv' (fun k f j a a' hm hf ha hs => hset f j a a' (hms _ hm).2 ha hs) hzero h1
    · cases h1
  · intro e he
    have : ∀ (ns : List Str) (m : Fields), (∀ e ∈ ns.foldl Entries.del m, e ∈ m) := by
      intro ns
      induction ns with
      | nil => intro m e he; exact he
      | cons n ns ih => intro m e he; exact (List.mem_filter.1 (ih _ e he)).1
    exact hm e (this _ _ e he)

theorem fieldsText_mono {d d' : Nat} {m : List (Str × Json)} (h : FieldsText d m) (hd : d ≤ d') : FieldsText d' m := fun e he => ⟨(h e he).1, writable_mono (h e he).2 hd⟩

theorem fieldsText_nil {d : Nat} : FieldsText d [] := fun e he => by cases he

theorem fieldsText_cons {d : Nat} {k : Str} {j : Json} {m : List (Str × Json)} (hk : Utf8 k) (hj : Writable d j) (hm : FieldsText d m) : FieldsText d ((k, j) :: m) := by
  intro e he
  rcases List.mem_cons.1 he with rfl | he
  · exact ⟨hk, hj⟩
  · exact hm e he

theorem fieldsText_append {d : Nat} {m m' : List (Str × Json)} (h : FieldsText d m) (h' : FieldsText d m') : FieldsText d (m ++ m') := by
  intro e he
  rcases List.mem_append.1 he with he | he
  · exact h e he
  · exact h' e he

theorem mkDict_text {d : Nat} {u : Fields} {m : List (Str × Json)} (hu : FieldsText d u) (hm : FieldsText d m) : Writable (d + 1) (.obj (mkDict u m)) :=
  writable_obj (foldl_set_text hm hu)

theorem encStrings_text {d : Nat} {s : Slice Str} (h : SliceText Utf8 s) : Writable (d + 1) (encSlice .str s) := by
  cases s with
  | none => exact .null
  | some l =>
    refine .arr ?_
    intro j hj
    obtain ⟨x, hx, rfl⟩ := List.mem_map.1 hj
    exact .str (h x hx)

theorem encSlice_text {β : Type} {enc : β → Json} {P : β → Prop} {d : Nat} (henc : ∀ x, P x → Writable d (enc x)) {s : Slice β} (h : SliceText P s) : Writable (d + 1) (encSlice enc s) := by
  cases s with
  | none => exact .null
  | some l =>
    refine .arr ?_
    intro j hj
    obtain ⟨x, hx, rfl⟩ := List.mem_map.1 hj
    exact henc x (h x hx)

theorem encMap_text {β : Type} {enc : β → Json} {P : β → Prop} {d : Nat} (henc : ∀ x, P x → Writable d (enc x)) {m : GoMap β} (h : MapText P m) : Writable (d + 1) (encMap enc m) := by
  cases m with
  | none => exact .null
  | some l =>
    refine writable_obj ?_
    intro j hj
    obtain ⟨x, hx, rfl⟩ := List.mem_map.1 hj
    exact ⟨(h x hx).1, henc x.2 (h x hx).2⟩

theorem encPtr_text {β : Type} {enc : β → Json} {P : β → Prop} {d : Nat} (henc : ∀ x, P x → Writable d (enc x)) (p : Option β) (h : PtrText P p) : Writable d (encPtr enc p) := by
  cases p with
  | none => exact .null
  | some a => exact henc a (h a rfl)

theorem hexEncode_utf8 (b : Bytes) : Utf8 (hexEncode b) := by
  apply utf8_ascii
  have key : ∀ d, d < 16 → (digitChar d).toNat < 128 := by decide
  induction b with
  | nil => intro c hc; cases hc
  | cons x b ih =>
    have hx := x.toNat_lt
    intro c hc
    rw [hexEncode] at hc
    rcases List.mem_cons.1 hc with rfl | hc
    · exact key _ (by omega)
    · rcases List.mem_cons.1 hc with rfl | hc
      · exact key _ (by omega)
      · exact ih c hc

theorem encHashes_text {d : Nat} {m : Hashes} (h : MapText (fun _ => True) m) : Writable (d + 1) (encMap encHex m) := encMap_text (fun _ _ => .str (hexEncode_utf8 _)) h

/-- For the names of fields. -/
theorem utf8_name {s : Str} (h : (s.all fun c => decide (c.toNat < 128)) = true) : Utf8 s := utf8_ascii (by simpa using h)

/-! ## The types -/

theorem KeyVal.text {env : Env} (he : TextEnv env) {d : Nat} {j : Json} {a : KeyVal} (hj : Writable (d + 1) j) (h : KeyVal.unmarshal env j = .ok a) : KeyValText d a := by
  obtain ⟨a1, a2, u, h1, h2, hu, rfl⟩ := unmarshalStruct_text he (P := KeyValText d) ⟨utf8_nil, fieldsText_nil⟩ (by
    intro f j a a' hj ha hs
    unfold KeyVal.setField at hs
    obtain ⟨v, hv, hs⟩ := Res.bind_eq_ok.1 hs
    cases hs; exact { ha with publicKey := decStr_text hj ha.publicKey hv }) hj h
  cases h2
  exact { h1 with fields := hu }

theorem Key.text {env : Env} (he : TextEnv env) {d : Nat} {j : Json} {a : Key} (hj : Writable (d + 1 + 1) j) (h : Key.unmarshal env j = .ok a) : KeyText d a := by
  obtain ⟨a1, a2, u, h1, h2, hu, rfl⟩ := unmarshalStruct_text he (P := KeyText d) ⟨utf8_nil, utf8_nil, ⟨utf8_nil, fieldsText_nil⟩, fieldsText_nil⟩ (by
    intro f j a a' hj ha hs
    unfold Key.setField at hs
    split at hs
    · obtain ⟨v, hv, hs⟩ := Res.bind_eq_ok.1 hs
      cases hs; exact { ha with type := decStr_text hj ha.type hv }
    split at hs
    · obtain ⟨v, hv, hs⟩ := Res.bind_eq_ok.1 hs
      cases hs; exact { ha with scheme := decStr_text hj ha.scheme hv }
    · obtain ⟨v, hv, hs⟩ := Res.bind_eq_ok.1 hs
      cases hs; exact { ha with value := KeyVal.text he hj hv }) hj h
  cases h2
  exact { h1 with fields := hu }

theorem Role.text {env : Env} (he : TextEnv env) {d : Nat} {j : Json} {a : Role} (hj : Writable (d + 1 + 1) j) (h : Role.unmarshal env j = .ok a) : RoleText d a := by
  obtain ⟨a1, u, h1, hu, rfl⟩ := unmarshalLists_text he (P := RoleText d) ⟨(by intro x hx; cases hx), fieldsText_nil⟩ (by
    intro f j a a' hj ha hs
    unfold Role.setField at hs
    split at hs
    · obtain ⟨v, hv, hs⟩ := Res.bind_eq_ok.1 hs
      cases hs; exact { ha with keyIDs := decStrings_text hj hv }
    · obtain ⟨v, hv, hs⟩ := Res.bind_eq_ok.1 hs
      cases hs; exact { ha with fields := ha.fields }) hj h
  exact { h1 with fields := hu }

theorem MetaFiles.text {env : Env} (he : TextEnv env) {d : Nat} {j : Json} {a : MetaFiles} (hj : Writable (d + 1 + 1) j) (h : MetaFiles.unmarshal env j = .ok a) : MetaText d a := by
  obtain ⟨a1, a2, u, h1, h2, hu, rfl⟩ := unmarshalStruct_text he (P := MetaText d) ⟨(by intro x hx; cases hx), fieldsText_nil⟩ (by
    intro f j a a' hj ha hs
    unfold MetaFiles.setField at hs
    split at hs
    · obtain ⟨v, hv, hs⟩ := Res.bind_eq_ok.1 hs
      cases hs; exact { ha with fields := ha.fields }
    split at hs
    · obtain ⟨v, hv, hs⟩ := Res.bind_eq_ok.1 hs
      cases hs; exact { ha with hashes := decMap_text (fun _ _ _ _ => trivial) hj ha.hashes hv }
    · obtain ⟨v, hv, hs⟩ := Res.bind_eq_ok.1 hs
      cases hs; exact { ha with fields := ha.fields }) hj h
  cases h2
  exact { h1 with fields := hu }

theorem TargetFiles.text {env : Env} (he : TextEnv env) {d : Nat} {j : Json} {a : TargetFiles} (hj : Writable (d + 1 + 1) j) (h : TargetFiles.unmarshal env j = .ok a) : TargetText d a := by
  obtain ⟨a1, a2, u, h1, h2, hu, rfl⟩ := unmarshalStruct_text he (P := TargetText d) ⟨(by intro x hx; cases hx), (by intro x hx; cases hx), fieldsText_nil⟩ (by
    intro f j a a' hj ha hs
    unfold TargetFiles.setField at hs
    split at hs
    · obtain ⟨v, hv, hs⟩ := Res.bind_eq_ok.1 hs
      cases hs; exact { ha with fields := ha.fields }
    split at hs
    · obtain ⟨v, hv, hs⟩ := Res.bind_eq_ok.1 hs
      cases hs; exact { ha with hashes := decMap_text (fun _ _ _ _ => trivial) hj ha.hashes hv }
    · obtain ⟨v, hv, hs⟩ := Res.bind_eq_ok.1 hs
      cases hs; exact { ha with custom := decPtr_text (fun _ _ hw h => by cases h; exact hw) hj hv }) hj h
  cases h2
  exact { h1 with fields := hu }

theorem DelegatedRole.text {env : Env} (he : TextEnv env) {d : Nat} {j : Json} {a : DelegatedRole} (hj : Writable (d + 1 + 1) j) (h : DelegatedRole.unmarshal env j = .ok a) : DelegatedText d a := by
  obtain ⟨a1, u, h1, hu, rfl⟩ := unmarshalLists_text he (P := DelegatedText d) ⟨utf8_nil, (by intro x hx; cases hx), (by intro x hx; cases hx), (by intro x hx; cases hx), fieldsText_nil⟩ (by
    intro f j a a' hj ha hs
    unfold DelegatedRole.setField at hs
    split at hs
    · obtain ⟨v, hv, hs⟩ := Res.bind_eq_ok.1 hs
      cases hs; exact { ha with name := decStr_text hj ha.name hv }
    split at hs
    · obtain ⟨v, hv, hs⟩ := Res.bind_eq_ok.1 hs
      cases hs; exact { ha with keyIDs := decStrings_text hj hv }
    split at hs
    · obtain ⟨v, hv, hs⟩ := Res.bind_eq_ok.1 hs
      cases hs; exact { ha with fields := ha.fields }
    split at hs
    · obtain ⟨v, hv, hs⟩ := Res.bind_eq_ok.1 hs
      cases hs; exact { ha with fields := ha.fields }
    split at hs
    · obtain ⟨v, hv, hs⟩ := Res.bind_eq_ok.1 hs
      cases hs; exact { ha with prefixes := decStrings_text hj hv }
    · obtain ⟨v, hv, hs⟩ := Res.bind_eq_ok.1 hs
      cases hs; exact { ha with paths := decStrings_text hj hv }) hj h
  exact { h1 with fields := hu }

theorem SuccinctRoles.text {env : Env} (he : TextEnv env) {d : Nat} {j : Json} {a : SuccinctRoles} (hj : Writable (d + 1 + 1) j) (h : SuccinctRoles.unmarshal env j = .ok a) : SuccinctText d a := by
  obtain ⟨a1, u, h1, hu, rfl⟩ := unmarshalLists_text he (P := SuccinctText d) ⟨(by intro x hx; cases hx), utf8_nil, fieldsText_nil⟩ (by
    intro f j a a' hj ha hs
    unfold SuccinctRoles.setField at hs
    split at hs
    · obtain ⟨v, hv, hs⟩ := Res.bind_eq_ok.1 hs
      cases hs; exact { ha with keyIDs := decStrings_text hj hv }
    split at hs
    · obtain ⟨v, hv, hs⟩ := Res.bind_eq_ok.1 hs
      cases hs; exact { ha with fields := ha.fields }
    split at hs
    · obtain ⟨v, hv, hs⟩ := Res.bind_eq_ok.1 hs
      cases hs; exact { ha with fields := ha.fields }
    · obtain ⟨v, hv, hs⟩ := Res.bind_eq_ok.1 hs
      cases hs; exact { ha with namePrefix := decStr_text hj ha.namePrefix hv }) hj h
  exact { h1 with fields := hu }

theorem Delegations.text {env : Env} (he : TextEnv env) {d : Nat} {j : Json} {a : Delegations} (hj : Writable (d + 3 + 1) j) (h : Delegations.unmarshal env j = .ok a) : DelegationsText d a := by
  obtain ⟨a1, a2, u, h1, h2, hu, rfl⟩ := unmarshalStruct_text he (P := DelegationsText d) ⟨(by intro x hx; cases hx), (by intro x hx; cases hx), (by intro x hx; cases hx), fieldsText_nil⟩ (by
    intro f j a a' hj ha hs
    unfold Delegations.setField at hs
    split at hs
    · obtain ⟨v, hv, hs⟩ := Res.bind_eq_ok.1 hs
      cases hs; exact { ha with keys := decMap_text (fun _ _ hj h => decPtr_text (fun _ _ => Key.text he) hj h) hj ha.keys hv }
    split at hs
    · obtain ⟨v, hv, hs⟩ := Res.bind_eq_ok.1 hs
      cases hs; exact { ha with roles := decSlice_text (fun _ _ => DelegatedRole.text he) hj hv }
    · obtain ⟨v, hv, hs⟩ := Res.bind_eq_ok.1 hs
      cases hs; exact { ha with succinct := decPtr_text (fun _ _ => SuccinctRoles.text he) hj hv }) hj h
  cases h2
  exact { h1 with fields := hu }

theorem Signature.text {env : Env} (he : TextEnv env) {d : Nat} {j : Json} {a : Signature} (hj : Writable (d + 1) j) (h : Signature.unmarshal env j = .ok a) : SignatureText d a := by
  obtain ⟨a1, a2, u, h1, h2, hu, rfl⟩ := unmarshalStruct_text he (P := SignatureText d) ⟨utf8_nil, fieldsText_nil⟩ (by
    intro f j a a' hj ha hs
    unfold Signature.setField at hs
    split at hs
    · obtain ⟨v, hv, hs⟩ := Res.bind_eq_ok.1 hs
      cases hs; exact { ha with keyID := decStr_text hj ha.keyID hv }
    · obtain ⟨v, hv, hs⟩ := Res.bind_eq_ok.1 hs
      cases hs; exact { ha with fields := ha.fields }) hj h
  cases h2
  exact { h1 with fields := hu }

theorem RootType.text {env : Env} (he : TextEnv env) {d : Nat} {j : Json} {a : RootType} (hj : Writable (d + 4 + 1) j) (h : RootType.unmarshal env j = .ok a) : RootText d a := by
  obtain ⟨a1, a2, u, h1, h2, hu, rfl⟩ := unmarshalStruct_text he (P := RootText d) ⟨utf8_nil, utf8_nil, utf8_name (by decide), (by intro x hx; cases hx), (by intro x hx; cases hx), fieldsText_nil⟩ (by
    intro f j a a' hj ha hs
    unfold RootType.setField at hs
    split at hs
    · obtain ⟨v, hv, hs⟩ := Res.bind_eq_ok.1 hs
      cases hs; exact { ha with type := decStr_text hj ha.type hv }
    split at hs
    · obtain ⟨v, hv, hs⟩ := Res.bind_eq_ok.1 hs
      cases hs; exact { ha with spec := decStr_text hj ha.spec hv }
    split at hs
    · obtain ⟨v, hv, hs⟩ := Res.bind_eq_ok.1 hs
      cases hs; exact { ha with fields := ha.fields }
    split at hs
    · obtain ⟨v, hv, hs⟩ := Res.bind_eq_ok.1 hs
      cases hs; exact { ha with fields := ha.fields }
    split at hs
    · obtain ⟨v, hv, hs⟩ := Res.bind_eq_ok.1 hs
      cases hs; exact { ha with expires := decTime_text he ha.expires hv }
    split at hs
    · obtain ⟨v, hv, hs⟩ := Res.bind_eq_ok.1 hs
      cases hs; exact { ha with keys := decMap_text (fun _ _ hj h => decPtr_text (fun _ _ => Key.text he) hj h) hj ha.keys hv }
    · obtain ⟨v, hv, hs⟩ := Res.bind_eq_ok.1 hs
      cases hs; exact { ha with roles := decMap_text (fun _ _ hj h => decPtr_text (fun _ _ => Role.text he) hj h) hj ha.roles hv }) hj h
  cases h2
  exact { h1 with fields := hu }

theorem SnapshotType.text {env : Env} (he : TextEnv env) {d : Nat} {j : Json} {a : SnapshotType} (hj : Writable (d + 4 + 1) j) (h : SnapshotType.unmarshal env j = .ok a) : SnapshotText d a := by
  obtain ⟨a1, a2, u, h1, h2, hu, rfl⟩ := unmarshalStruct_text he (P := SnapshotText d) ⟨utf8_nil, utf8_nil, utf8_name (by decide), (by intro x hx; cases hx), fieldsText_nil⟩ (by
    intro f j a a' hj ha hs
    unfold SnapshotType.setField at hs
    split at hs
    · obtain ⟨v, hv, hs⟩ := Res.bind_eq_ok.1 hs
      cases hs; exact { ha with type := decStr_text hj ha.type hv }
    split at hs
    · obtain ⟨v, hv, hs⟩ := Res.bind_eq_ok.1 hs
      cases hs; exact { ha with spec := decStr_text hj ha.spec hv }
    split at hs
    · obtain ⟨v, hv, hs⟩ := Res.bind_eq_ok.1 hs
      cases hs; exact { ha with fields := ha.fields }
    split at hs
    · obtain ⟨v, hv, hs⟩ := Res.bind_eq_ok.1 hs
      cases hs; exact { ha with expires := decTime_text he ha.expires hv }
    · obtain ⟨v, hv, hs⟩ := Res.bind_eq_ok.1 hs
      cases hs; exact { ha with metas := decMap_text (fun _ _ hj h => decPtr_text (fun _ _ => MetaFiles.text he) hj h) hj ha.metas hv }) hj h
  cases h2
  exact { h1 with fields := hu }

theorem TimestampType.text {env : Env} (he : TextEnv env) {d : Nat} {j : Json} {a : TimestampType} (hj : Writable (d + 4 + 1) j) (h : TimestampType.unmarshal env j = .ok a) : TimestampText d a := by
  obtain ⟨a1, a2, u, h1, h2, hu, rfl⟩ := unmarshalStruct_text he (P := TimestampText d) ⟨utf8_nil, utf8_nil, utf8_name (by decide), (by intro x hx; cases hx), fieldsText_nil⟩ (by
    intro f j a a' hj ha hs
    unfold TimestampType.setField at hs
    split at hs
    · obtain ⟨v, hv, hs⟩ := Res.bind_eq_ok.1 hs
      cases hs; exact { ha with type := decStr_text hj ha.type hv }
    split at hs
    · obtain ⟨v, hv, hs⟩ := Res.bind_eq_ok.1 hs
      cases hs; exact { ha with spec := decStr_text hj ha.spec hv }
    split at hs
    · obtain ⟨v, hv, hs⟩ := Res.bind_eq_ok.1 hs
      cases hs; exact { ha with fields := ha.fields }
    split at hs
    · obtain ⟨v, hv, hs⟩ := Res.bind_eq_ok.1 hs
      cases hs; exact { ha with expires := decTime_text he ha.expires hv }
    · obtain ⟨v, hv, hs⟩ := Res.bind_eq_ok.1 hs
      cases hs; exact { ha with metas := decMap_text (fun _ _ hj h => decPtr_text (fun _ _ => MetaFiles.text he) hj h) hj ha.metas hv }) hj h
  cases h2
  exact { h1 with fields := hu }

theorem setPaths_text {d : Nat} {es es' : Entries (Option TargetFiles)} (h : MapText (PtrText (TargetText d)) (some es)) (hs : setPaths es = .ok es') :
    MapText (PtrText (TargetText d)) (some es') := by
  have h' : ∀ e ∈ es, Utf8 e.1 ∧ PtrText (TargetText d) e.2 := h
  show ∀ e ∈ es', Utf8 e.1 ∧ PtrText (TargetText d) e.2
  clear h
  induction es generalizing es' with
  | nil => cases hs; exact h'
  | cons e es ih =>
    obtain ⟨k, t⟩ := e
    cases t with
    | none => cases hs
    | some t =>
      obtain ⟨r, h1, hs⟩ := Res.bind_eq_ok.1 hs
      cases hs
      intro e he
      rcases List.mem_cons.1 he with rfl | he
      · refine ⟨(h' _ (.head _)).1, ?_⟩
        intro a ha
        cases ha
        have := (h' _ (.head _)).2 t rfl
        exact ⟨this.hashes, this.custom, this.fields⟩
      · exact ih h1 (fun e he => h' e (.tail _ he)) e he

theorem TargetsType.text {env : Env} (he : TextEnv env) {d : Nat} {j : Json} {a : TargetsType} (hj : Writable (d + 4 + 1) j) (h : TargetsType.unmarshal env j = .ok a) : TargetsText d a := by
  obtain ⟨a1, a2, u, h1, h2, hu, rfl⟩ := unmarshalStruct_text he (P := TargetsText d) ⟨utf8_nil, utf8_nil, utf8_name (by decide), (by intro x hx; cases hx), (by intro x hx; cases hx), fieldsText_nil⟩ (by
    intro f j a a' hj ha hs
    unfold TargetsType.setField at hs
    split at hs
    · obtain ⟨v, hv, hs⟩ := Res.bind_eq_ok.1 hs
      cases hs; exact { ha with type := decStr_text hj ha.type hv }
    split at hs
    · obtain ⟨v, hv, hs⟩ := Res.bind_eq_ok.1 hs
      cases hs; exact { ha with spec := decStr_text hj ha.spec hv }
    split at hs
    · obtain ⟨v, hv, hs⟩ := Res.bind_eq_ok.1 hs
      cases hs; exact { ha with fields := ha.fields }
    split at hs
    · obtain ⟨v, hv, hs⟩ := Res.bind_eq_ok.1 hs
      cases hs; exact { ha with expires := decTime_text he ha.expires hv }
    split at hs
    · obtain ⟨v, hv, hs⟩ := Res.bind_eq_ok.1 hs
      cases hs; exact { ha with targets := decMap_text (fun _ _ hj h => decPtr_text (fun _ _ => TargetFiles.text he) hj h) hj ha.targets hv }
    · obtain ⟨v, hv, hs⟩ := Res.bind_eq_ok.1 hs
      cases hs; exact { ha with delegations := decPtr_text (fun _ _ => Delegations.text he) hj hv }) hj h
  unfold TargetsType.setTargetPaths at h2
  split at h2
  · cases h2; exact { h1 with fields := hu }
  · next es hes =>
    obtain ⟨es', h3, h2⟩ := Res.bind_eq_ok.1 h2
    cases h2
    have ht := h1.targets
    rw [hes] at ht
    exact { h1 with fields := hu, targets := setPaths_text ht h3 }

theorem KeyVal.writable {d : Nat} {a : KeyVal} (h : KeyValText d a) : Writable (d + 1) a.marshal :=
  mkDict_text h.fields (fieldsText_cons (utf8_name (by decide)) (.str h.publicKey) fieldsText_nil)

theorem Key.writable {d : Nat} {a : Key} (h : KeyText d a) : Writable (d + 2) a.marshal :=
  mkDict_text h.fields (fieldsText_cons (utf8_name (by decide)) (.str h.type) (fieldsText_cons (utf8_name (by decide)) (.str h.scheme)
    (fieldsText_cons (utf8_name (by decide)) (KeyVal.writable h.value) fieldsText_nil)))

theorem Role.writable {d : Nat} {a : Role} (h : RoleText d a) : Writable (d + 2) a.marshal :=
  mkDict_text h.fields (fieldsText_cons (utf8_name (by decide)) (encStrings_text h.keyIDs) (fieldsText_cons (utf8_name (by decide)) .num fieldsText_nil))

theorem MetaFiles.writable {d : Nat} {a : MetaFiles} (h : MetaText d a) : Writable (d + 2) a.marshal := by
  refine mkDict_text h.fields (fieldsText_append (fieldsText_append ?_ ?_) (fieldsText_cons (utf8_name (by decide)) .num fieldsText_nil))
  · split
    · exact fieldsText_cons (utf8_name (by decide)) .num fieldsText_nil
    · exact fieldsText_nil
  · split
    · exact fieldsText_cons (utf8_name (by decide)) (encHashes_text h.hashes) fieldsText_nil
    · exact fieldsText_nil

theorem TargetFiles.writable {d : Nat} {a : TargetFiles} (h : TargetText d a) : Writable (d + 2) a.marshal := by
  refine mkDict_text h.fields (fieldsText_append
    (fieldsText_cons (utf8_name (by decide)) .num (fieldsText_cons (utf8_name (by decide)) (encHashes_text h.hashes) fieldsText_nil)) ?_)
  split
  · next c hc => exact fieldsText_cons (utf8_name (by decide)) (h.custom c hc) fieldsText_nil
  · exact fieldsText_nil

theorem DelegatedRole.writable {d : Nat} {a : DelegatedRole} (h : DelegatedText d a) {j : Json} (hm : a.marshal = .ok j) : Writable (d + 2) j := by
  have base : FieldsText (d + 1) [(b!"name", .str a.name), (b!"keyids", encSlice .str a.keyIDs), (b!"threshold", .num a.threshold), (b!"terminating", .bool a.terminating)] :=
    fieldsText_cons (utf8_name (by decide)) (.str h.name) (fieldsText_cons (utf8_name (by decide)) (encStrings_text h.keyIDs)
      (fieldsText_cons (utf8_name (by decide)) .num (fieldsText_cons (utf8_name (by decide)) .bool fieldsText_nil)))
  unfold DelegatedRole.marshal at hm
  dsimp only at hm
  split at hm
  · cases hm
  · next hp _ =>
    cases hm
    have := h.paths
    rw [hp] at this
    exact mkDict_text h.fields (fieldsText_append base (fieldsText_cons (utf8_name (by decide)) (encStrings_text this) fieldsText_nil))
  · next hp =>
    cases hm
    have := h.prefixes
    rw [hp] at this
    exact mkDict_text h.fields (fieldsText_append base (fieldsText_cons (utf8_name (by decide)) (encStrings_text this) fieldsText_nil))
  · cases hm
    exact mkDict_text h.fields base

theorem SuccinctRoles.writable {d : Nat} {a : SuccinctRoles} (h : SuccinctText d a) : Writable (d + 2) a.marshal :=
  mkDict_text h.fields (fieldsText_cons (utf8_name (by decide)) (encStrings_text h.keyIDs) (fieldsText_cons (utf8_name (by decide)) .num
    (fieldsText_cons (utf8_name (by decide)) .num (fieldsText_cons (utf8_name (by decide)) (.str h.namePrefix) fieldsText_nil))))

theorem marshalRoles_writable {d : Nat} {rs : List DelegatedRole} (h : ∀ a ∈ rs, DelegatedText d a) {js : List Json} (hm : marshalRoles rs = .ok js) : ∀ j ∈ js, Writable (d + 2) j := by
  induction rs generalizing js with
  | nil => cases hm; intro j hj; cases hj
  | cons r rs ih =>
    obtain ⟨j, h1, hm⟩ := Res.bind_eq_ok.1 hm
    obtain ⟨js', h2, hm⟩ := Res.bind_eq_ok.1 hm
    cases hm
    intro j' hj'
    rcases List.mem_cons.1 hj' with rfl | hj'
    · exact DelegatedRole.writable (h r (.head _)) h1
    · exact ih (fun a ha => h a (.tail _ ha)) h2 j' hj'

theorem Delegations.writable {d : Nat} {a : Delegations} (h : DelegationsText d a) {j : Json} (hm : a.marshal = .ok j) : Writable (d + 4) j := by
  have keys : Writable (d + 3) (encMap (encPtr Key.marshal) a.keys) := encMap_text (encPtr_text (fun _ => Key.writable)) h.keys
  unfold Delegations.marshal at hm
  dsimp only at hm
  split at hm
  · next rs hr =>
    obtain ⟨js, h1, hm⟩ := Res.bind_eq_ok.1 hm
    cases hm
    have := h.roles
    rw [hr] at this
    exact mkDict_text h.fields (fieldsText_cons (utf8_name (by decide)) keys (fieldsText_cons (utf8_name (by decide)) (.arr (marshalRoles_writable this h1)) fieldsText_nil))
  · split at hm
    · next s hs =>
      cases hm
      exact mkDict_text h.fields (fieldsText_cons (utf8_name (by decide)) keys (fieldsText_cons (utf8_name (by decide)) (SuccinctRoles.writable (h.succinct s hs)) fieldsText_nil))
    · cases hm
      exact mkDict_text h.fields (fieldsText_cons (utf8_name (by decide)) keys fieldsText_nil)

theorem Signature.writable {d : Nat} {a : Signature} (h : SignatureText d a) : Writable (d + 1) a.marshal :=
  mkDict_text h.fields (fieldsText_cons (utf8_name (by decide)) (.str h.keyID) (fieldsText_cons (utf8_name (by decide)) (.str (hexEncode_utf8 _)) fieldsText_nil))

theorem RootType.writable {d : Nat} {a : RootType} (h : RootText d a) {j : Json} (hm : RootType.marshal a = .ok j) : Writable (d + 5) j := by
  cases hm
  exact mkDict_text h.fields (fieldsText_cons (utf8_name (by decide)) (.str h.type) (fieldsText_cons (utf8_name (by decide)) (.str h.spec)
    (fieldsText_cons (utf8_name (by decide)) .bool (fieldsText_cons (utf8_name (by decide)) .num (fieldsText_cons (utf8_name (by decide)) (.str h.expires)
    (fieldsText_cons (utf8_name (by decide)) (encMap_text (encPtr_text (fun _ => Key.writable)) h.keys)
    (fieldsText_cons (utf8_name (by decide)) (encMap_text (encPtr_text (fun _ => Role.writable)) h.roles) fieldsText_nil)))))))

theorem SnapshotType.writable {d : Nat} {a : SnapshotType} (h : SnapshotText d a) {j : Json} (hm : SnapshotType.marshal a = .ok j) : Writable (d + 5) j := by
  cases hm
  exact mkDict_text h.fields (fieldsText_cons (utf8_name (by decide)) (.str h.type) (fieldsText_cons (utf8_name (by decide)) (.str h.spec)
    (fieldsText_cons (utf8_name (by decide)) .num (fieldsText_cons (utf8_name (by decide)) (.str h.expires)
    (fieldsText_cons (utf8_name (by decide)) (encMap_text (encPtr_text (fun _ => MetaFiles.writable)) h.metas) fieldsText_nil)))))

theorem TimestampType.writable {d : Nat} {a : TimestampType} (h : TimestampText d a) {j : Json} (hm : TimestampType.marshal a = .ok j) : Writable (d + 5) j := by
  cases hm
  exact mkDict_text h.fields (fieldsText_cons (utf8_name (by decide)) (.str h.type) (fieldsText_cons (utf8_name (by decide)) (.str h.spec)
    (fieldsText_cons (utf8_name (by decide)) .num (fieldsText_cons (utf8_name (by decide)) (.str h.expires)
    (fieldsText_cons (utf8_name (by decide)) (encMap_text (encPtr_text (fun _ => MetaFiles.writable)) h.metas) fieldsText_nil)))))

theorem TargetsType.writable {d : Nat} {a : TargetsType} (h : TargetsText d a) {j : Json} (hm : TargetsType.marshal a = .ok j) : Writable (d + 5) j := by
  have base : FieldsText (d + 4) [(b!"_type", .str a.type), (b!"spec_version", .str a.specVersion), (b!"version", .num a.version), (b!"expires", .str a.expires.text),
      (b!"targets", encMap (encPtr TargetFiles.marshal) a.targets)] :=
    fieldsText_cons (utf8_name (by decide)) (.str h.type) (fieldsText_cons (utf8_name (by decide)) (.str h.spec)
      (fieldsText_cons (utf8_name (by decide)) .num (fieldsText_cons (utf8_name (by decide)) (.str h.expires)
      (fieldsText_cons (utf8_name (by decide)) (encMap_text (encPtr_text (fun _ => TargetFiles.writable)) h.targets) fieldsText_nil))))
  unfold TargetsType.marshal at hm
  dsimp only at hm
  split at hm
  · cases hm; exact mkDict_text h.fields base
  · next dl hd =>
    obtain ⟨j', h1, hm⟩ := Res.bind_eq_ok.1 hm
    cases hm
    exact mkDict_text h.fields (fieldsText_append base (fieldsText_cons (utf8_name (by decide)) (Delegations.writable (h.delegations dl hd) h1) fieldsText_nil))

/-! ## Documents -/

/-- What the four types have in common. -/
structure TextType {T : Type} [RoleType T] (env : Env) (P : Nat → T → Prop) : Prop where
  zero : ∀ d, P d RoleType.zero
  text : ∀ d j a, Writable (d + 5) j → RoleType.unmarshal env j = .ok a → P d a
  writable : ∀ d a j, P d a → RoleType.marshal a = .ok j → Writable (d + 5) j

theorem document_text {T : Type} [RoleType T] {env : Env} {P : Nat → T → Prop} (he : TextEnv env) (hP : TextType env P) {d : Nat} {j : Json} {m : Metadata T}
    (hj : Writable (d + 6) j) (h : Metadata.unmarshal env j = .ok m) : DocumentText P d m := by
  obtain ⟨a1, a2, u, h1, h2, hu, rfl⟩ := unmarshalStruct_text he (P := DocumentText P d) ⟨hP.zero d, (by intro x hx; cases hx), fieldsText_nil⟩ (by
    intro f j a a' hj ha hs
    unfold Metadata.setField at hs
    split at hs
    · obtain ⟨v, hv, hs⟩ := Res.bind_eq_ok.1 hs
      cases hs; exact { ha with signed := hP.text d _ _ hj hv }
    · obtain ⟨v, hv, hs⟩ := Res.bind_eq_ok.1 hs
      cases hs; exact { ha with signatures := decSlice_text (fun _ _ => Signature.text he) hj hv }) hj h
  cases h2
  exact { h1 with fields := hu }

theorem document_writable {T : Type} [RoleType T] {env : Env} {P : Nat → T → Prop} (hP : TextType env P) {d : Nat} {m : Metadata T} (h : DocumentText P d m) {j : Json}
    (hm : m.marshal = .ok j) : Writable (d + 6) j := by
  obtain ⟨s, h1, hm⟩ := Res.bind_eq_ok.1 hm
  cases hm
  exact mkDict_text h.fields (fieldsText_cons (utf8_name (by decide)) (hP.writable d _ _ h.signed h1) (fieldsText_cons (utf8_name (by decide))
    (encSlice_text (fun _ => Signature.writable) h.signatures) fieldsText_nil))

theorem rootText {env : Env} (he : TextEnv env) : TextType env RootText where
  zero := fun _ => RootType.text he (j := .null) .null rfl
  text := fun _ _ _ => RootType.text he
  writable := fun _ _ _ h hm => RootType.writable h hm

theorem snapshotText {env : Env} (he : TextEnv env) : TextType env SnapshotText where
  zero := fun _ => SnapshotType.text he (j := .null) .null rfl
  text := fun _ _ _ => SnapshotType.text he
  writable := fun _ _ _ h hm => SnapshotType.writable h hm

theorem timestampText {env : Env} (he : TextEnv env) : TextType env TimestampText where
  zero := fun _ => TimestampType.text he (j := .null) .null rfl
  text := fun _ _ _ => TimestampType.text he
  writable := fun _ _ _ h hm => TimestampType.writable h hm

theorem targetsText {env : Env} (he : TextEnv env) : TextType env TargetsText where
  zero := fun _ => TargetsType.text he (j := .null) .null rfl
  text := fun _ _ _ => TargetsType.text he
  writable := fun _ _ _ h hm => TargetsType.writable h hm

/-- A document that can be written is read back as the same syntax tree. -/
theorem printed {T : Type} [RoleType T] {env : Env} {P : Nat → T → Prop} (he : TextEnv env) (hP : TextType env P) {m : Metadata T} (h : DocumentText P 9994 m) (pretty : Bool) :
    ∀ j, m.marshal = .ok j → env.parse (env.print pretty j) = some j := by
  intro j hj
  rw [he.parse, he.print]
  exact json_round_trip pretty (document_writable hP h hj)

/-- A document that was read can be written. -/
theorem read_text {T : Type} [RoleType T] {env : Env} {P : Nat → T → Prop} (he : TextEnv env) (hP : TextType env P) {data : Bytes} {m : Metadata T}
    (h : fromBytes env data = .ok m) : DocumentText P 9994 m := by
  unfold fromBytes at h
  obtain ⟨_, _, h⟩ := Res.bind_eq_ok.1 h
  obtain ⟨j, hj, h⟩ := Res.bind_eq_ok.1 h
  obtain ⟨m', hm, h⟩ := Res.bind_eq_ok.1 h
  obtain ⟨_, _, h⟩ := Res.bind_eq_ok.1 h
  cases h
  rw [Res.ofOption_eq_ok, he.parse] at hj
  exact document_text he hP (parseJson_writable hj) hm

end Tuf.Std
