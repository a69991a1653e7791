import Verif.Props.Fields
import Verif.Props.MultiRepo
import Verif.Spec.MapFile

/-!
# Reading map files (C123)
-/

namespace Tuf
open Spec Sample

variable {env : Env}

/-! ## Members of structs -/

theorem decFields_silent {α β : Type} {names : List Str} {setField : Str → Json → α → Res α} {get : α → β} {f0 : Str} (hsi : SimpleName f0)
    (hother : ∀ f j a a', f ∈ names → f ≠ f0 → setField f j a = .ok a' → get a' = get a) {m : List (Str × Json)} (hs : Unmentioned m f0) {a a' : α}
    (h : decFields names setField m a = .ok a') : get a' = get a := by
  refine decFields_inv' (P := fun b => get b = get a) ?_ rfl h
  intro k f j a a' hm hkf hP hset
  rw [hother f j a a' (findField_mem hkf) (fun hff => hs (k, j) hm ((foldKey_spelled hsi).1 (by rw [← hff]; exact (findField_fold hkf).symm))) hset]
  exact hP

/-- As `decFields_last_says`, for the fields of the struct only. -/
theorem decFields_last_says' {α β : Type} {names : List Str} {setField : Str → Json → α → Res α} {get : α → β} {f0 : Str} {j0 : Json} {P : β → Prop}
    (hsi : ∀ n ∈ names, SimpleName n) (hmem : f0 ∈ names) (hother : ∀ f j a a', f ∈ names → f ≠ f0 → setField f j a = .ok a' → get a' = get a)
    (hset : ∀ a a', setField f0 j0 a = .ok a' → P (get a')) {m : List (Str × Json)}
    (hl : LastSpelled m f0 j0) {a a' : α} (h : decFields names setField m a = .ok a') : P (get a') := by
  obtain ⟨p, k0, q, rfl, hk0, hq⟩ := hl
  rw [decFields_append] at h
  obtain ⟨a1, _, h⟩ := Res.bind_eq_ok.1 h
  have hf : findField names k0 = some f0 := (findField_spelled hsi hmem).2 hk0
  simp only [decFields, hf] at h
  obtain ⟨a2, h2, h⟩ := Res.bind_eq_ok.1 h
  rw [decFields_silent (hsi f0 hmem) hother hq h]
  exact hset a1 a2 h2

/-- One mention decides. -/
theorem decFields_once {α β : Type} {names : List Str} {setField : Str → Json → α → Res α} {get : α → β} {f0 : Str} {j0 : Json} {P : β → β → Prop}
    (hsi : ∀ n ∈ names, SimpleName n) (hmem : f0 ∈ names) (hother : ∀ f j a a', f ∈ names → f ≠ f0 → setField f j a = .ok a' → get a' = get a)
    (hset : ∀ a a', setField f0 j0 a = .ok a' → P (get a) (get a')) {m : List (Str × Json)}
    (hl : Once m f0 j0) {a a' : α} (h : decFields names setField m a = .ok a') : P (get a) (get a') := by
  obtain ⟨p, k0, q, rfl, hk0, hq⟩ := hl
  rw [decFields_append] at h
  obtain ⟨a1, h1, h⟩ := Res.bind_eq_ok.1 h
  have hf : findField names k0 = some f0 := (findField_spelled hsi hmem).2 hk0
  simp only [decFields, hf] at h
  obtain ⟨a2, h2, h⟩ := Res.bind_eq_ok.1 h
  rw [decFields_silent (hsi f0 hmem) hother (fun e he => hq e (List.mem_append_right _ he)) h]
  rw [← decFields_silent (hsi f0 hmem) hother (fun e he => hq e (List.mem_append_left _ he)) h1]
  exact hset a1 a2 h2

theorem decFields_says {α β : Type} {names : List Str} {setField : Str → Json → α → Res α} {get : α → β} {f0 : Str} {R : Json → β → Prop}
    (hsi : ∀ n ∈ names, SimpleName n) (hmem : f0 ∈ names) (hother : ∀ f j a a', f ∈ names → f ≠ f0 → setField f j a = .ok a' → get a' = get a)
    {m : List (Str × Json)} (hp : Unmentioned m f0 ∨ ∃ j, Once m f0 j) {a a' : α} (hset : ∀ e ∈ m, Spelled f0 e.1 → ∀ b b', get b = get a → setField f0 e.2 b = .ok b' → R e.2 (get b'))
    (h : decFields names setField m a = .ok a') : Says R (get a) m f0 (get a') := by
  rcases hp with hp | ⟨j, hj⟩
  · exact .inl ⟨hp, decFields_silent (hsi f0 hmem) hother hp h⟩
  · refine .inr ⟨j, hj, ?_⟩
    have hmj : ∃ k, (k, j) ∈ m ∧ Spelled f0 k := by
      obtain ⟨p, k0, q, rfl, hk0, _⟩ := hj
      exact ⟨k0, by simp, hk0⟩
    obtain ⟨k, hk, hs⟩ := hmj
    exact decFields_once (P := fun b b' => b = get a → R j b') hsi hmem hother (fun b b' hb heq => hset (k, j) hk hs b b' heq hb) hj h rfl

/-- Decoding succeeds if every member that counts can be decoded. -/
theorem decFields_succeeds {α : Type} {names : List Str} {setField : Str → Json → α → Res α} {m : List (Str × Json)}
    (hm : ∀ e ∈ m, ∀ f, findField names e.1 = some f → ∀ a, ∃ a', setField f e.2 a = .ok a') (a : α) : ∃ a', decFields names setField m a = .ok a' := by
  induction m generalizing a with
  | nil => exact ⟨a, rfl⟩
  | cons e m ih =>
    have ih := ih (fun e he => hm e (List.mem_cons_of_mem _ he))
    obtain ⟨k, j⟩ := e
    rw [decFields]
    split
    · exact ih a
    · next f hf =>
      obtain ⟨a1, h1⟩ := hm (k, j) (by simp) f hf a
      rw [h1, Res.bind_ok]
      exact ih a1

/-- A value that is said is decoded by a decoder that takes everything `R` allows. -/
theorem Spec.Says.all {α : Type} {R : Json → α → Prop} {zero : α} {m : List (Str × Json)} {name : Str} {v : α} (h : Says R zero m name v) :
    ∀ e ∈ m, Spelled name e.1 → ∃ v, R e.2 v := by
  rcases h with ⟨h, _⟩ | ⟨j, ⟨p, k, q, rfl, _, hq⟩, hR⟩
  · exact fun e he hs => absurd hs (h e he)
  · intro e he hs
    simp only [List.mem_append, List.mem_cons] at he
    rcases he with he | rfl | he
    · exact absurd hs (hq e (List.mem_append_left _ he))
    · exact ⟨v, hR⟩
    · exact absurd hs (hq e (List.mem_append_right _ he))

/-! ## Values -/

theorem decStr_as {j : Json} {s : Str} : decStr j [] = .ok s ↔ TextAs j s := by
  unfold decStr TextAs IsText
  cases j <;> simp [eq_comm]

theorem decInt_as {j : Json} {n : Int} : decInt j 0 = .ok n ↔ IntAs j n := by
  unfold IntAs
  cases j with
  | num k =>
    show (if inInt64 k = true then Res.ok k else .err jsonErr) = _ ↔ _
    split
    · next hk => exact ⟨fun h => by cases h; exact .inl ⟨.inl rfl, hk⟩, fun h => by rcases h with ⟨h | ⟨h, _⟩, _⟩ | ⟨h, _⟩ <;> cases h; rfl⟩
    · next hk => exact ⟨fun h => (by cases h), fun h => by rcases h with ⟨h | ⟨h, _⟩, h'⟩ | ⟨h, _⟩ <;> cases h; exact absurd h' hk⟩
  | frac l =>
    show (if l = b!"-0" then Res.ok (0 : Int) else .err jsonErr) = _ ↔ _
    split
    · next hl => exact ⟨fun h => by cases h; exact .inl ⟨.inr ⟨by rw [hl], rfl⟩, by decide⟩, fun h => by rcases h with ⟨h | ⟨_, rfl⟩, _⟩ | ⟨h, _⟩ <;> first | rfl | cases h⟩
    · next hl => exact ⟨fun h => (by cases h), fun h => by rcases h with ⟨h | ⟨h, _⟩, _⟩ | ⟨h, _⟩ <;> cases h; exact absurd rfl hl⟩
  | null =>
    constructor
    · intro h; cases h; exact .inr ⟨rfl, rfl⟩
    · rintro (⟨h | ⟨h, _⟩, _⟩ | ⟨_, rfl⟩)
      · cases h
      · cases h
      · rfl
  | _ => exact ⟨fun h => (by cases h), fun h => by rcases h with ⟨h | ⟨h, _⟩, _⟩ | ⟨h, _⟩ <;> cases h⟩

theorem decBool_as {j : Json} {b : Bool} : decBool j false = .ok b ↔ BoolAs j b := by
  unfold decBool BoolAs
  cases j <;> simp [eq_comm]

theorem decList_as {α : Type} {R : Json → α → Prop} {dec : Json → Res α} (hd : ∀ j a, dec j = .ok a ↔ R j a) : ∀ {l : List Json} {v : List α},
    decList dec l = .ok v ↔ EachAs R l v
  | [], v => by
    unfold decList
    constructor
    · intro h; cases h; exact .nil
    · intro h; cases h; rfl
  | j :: l, v => by
    unfold decList
    constructor
    · intro h
      obtain ⟨a, h1, h⟩ := Res.bind_eq_ok.1 h
      obtain ⟨b, h2, h⟩ := Res.bind_eq_ok.1 h
      cases h
      exact .cons ((hd _ _).1 h1) ((decList_as hd).1 h2)
    · intro h
      cases h with
      | cons h1 h2 => rw [(hd _ _).2 h1, Res.bind_ok, (decList_as hd).2 h2, Res.bind_ok]

theorem decSlice_as {j : Json} {v : Slice Str} : decSlice (fun j => decStr j []) j = .ok v ↔ ListAs TextAs j v := by
  unfold decSlice
  constructor
  · intro h
    split at h
    · cases h; exact .null
    · obtain ⟨v, h1, rfl⟩ := Res.map_eq_ok.1 h
      exact .arr ((decList_as (fun _ _ => decStr_as)).1 h1)
    · cases h
  · intro h
    cases h with
    | null => rfl
    | arr h => simp only []; rw [(decList_as (fun _ _ => decStr_as)).2 h]; rfl

theorem decOver_fresh {α β : Type} {R : Json → β → Prop} {g : α → β} {dec : Json → α → Res α} {zero : α} {l : List Json} (hd : ∀ j ∈ l, ∀ a, dec j zero = .ok a → R j (g a)) :
    ∀ {v : List α}, decOver dec zero l [] = .ok v → EachAs R l (v.map g) := by
  induction l with
  | nil => intro v h; cases h; exact .nil
  | cons j l ih =>
    intro v h
    obtain ⟨a, h1, h⟩ := Res.bind_eq_ok.1 h
    obtain ⟨b, h2, h⟩ := Res.bind_eq_ok.1 h
    cases h
    exact .cons (hd j (by simp) a h1) (ih (fun j hj => hd j (List.mem_cons_of_mem _ hj)) h2)

theorem decBuf_fresh {α β : Type} {R : Json → β → Prop} {g : α → β} {dec : Json → α → Res α} {zero : α} {j : Json} (hd : ∀ l, j = .arr l → ∀ i ∈ l, ∀ a, dec i zero = .ok a → R i (g a)) {b : Buf α}
    (h : decBuf dec zero j {} = .ok b) : ListAs R j (b.slice.map (fun l => l.map g)) := by
  unfold decBuf at h
  split at h
  · cases h; exact .null
  · cases h; exact .arr .nil
  · next l hl =>
    obtain ⟨v, h1, h⟩ := Res.bind_eq_ok.1 h
    cases h
    exact .arr (decOver_fresh (hd l rfl) h1)
  · cases h

theorem decOver_succeeds {α β : Type} {R : Json → β → Prop} {dec : Json → α → Res α} {zero : α} (hd : ∀ j b, R j b → ∀ a, ∃ a', dec j a = .ok a') {l : List Json} {v : List β}
    (h : EachAs R l v) : ∀ old : List α, ∃ v', decOver dec zero l old = .ok v' := by
  induction h with
  | nil => exact fun old => ⟨[], rfl⟩
  | cons h1 _ ih =>
    intro old
    obtain ⟨a, ha⟩ := hd _ _ h1 (old.headD zero)
    obtain ⟨b, hb⟩ := ih old.tail
    exact ⟨a :: b, by rw [decOver, ha, Res.bind_ok, hb, Res.bind_ok]⟩

theorem decBuf_succeeds {α β : Type} {R : Json → β → Prop} {dec : Json → α → Res α} {zero : α} (hd : ∀ j b, R j b → ∀ a, ∃ a', dec j a = .ok a') {j : Json} {v : Slice β}
    (h : ListAs R j v) (b : Buf α) : ∃ b', decBuf dec zero j b = .ok b' := by
  cases h with
  | null => exact ⟨_, rfl⟩
  | arr h =>
    cases h with
    | nil => exact ⟨_, rfl⟩
    | cons h1 h2 =>
      obtain ⟨v, hv⟩ := decOver_succeeds (zero := zero) hd (.cons h1 h2) (b.slice.elems ++ b.rest)
      exact ⟨⟨some v, _⟩, by unfold decBuf; simp only []; rw [hv, Res.bind_ok]⟩

theorem decStr_succeeds {j : Json} {s : Str} (h : TextAs j s) (old : Str) : ∃ v, decStr j old = .ok v := by
  rcases h with (rfl | ⟨_, rfl⟩) | ⟨rfl, _⟩ <;> exact ⟨_, rfl⟩

/-! ## Mappings -/

theorem Spec.Says.map {α β : Type} {R : Json → β → Prop} {g : α → β} {zero v : α} {m : List (Str × Json)} {name : Str} (h : Says (fun j a => R j (g a)) zero m name v) :
    Says R (g zero) m name (g v) := by
  rcases h with ⟨h, rfl⟩ | ⟨j, h1, h2⟩
  · exact .inl ⟨h, rfl⟩
  · exact .inr ⟨j, h1, h2⟩

theorem texts_as {j : Json} {b : Buf Str} (h : decBuf decStr [] j {} = .ok b) : ListAs TextAs j b.slice := by
  have h := decBuf_fresh (R := TextAs) (g := id) (fun l _ i _ a ha => decStr_as.1 ha) h
  rcases b with ⟨_ | l, r⟩
  · exact h
  · simpa using h

theorem mapping_says {o : List (Str × Json)} (hp : Plain [b!"paths", b!"repositories", b!"threshold", b!"terminating"] o) {b : MappingBuf}
    (h : decFields Mapping.names Mapping.setField o {} = .ok b) : MappingAs (.obj o) (some b.done) := by
  refine .obj ?_ ?_ ?_ ?_
  · refine Says.map (g := fun b : Buf Str => b.slice) (zero := {}) (decFields_says (get := fun b : MappingBuf => b.paths) (a := {}) (a' := b) (by decide) (by decide) ?_ (hp _ (by simp)) ?_ h)
    · intro f j a a' hn hf h
      unfold Mapping.setField at h
      repeat' split at h
      all_goals (obtain ⟨v, hv, h⟩ := Res.bind_eq_ok.1 h; cases h; first | rfl | contradiction)
    · intro e _ _ a a' ha h
      obtain ⟨v, hv, h⟩ := Res.bind_eq_ok.1 (show (_ >>= _) = Res.ok a' from h)
      cases h
      rw [ha] at hv
      exact texts_as hv
  · refine Says.map (g := fun b : Buf Str => b.slice) (zero := {}) (decFields_says (get := fun b : MappingBuf => b.repositories) (a := {}) (a' := b) (by decide) (by decide) ?_ (hp _ (by simp)) ?_ h)
    · intro f j a a' hn hf h
      unfold Mapping.setField at h
      repeat' split at h
      all_goals (obtain ⟨v, hv, h⟩ := Res.bind_eq_ok.1 h; cases h; first | rfl | contradiction)
    · intro e _ _ a a' ha h
      obtain ⟨v, hv, h⟩ := Res.bind_eq_ok.1 (show (_ >>= _) = Res.ok a' from h)
      cases h
      rw [ha] at hv
      exact texts_as hv
  · refine decFields_says (get := fun b : MappingBuf => b.threshold) (a := {}) (a' := b) (by decide) (by decide) ?_ (hp _ (by simp)) ?_ h
    · intro f j a a' hn hf h
      unfold Mapping.setField at h
      repeat' split at h
      all_goals (obtain ⟨v, hv, h⟩ := Res.bind_eq_ok.1 h; cases h; first | rfl | contradiction)
    · intro e _ _ a a' ha h
      obtain ⟨v, hv, h⟩ := Res.bind_eq_ok.1 (show (_ >>= _) = Res.ok a' from h)
      cases h
      rw [ha] at hv
      exact decInt_as.1 hv
  · refine decFields_says (get := fun b : MappingBuf => b.terminating) (a := {}) (a' := b) (by decide) (by decide) ?_ (hp _ (by simp)) ?_ h
    · intro f j a a' hn hf h
      unfold Mapping.setField at h
      simp only [Mapping.names, List.mem_cons, List.not_mem_nil, or_false] at hn
      repeat' split at h
      all_goals (obtain ⟨v, hv, h⟩ := Res.bind_eq_ok.1 h; cases h)
      all_goals first
        | rfl
        | simp_all
    · intro e _ _ a a' ha h
      obtain ⟨v, hv, h⟩ := Res.bind_eq_ok.1 (show (_ >>= _) = Res.ok a' from h)
      cases h
      rw [ha] at hv
      exact decBool_as.1 hv

theorem mapping_succeeds {j : Json} {p : Option Mapping} (h : MappingAs j p) (old : Option MappingBuf) : ∃ b, Mapping.decode j old = .ok b := by
  cases h with
  | null => exact ⟨none, rfl⟩
  | @obj m p h1 h2 h3 h4 =>
    have : ∃ b, decFields Mapping.names Mapping.setField m (old.getD {}) = .ok b := by
      refine decFields_succeeds ?_ _
      intro e he f hf a
      have hmem := findField_mem hf
      have hsp := (findField_spelled (by decide) hmem).1 hf
      simp only [Mapping.names, List.mem_cons, List.not_mem_nil, or_false] at hmem
      rcases hmem with rfl | rfl | rfl | rfl
      · obtain ⟨v, hv⟩ := h1.all e he hsp
        obtain ⟨b, hb⟩ := decBuf_succeeds (zero := ([] : Str)) (fun _ _ h => decStr_succeeds h) hv a.paths
        exact ⟨{ a with paths := b }, by show (_ >>= _) = _; rw [hb, Res.bind_ok]⟩
      · obtain ⟨v, hv⟩ := h2.all e he hsp
        obtain ⟨b, hb⟩ := decBuf_succeeds (zero := ([] : Str)) (fun _ _ h => decStr_succeeds h) hv a.repositories
        exact ⟨{ a with repositories := b }, by show (_ >>= _) = _; rw [hb, Res.bind_ok]⟩
      · obtain ⟨v, hv⟩ := h3.all e he hsp
        obtain ⟨b, hb⟩ : ∃ b, decInt e.2 a.threshold = .ok b := by
          rcases hv with ⟨hj | ⟨hj, _⟩, hn⟩ | ⟨hj, _⟩
          · exact ⟨v, by rw [hj]; simp [decInt, hn]⟩
          · exact ⟨0, by rw [hj]; rfl⟩
          · exact ⟨_, by rw [hj]; rfl⟩
        exact ⟨{ a with threshold := b }, by show (_ >>= _) = _; rw [hb, Res.bind_ok]⟩
      · obtain ⟨v, hv⟩ := h4.all e he hsp
        obtain ⟨b, hb⟩ : ∃ b, decBool e.2 a.terminating = .ok b := by
          rcases hv with hj | ⟨hj, _⟩ <;> exact ⟨_, by rw [hj]; rfl⟩
        exact ⟨{ a with terminating := b }, by show (_ >>= _) = _; rw [hb, Res.bind_ok]⟩
    obtain ⟨b, hb⟩ := this
    exact ⟨some b, by unfold Mapping.decode; simp only []; rw [hb]; rfl⟩

/-! ## Repositories -/

theorem LastMember.cons {m : List (Str × Json)} {k : Str} {j j0 : Json} {k0 : Str} : LastMember ((k0, j0) :: m) k j ↔ LastMember m k j ∨ (k = k0 ∧ j = j0 ∧ ∀ e ∈ m, e.1 ≠ k) := by
  constructor
  · rintro ⟨p, q, h, hq⟩
    cases p with
    | nil => simp only [List.nil_append, List.cons.injEq, Prod.mk.injEq] at h; obtain ⟨⟨rfl, rfl⟩, rfl⟩ := h; exact .inr ⟨rfl, rfl, hq⟩
    | cons a p => simp only [List.cons_append, List.cons.injEq] at h; exact .inl ⟨p, q, h.2, hq⟩
  · rintro (⟨p, q, rfl, hq⟩ | ⟨rfl, rfl, hq⟩)
    · exact ⟨(k0, j0) :: p, q, rfl, hq⟩
    · exact ⟨[], m, rfl, hq⟩

theorem decEntries_last {α : Type} {R : Json → α → Prop} {dec : Json → Res α} (hd : ∀ j a, dec j = .ok a ↔ R j a) {m : List (Str × Json)} : ∀ {acc es : Entries α}, decEntries dec m acc = .ok es →
    (∀ e ∈ m, ∃ v, R e.2 v) ∧ ∀ k v, es.get? k = some v ↔ (∃ j, LastMember m k j ∧ R j v) ∨ ((∀ e ∈ m, e.1 ≠ k) ∧ acc.get? k = some v) := by
  induction m with
  | nil =>
    intro acc es h
    cases h
    refine ⟨by simp, fun k v => ⟨fun h => .inr ⟨by simp, h⟩, ?_⟩⟩
    rintro (⟨j, ⟨p, q, h, _⟩, _⟩ | ⟨_, h⟩)
    · cases p <;> cases h
    · exact h
  | cons e m ih =>
    intro acc es h
    obtain ⟨k0, j0⟩ := e
    obtain ⟨a, h1, h⟩ := Res.bind_eq_ok.1 h
    obtain ⟨h2, h3⟩ := ih h
    refine ⟨?_, ?_⟩
    · intro e he
      rcases List.mem_cons.1 he with rfl | he
      · exact ⟨a, (hd _ _).1 h1⟩
      · exact h2 e he
    · intro k v
      rw [h3, Entries.get?_set]
      constructor
      · rintro (⟨j, hj, hR⟩ | ⟨hn, h⟩)
        · exact .inl ⟨j, LastMember.cons.2 (.inl hj), hR⟩
        · split at h
          · next hk => cases h; exact .inl ⟨j0, LastMember.cons.2 (.inr ⟨by simp_all, rfl, hn⟩), (hd _ _).1 h1⟩
          · next hk =>
            refine .inr ⟨?_, h⟩
            intro e he
            rcases List.mem_cons.1 he with rfl | he
            · exact hk
            · exact hn e he
      · rintro (⟨j, hj, hR⟩ | ⟨hn, h⟩)
        · rcases LastMember.cons.1 hj with hj | ⟨rfl, rfl, hq⟩
          · exact .inl ⟨j, hj, hR⟩
          · refine .inr ⟨hq, ?_⟩
            have := (hd _ _).2 hR
            rw [h1] at this
            cases this
            simp
        · refine .inr ⟨fun e he => hn e (List.mem_cons_of_mem _ he), ?_⟩
          have := hn (k0, j0) (by simp)
          simp_all [eq_comm]

theorem urls_says {j : Json} {es : GoMap (Slice Str)} (h : decMap (decSlice (fun j => decStr j [])) j none = .ok es) : UrlsAs j es := by
  have hu := decMap_nodup h (by exact List.nodup_nil)
  unfold decMap at h
  split at h
  · cases h; exact .null
  · next m =>
    obtain ⟨l, h1, rfl⟩ := Res.map_eq_ok.1 h
    obtain ⟨h2, h3⟩ := decEntries_last (R := ListAs TextAs) (fun _ _ => decSlice_as) h1
    refine .obj h2 (fun k v => ?_) hu
    rw [h3]
    exact ⟨fun h => h.elim id (fun h => absurd h.2 (by intro h; cases h)), .inl⟩
  · cases h

theorem urls_succeeds {j : Json} {g : GoMap (Slice Str)} (h : UrlsAs j g) (old : GoMap (Slice Str)) : ∃ es, decMap (decSlice (fun j => decStr j [])) j old = .ok es := by
  cases h with
  | null => exact ⟨none, rfl⟩
  | @obj m es h1 _ _ =>
    have : ∀ acc, ∃ l, decEntries (decSlice (fun j => decStr j [])) m acc = .ok l := by
      rename_i hx _
      clear hx
      induction m with
      | nil => exact fun acc => ⟨acc, rfl⟩
      | cons e m ih =>
        intro acc
        obtain ⟨v, hv⟩ := h1 e (by simp)
        obtain ⟨l, hl⟩ := ih (fun e he => h1 e (List.mem_cons_of_mem _ he)) (acc.set e.1 v)
        exact ⟨l, by rw [decEntries, decSlice_as.2 hv, Res.bind_ok, hl]⟩
    obtain ⟨l, hl⟩ := this old.entries
    exact ⟨some l, by unfold decMap; simp only []; rw [hl]; rfl⟩

/-! ## Map files -/

theorem repoMap_says {j : Json} (hp : PlainMap j) {m : RepoMap} (h : RepoMap.decode j = .ok m) : MapAs j m := by
  unfold RepoMap.decode at h
  split at h
  · next d =>
    obtain ⟨b, hb, rfl⟩ := Res.map_eq_ok.1 h
    obtain ⟨hp1, hp2⟩ := hp d rfl
    refine .obj ?_ ?_
    · refine decFields_says (get := fun b : RepoMapBuf => b.repositories) (a := {}) (a' := b) (by decide) (by decide) ?_ (hp1 _ (by simp)) ?_ hb
      · intro f j a a' hn hf h
        unfold RepoMap.setField at h
        repeat' split at h
        all_goals (obtain ⟨v, hv, h⟩ := Res.bind_eq_ok.1 h; cases h; first | rfl | contradiction)
      · intro e _ _ a a' ha h
        obtain ⟨v, hv, h⟩ := Res.bind_eq_ok.1 (show (_ >>= _) = Res.ok a' from h)
        cases h
        rw [ha] at hv
        exact urls_says hv
    · refine Says.map (R := ListAs MappingAs) (g := fun b : Buf (Option MappingBuf) => b.slice.map (fun l => l.map (fun p => p.map MappingBuf.done))) (zero := {})
        (decFields_says (f0 := b!"mapping") (get := fun b : RepoMapBuf => b.mapping) (a := {}) (a' := b) (by decide) (by decide) ?_ (hp1 _ (by simp)) ?_ hb)
      · intro f j a a' hn hf h
        unfold RepoMap.setField at h
        simp only [RepoMap.names, List.mem_cons, List.not_mem_nil, or_false] at hn
        repeat' split at h
        all_goals (obtain ⟨v, hv, h⟩ := Res.bind_eq_ok.1 h; cases h)
        all_goals first
          | rfl
          | simp_all
      · intro e he hs a a' ha h
        obtain ⟨v, hv, h⟩ := Res.bind_eq_ok.1 (show (_ >>= _) = Res.ok a' from h)
        cases h
        rw [ha] at hv
        refine decBuf_fresh (R := MappingAs) (g := fun p : Option MappingBuf => p.map MappingBuf.done) ?_ hv
        intro l hl i hi p hp
        unfold Mapping.decode at hp
        split at hp
        · cases hp; exact .null
        · next o =>
          obtain ⟨q, hq, rfl⟩ := Res.map_eq_ok.1 hp
          exact mapping_says (hp2 e he hs l hl o hi) hq
        · cases hp
  · cases h

theorem repoMap_succeeds {j : Json} {m : RepoMap} (h : MapAs j m) : ∃ m', RepoMap.decode j = .ok m' := by
  cases h with
  | @obj d p h1 h2 =>
    have : ∃ b, decFields RepoMap.names RepoMap.setField d {} = .ok b := by
      refine decFields_succeeds ?_ _
      intro e he f hf a
      have hmem := findField_mem hf
      have hsp := (findField_spelled (by decide) hmem).1 hf
      simp only [RepoMap.names, List.mem_cons, List.not_mem_nil, or_false] at hmem
      rcases hmem with rfl | rfl
      · obtain ⟨v, hv⟩ := h1.all e he hsp
        obtain ⟨b, hb⟩ := urls_succeeds hv a.repositories
        exact ⟨{ a with repositories := b }, by show (_ >>= _) = _; rw [hb, Res.bind_ok]⟩
      · obtain ⟨v, hv⟩ := h2.all e he hsp
        obtain ⟨b, hb⟩ := decBuf_succeeds (zero := none) (fun _ _ h => mapping_succeeds h) hv a.mapping
        exact ⟨{ a with mapping := b }, by show (_ >>= _) = _; rw [hb, Res.bind_ok]⟩
    obtain ⟨b, hb⟩ := this
    exact ⟨b.done, by unfold RepoMap.decode; simp only []; rw [hb]; rfl⟩

theorem Once.unique {m : List (Str × Json)} {name : Str} {j j' : Json} (h : Once m name j) (h' : Once m name j') : j = j' := by
  obtain ⟨p, k, q, rfl, hk, hq⟩ := h
  obtain ⟨p', k', q', he, hk', hq'⟩ := h'
  have : (k, j) ∈ p' ++ (k', j') :: q' := he ▸ (by simp)
  simp only [List.mem_append, List.mem_cons, Prod.mk.injEq] at this
  rcases this with h | ⟨_, h⟩ | h
  · exact absurd hk (hq' _ (List.mem_append_left _ h))
  · exact h
  · exact absurd hk (hq' _ (List.mem_append_right _ h))

theorem Once.mentioned {m : List (Str × Json)} {name : Str} {j : Json} (h : Once m name j) : ¬ Unmentioned m name := by
  obtain ⟨p, k, q, rfl, hk, _⟩ := h
  exact fun hu => hu (k, j) (by simp) hk

/-- A map file names its repositories. -/
theorem mapAs_repositories {j : Json} {m m' : RepoMap} (h : MapAs j m) (h' : MapAs j m') (repo : Str) : m.repositories.get? repo = m'.repositories.get? repo := by
  cases h with
  | obj h _ =>
    cases h' with
    | obj h' _ =>
      rcases h with ⟨h, e⟩ | ⟨j, hj, hR⟩ <;> rcases h' with ⟨h', e'⟩ | ⟨j', hj', hR'⟩
      · rw [e, e']
      · exact absurd h (Once.mentioned hj')
      · exact absurd h' (Once.mentioned hj)
      · cases Once.unique hj hj'
        revert hR hR'
        generalize m.repositories = g
        generalize m'.repositories = g'
        intro hR hR'
        cases hR with
        | null => cases hR'; rfl
        | obj _ h2 _ =>
          cases hR' with
          | obj _ h3 _ => exact Option.ext (fun v => (h2 repo v).trans (h3 repo v).symm)

theorem newMultiConfig_ok {data : Bytes} {roots : Entries Bytes} {c : MultiCfg} (h : newMultiConfig env data roots = .ok c) :
    data ≠ [] ∧ roots ≠ [] ∧ ∃ j m, env.parse data = some j ∧ RepoMap.decode j = .ok m ∧ Rooted m roots ∧ c = { repoMap := m, trustedRoots := roots } := by
  unfold newMultiConfig at h
  split at h
  · cases h
  · next hn =>
    rw [not_or, List.length_eq_zero_iff, List.length_eq_zero_iff] at hn
    obtain ⟨j, h1, h⟩ := Res.bind_eq_ok.1 h
    obtain ⟨p, h2, h⟩ := Res.bind_eq_ok.1 h
    obtain ⟨m, h3, h⟩ := Res.bind_eq_ok.1 h
    rw [Res.ofOption_eq_ok] at h1
    split at h
    · next hall =>
      cases h
      refine ⟨hn.1, hn.2, j, m, h1, ?_, ?_, rfl⟩
      · unfold decPtr at h2
        split at h2
        · cases h2; cases h3
        · obtain ⟨m', h4, rfl⟩ := Res.map_eq_ok.1 h2
          cases h3
          exact h4
      · intro repo hr
        rw [List.all_eq_true] at hall
        obtain ⟨v, hv⟩ := Option.isSome_iff_exists.1 hr
        exact hall repo (List.mem_map.2 ⟨(repo, v), Entries.mem_of_get? hv, rfl⟩)
    · cases h

theorem newMultiConfig_of {data : Bytes} {roots : Entries Bytes} (hd : data ≠ []) (hr : roots ≠ []) {j : Json} {m : RepoMap} (h1 : env.parse data = some j) (h2 : RepoMap.decode j = .ok m)
    (hu : UniqueKeys m.repositories) (h3 : Rooted m roots) : newMultiConfig env data roots = .ok { repoMap := m, trustedRoots := roots } := by
  unfold newMultiConfig
  rw [if_neg (by simp [hd, hr]), h1]
  have hj : j ≠ .null := by rintro rfl; cases h2
  have h4 : decPtr RepoMap.decode j = .ok (some m) := by
    unfold decPtr
    split
    · exact absurd rfl hj
    · rw [h2]; rfl
  show (decPtr RepoMap.decode j >>= _) = _
  rw [h4, Res.bind_ok]
  show (if _ then _ else _) = _
  rw [if_pos]
  rw [List.all_eq_true]
  intro repo hrepo
  obtain ⟨e, he, rfl⟩ := List.mem_map.1 hrepo
  refine h3 e.1 ?_
  rw [show m.repositories.get? e.1 = Entries.get? m.repositories.entries e.1 from rfl, Entries.get?_of_mem hu he]
  rfl

/-- C123: what a map file without repeated members says is what `NewConfig` makes of it. -/
theorem C123_read_partial {data : Bytes} {roots : Entries Bytes} {c : MultiCfg} (hp : ∀ j, env.parse data = some j → PlainMap j) (h : newMultiConfig env data roots = .ok c) :
    ∃ j, env.parse data = some j ∧ MapAs j c.repoMap ∧ Rooted c.repoMap roots ∧ c.trustedRoots = roots ∧
      c.localMetadataDir = [] ∧ c.localTargetsDir = [] ∧ c.disableLocalCache = false := by
  obtain ⟨_, _, j, m, h1, h2, h3, rfl⟩ := newMultiConfig_ok h
  exact ⟨j, h1, repoMap_says (hp j h1) h2, h3, rfl, rfl, rfl, rfl⟩

/-- C123: `NewConfig` accepts exactly the map files that say something and name only repositories with a root. -/
theorem C123_accepted_partial {data : Bytes} {roots : Entries Bytes} (hp : ∀ j, env.parse data = some j → PlainMap j) :
    (∃ c, newMultiConfig env data roots = .ok c) ↔ data ≠ [] ∧ roots ≠ [] ∧ ∃ j m, env.parse data = some j ∧ MapAs j m ∧ Rooted m roots := by
  constructor
  · rintro ⟨c, h⟩
    obtain ⟨hd, hr, j, m, h1, h2, h3, rfl⟩ := newMultiConfig_ok h
    exact ⟨hd, hr, j, m, h1, repoMap_says (hp j h1) h2, h3⟩
  · rintro ⟨hd, hr, j, m, h1, h2, h3⟩
    obtain ⟨m', hm⟩ := repoMap_succeeds h2
    refine ⟨_, newMultiConfig_of hd hr h1 hm (repoMap_unique hm) ?_⟩
    intro repo hrepo
    exact h3 repo (by rw [mapAs_repositories h2 (repoMap_says (hp j h1) hm)]; exact hrepo)

/-! ## Repeated members -/

theorem decOver_says {α β : Type} {R : Json → β → Prop} {g : α → β} {dec : Json → α → Res α} {zero : α} (hd : ∀ j old a, dec j old = .ok a → R j (g a)) :
    ∀ {l : List Json} {old v : List α}, decOver dec zero l old = .ok v → EachAs R l (v.map g)
  | [], _, _, h => by cases h; exact .nil
  | j :: l, old, _, h => by
    obtain ⟨a, h1, h⟩ := Res.bind_eq_ok.1 h
    obtain ⟨b, h2, h⟩ := Res.bind_eq_ok.1 h
    cases h
    exact .cons (hd _ _ _ h1) (decOver_says hd h2)

theorem decBuf_says {α β : Type} {R : Json → β → Prop} {g : α → β} {dec : Json → α → Res α} {zero : α} (hd : ∀ j old a, dec j old = .ok a → R j (g a)) {j : Json} {b b' : Buf α}
    (h : decBuf dec zero j b = .ok b') : ListAs R j (b'.slice.map (fun l => l.map g)) := by
  unfold decBuf at h
  split at h
  · cases h; exact .null
  · cases h; exact .arr .nil
  · obtain ⟨v, h1, h⟩ := Res.bind_eq_ok.1 h
    cases h
    exact .arr (decOver_says hd h1)
  · cases h

theorem texts_last {j : Json} {b b' : Buf Str} (h : decBuf decStr [] j b = .ok b') : ListAs SaysText j b'.slice := by
  have h := decBuf_says (R := SaysText) (g := id) (fun j old a h => decStr_says h) h
  rcases b' with ⟨_ | l, r⟩
  · exact h
  · simpa using h

theorem mapping_last {j : Json} {old b : Option MappingBuf} (h : Mapping.decode j old = .ok b) : MappingLast j (b.map MappingBuf.done) := by
  unfold Mapping.decode at h
  split at h
  · cases h; exact .null
  · obtain ⟨b, hb, rfl⟩ := Res.map_eq_ok.1 h
    clear h
    refine .obj ?_ ?_ ?_ ?_
    all_goals intro j hl
    · refine decFields_last_says (get := fun b : MappingBuf => b.paths) (P := fun b => ListAs SaysText j b.slice) (by decide) (by decide) ?_ ?_ hl hb
      · intro f j a a' hf h
        unfold Mapping.setField at h
        repeat' split at h
        all_goals (obtain ⟨v, hv, h⟩ := Res.bind_eq_ok.1 h; cases h; first | rfl | contradiction)
      · intro a a' h
        obtain ⟨v, hv, h⟩ := Res.bind_eq_ok.1 (show (_ >>= _) = Res.ok a' from h)
        cases h
        exact texts_last hv
    · refine decFields_last_says (get := fun b : MappingBuf => b.repositories) (P := fun b => ListAs SaysText j b.slice) (by decide) (by decide) ?_ ?_ hl hb
      · intro f j a a' hf h
        unfold Mapping.setField at h
        repeat' split at h
        all_goals (obtain ⟨v, hv, h⟩ := Res.bind_eq_ok.1 h; cases h; first | rfl | contradiction)
      · intro a a' h
        obtain ⟨v, hv, h⟩ := Res.bind_eq_ok.1 (show (_ >>= _) = Res.ok a' from h)
        cases h
        exact texts_last hv
    · refine decFields_last_says (get := fun b : MappingBuf => b.threshold) (by decide) (by decide) ?_ ?_ hl hb
      · intro f j a a' hf h
        unfold Mapping.setField at h
        repeat' split at h
        all_goals (obtain ⟨v, hv, h⟩ := Res.bind_eq_ok.1 h; cases h; first | rfl | contradiction)
      · intro a a' h
        obtain ⟨v, hv, h⟩ := Res.bind_eq_ok.1 (show (_ >>= _) = Res.ok a' from h)
        cases h
        exact decInt_says hv
    · refine decFields_last_says' (get := fun b : MappingBuf => b.terminating) (P := fun t => j = .null ∨ j = .bool t) (by decide) (by decide) ?_ ?_ hl hb
      · intro f j a a' hn hf h
        unfold Mapping.setField at h
        simp only [Mapping.names, List.mem_cons, List.not_mem_nil, or_false] at hn
        repeat' split at h
        all_goals (obtain ⟨v, hv, h⟩ := Res.bind_eq_ok.1 h; cases h)
        all_goals first
          | rfl
          | simp_all
      · intro a a' h
        obtain ⟨v, hv, h⟩ := Res.bind_eq_ok.1 (show (_ >>= _) = Res.ok a' from h)
        cases h
        unfold decBool at hv
        split at hv <;> cases hv
        · exact .inl rfl
        · exact .inr rfl
  · cases h

/-- C123 with repeated members: the last member `mapping` counts, and in its mappings the last members, wherever they say something (what they leave out or give as `null` may come from
earlier ones, see `C123_false`). -/
theorem C123_repeated_partial {data : Bytes} {roots : Entries Bytes} {c : MultiCfg} {m : List (Str × Json)} {j : Json} (hp : env.parse data = some (.obj m)) (hl : LastSpelled m b!"mapping" j)
    (h : newMultiConfig env data roots = .ok c) : ListAs MappingLast j c.repoMap.mapping := by
  unfold newMultiConfig at h
  split at h
  · cases h
  · obtain ⟨j', hj, h4⟩ := Res.bind_eq_ok.1 h
    clear h
    rw [hp] at hj
    cases hj
    obtain ⟨p, h1, h5⟩ := Res.bind_eq_ok.1 h4
    clear h4
    obtain ⟨q, h2, h⟩ := Res.bind_eq_ok.1 h5
    clear h5
    rw [Res.deref_eq_ok] at h2
    subst h2
    obtain ⟨q', h3, he⟩ := Res.map_eq_ok.1 (show (RepoMap.decode (.obj m)).map some = _ from h1)
    cases he
    obtain ⟨b, h6, rfl⟩ := Res.map_eq_ok.1 (show (decFields _ _ m {}).map RepoMapBuf.done = _ from h3)
    split at h
    · cases h
      refine decFields_last_says' (get := fun b : RepoMapBuf => b.mapping) (P := fun b => ListAs MappingLast j (b.slice.map (fun l => l.map (fun p => p.map MappingBuf.done))))
        (by decide) (by decide) ?_ ?_ hl h6
      · intro f j a a' hn hf h
        unfold RepoMap.setField at h
        simp only [RepoMap.names, List.mem_cons, List.not_mem_nil, or_false] at hn
        repeat' split at h
        all_goals (obtain ⟨v, hv, h⟩ := Res.bind_eq_ok.1 h; cases h)
        all_goals first
          | rfl
          | simp_all
      · intro a a' h
        obtain ⟨v, hv, h⟩ := Res.bind_eq_ok.1 (show (_ >>= _) = Res.ok a' from h)
        cases h
        exact decBuf_says (fun j old a h => mapping_last h) hv
    · cases h

end Tuf
