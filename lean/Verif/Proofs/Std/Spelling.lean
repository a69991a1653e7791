import Verif.Spec.Std.Spelling
import Verif.Proofs.Any
import Verif.Proofs.Decode
import Verif.Model.Metadata
import Verif.Proofs.Spelling

/-! Decoding documents that differ in the spelling of strings only. -/

namespace Tuf
open Tuf.Spec

section
variable {p : Difference} {α β : Type} {R : α → α → Prop} {S : β → β → Prop}

theorem Spec.Alike.refl (hR : ∀ a, R a a) (r : Res α) : Alike p R r r := by
  cases r with
  | ok a => exact .ok (hR a)
  | err e => exact .err e
  | panic => exact .panic

theorem Spec.Alike.bind {x y : Res α} {f g : α → Res β} (h : Alike p R x y) (hf : ∀ a a', R a a' → Alike p S (f a) (g a')) : Alike p S (x >>= f) (y >>= g) := by
  cases h with
  | ok h => exact hf _ _ h
  | err e => exact .err e
  | panic => exact .panic
  | left r h => exact .left _ h
  | right r h => exact .right _ h

theorem Spec.Alike.map {x y : Res α} {f g : α → β} (h : Alike p R x y) (hf : ∀ a a', R a a' → S (f a) (g a')) : Alike p S (x.map f) (y.map g) := by
  cases h with
  | ok h => exact .ok (hf _ _ h)
  | err e => exact .err e
  | panic => exact .panic
  | left r h => exact .left _ h
  | right r h => exact .right _ h

theorem Spec.Alike.mono {R' : α → α → Prop} {x y : Res α} (h : Alike p R x y) (hR : ∀ a a', R a a' → R' a a') : Alike p R' x y := by
  cases h with
  | ok h => exact .ok (hR _ _ h)
  | err e => exact .err e
  | panic => exact .panic
  | left r h => exact .left _ h
  | right r h => exact .right _ h

/-! ## Plain values -/

theorem decStr_same {j j' : Json} (h : SameValue p j j') (old : Str) : decStr j old = decStr j' old := by
  cases h with
  | text h1 h2 h3 => rcases h1 with rfl | ⟨_, rfl⟩ <;> rcases h2 with rfl | ⟨_, rfl⟩ <;> rfl
  | _ => rfl

theorem decInt_same {j j' : Json} (h : SameValue p j j') (old : Int) : decInt j old = decInt j' old := by
  cases h with
  | text h1 h2 h3 => rcases h1 with rfl | ⟨_, rfl⟩ <;> rcases h2 with rfl | ⟨_, rfl⟩ <;> rfl
  | _ => rfl

theorem decBool_same {j j' : Json} (h : SameValue p j j') (old : Bool) : decBool j old = decBool j' old := by
  cases h with
  | text h1 h2 h3 => rcases h1 with rfl | ⟨_, rfl⟩ <;> rcases h2 with rfl | ⟨_, rfl⟩ <;> rfl
  | _ => rfl

theorem decTime_alike {env : Env} {j j' : Json} (h : SameValue p j j') (he : p = .outside → j = j') (old : Time) : Alike p Eq (decTime env j old) (decTime env j' old) := by
  cases h with
  | text h1 h2 h3 =>
    rcases h1 with rfl | ⟨_, rfl⟩ <;> rcases h2 with rfl | ⟨_, rfl⟩
    · exact .refl (fun _ => rfl) _
    · cases p with
      | any => exact .right _ rfl
      | plain => rcases h3 rfl with h | h <;> cases h
      | outside => cases he rfl
    · exact .left _ (fun h => by cases he h)
    · exact .err _
  | _ => exact .refl (fun _ => rfl) _

theorem decHex_alike {j j' : Json} (h : SameValue p j j') (he : p = .outside → j = j') : Alike p Eq (decHex j) (decHex j') := by
  cases h with
  | text h1 h2 h3 =>
    rcases h1 with rfl | ⟨_, rfl⟩ <;> rcases h2 with rfl | ⟨_, rfl⟩
    · exact .refl (fun _ => rfl) _
    · cases p with
      | any => exact .right _ rfl
      | plain => rcases h3 rfl with h | h <;> cases h
      | outside => cases he rfl
    · exact .left _ (fun h => by cases he h)
    · exact .err _
  | _ => exact .refl (fun _ => rfl) _

theorem toAny_same {f : NumLit → Option NumLit} {j j' : Json} (h : SameValue p j j') : Json.toAny f j = Json.toAny f j' := by
  refine SameValue.rec (d := p) (motive_1 := fun j j' _ => Json.toAny f j = Json.toAny f j') (motive_2 := fun l l' _ => Json.toAnyList f l = Json.toAnyList f l')
    (motive_3 := fun m m' _ => Json.toAnyFields f m = Json.toAnyFields f m') rfl (fun _ => rfl) (fun _ => rfl) (fun _ => rfl) ?_ ?_ ?_ rfl ?_ rfl ?_ h
  · intro j j' s h1 h2 _
    rcases h1 with rfl | ⟨_, rfl⟩ <;> rcases h2 with rfl | ⟨_, rfl⟩ <;> simp only [Json.toAny]
  · intro l l' _ h; simp only [Json.toAny, h]
  · intro m m' _ h; simp only [Json.toAny, h]
  · intro j j' l l' _ _ h1 h2; simp only [Json.toAnyList, h1, h2]
  · intro k j j' m m' _ _ _ h1 h2; simp only [Json.toAnyFields, h1, h2]

theorem decAnyMap_same {env : Env} {j j' : Json} (h : SameValue p j j') : decAnyMap env j = decAnyMap env j' := by
  have ht := toAny_same (f := env.anyNum) h
  cases h with
  | text h1 h2 h3 => rcases h1 with rfl | ⟨_, rfl⟩ <;> rcases h2 with rfl | ⟨_, rfl⟩ <;> rfl
  | obj _ => unfold decAnyMap; simp only [ht]
  | _ => rfl

/-! ## Lists, maps, structs -/

theorem decSlice_alike {dec : Json → Res α} (hd : ∀ j j', SameValue p j j' → Alike p Eq (dec j) (dec j')) {j j' : Json} (h : SameValue p j j') :
    Alike p Eq (decSlice dec j) (decSlice dec j') := by
  have hl : ∀ {l l' : List Json}, SameElements p l l' → Alike p Eq (decList dec l) (decList dec l') := by
    intro l
    induction l with
    | nil => intro l' h; cases h; exact .ok rfl
    | cons j l ih =>
      intro l' h
      cases h with
      | cons h1 h2 =>
        refine (hd _ _ h1).bind ?_
        rintro a _ rfl
        refine (ih h2).bind ?_
        rintro b _ rfl
        exact .ok rfl
  cases h with
  | text h1 h2 h3 => rcases h1 with rfl | ⟨_, rfl⟩ <;> rcases h2 with rfl | ⟨_, rfl⟩ <;> exact .err _
  | arr h => exact (hl h).map (fun _ _ h => congrArg some h)
  | null => exact .ok rfl
  | _ => exact .err _

theorem Spec.EntriesRel.set {es es' : Entries α} (h : EntriesRel R es es') (k : Str) {a a' : α} (ha : R a a') : EntriesRel R (es.set k a) (es'.set k a') := by
  have hg : (es.get? k).isSome = (es'.get? k).isSome := by
    induction h with
    | nil => rfl
    | cons hb h ih => simp only [Entries.get?]; split <;> simp_all
  have h1 : EntriesRel R (es.replace k a) (es'.replace k a') := by
    clear hg
    induction h with
    | nil => exact .nil
    | cons hb h ih =>
      simp only [Entries.replace]
      split
      · exact .cons ha h
      · exact .cons hb ih
  have h2 : EntriesRel R (insertByKey (k, a) es) (insertByKey (k, a') es') := by
    clear hg h1
    induction h with
    | nil => exact .cons ha .nil
    | cons hb h ih =>
      simp only [insertByKey]
      split
      · exact .cons ha (.cons hb h)
      · exact .cons hb ih
  unfold Entries.set
  rw [hg]
  split
  · exact h1
  · exact h2

theorem Spec.EntriesRel.eq {es es' : Entries α} (h : EntriesRel Eq es es') : es = es' := by
  induction h with
  | nil => rfl
  | cons h _ ih => rw [h, ih]

theorem Spec.EntriesRel.refl (hR : ∀ a, R a a) (es : Entries α) : EntriesRel R es es := by
  induction es with
  | nil => exact .nil
  | cons e es ih => exact .cons (hR _) ih

theorem Spec.OptionRel.entries {m m' : GoMap α} (h : OptionRel (EntriesRel R) m m') : EntriesRel R m.entries m'.entries := by
  cases h with
  | none => exact .nil
  | some h => exact h

theorem decMap_alike {dec : Json → Res α} (hd : ∀ j j', SameValue p j j' → Alike p R (dec j) (dec j')) {j j' : Json} (h : SameValue p j j') {old old' : GoMap α}
    (ho : OptionRel (EntriesRel R) old old') : Alike p (OptionRel (EntriesRel R)) (decMap dec j old) (decMap dec j' old') := by
  have hl : ∀ {m m' : List (Str × Json)}, SameMembers p m m' → ∀ {acc acc' : Entries α}, EntriesRel R acc acc' → Alike p (EntriesRel R) (decEntries dec m acc) (decEntries dec m' acc') := by
    intro m
    induction m with
    | nil => intro m' h acc acc' ha; cases h; exact .ok ha
    | cons e m ih =>
      intro m' h acc acc' ha
      cases h with
      | cons h1 _ h2 =>
        refine (hd _ _ h1).bind ?_
        intro a a' haa
        exact ih h2 (ha.set _ haa)
  cases h with
  | text h1 h2 h3 => rcases h1 with rfl | ⟨_, rfl⟩ <;> rcases h2 with rfl | ⟨_, rfl⟩ <;> exact .err _
  | obj h => exact (hl h ho.entries).map (fun _ _ h => .some h)
  | null => exact .ok .none
  | _ => exact .err _

theorem decMap_alike_eq {dec : Json → Res α} (hd : ∀ j j', SameValue p j j' → Alike p Eq (dec j) (dec j')) {j j' : Json} (h : SameValue p j j') (old : GoMap α) :
    Alike p Eq (decMap dec j old) (decMap dec j' old) := by
  refine (decMap_alike hd h (old := old) (old' := old) ?_).mono ?_
  · cases old with
    | none => exact .none
    | some es => exact .some (EntriesRel.refl (fun _ => rfl) es)
  · intro a a' h
    cases h with
    | none => rfl
    | some h => rw [h.eq]

theorem decHashes_alike {j j' : Json} (h : SameValue p j j') (he : p = .outside → j = j') (old : GoMap Bytes) : Alike p Eq (decMap decHex j old) (decMap decHex j' old) := by
  by_cases hp : p = .outside
  · rw [he hp]; exact .refl (fun _ => rfl) _
  · exact decMap_alike_eq (fun _ _ h => decHex_alike h (fun h => absurd h hp)) h old

theorem decPtr_alike {dec : Json → Res α} (hd : ∀ j j', SameValue p j j' → Alike p R (dec j) (dec j')) {j j' : Json} (h : SameValue p j j') :
    Alike p (OptionRel R) (decPtr dec j) (decPtr dec j') := by
  have hm := (hd _ _ h).map (f := some) (g := some) (S := OptionRel R) (fun _ _ h => .some h)
  cases h with
  | null => exact .ok .none
  | text h1 h2 h3 => rcases h1 with rfl | ⟨_, rfl⟩ <;> rcases h2 with rfl | ⟨_, rfl⟩ <;> exact hm
  | _ => exact hm

theorem decPtr_alike_eq {dec : Json → Res α} (hd : ∀ j j', SameValue p j j' → Alike p Eq (dec j) (dec j')) {j j' : Json} (h : SameValue p j j') :
    Alike p Eq (decPtr dec j) (decPtr dec j') := by
  refine (decPtr_alike hd h).mono ?_
  intro a a' h
  cases h with
  | none => rfl
  | some h => rw [h]

theorem findField_mem' {names : List Str} {f k : Str} (hk : findField names k = some f) : f ∈ names := by
  unfold findField at hk
  split at hk
  · cases hk; assumption
  · exact List.mem_of_find?_eq_some hk

theorem raw_spelled {names : List Str} {f k : Str} (hf : f ∈ rawMembers) (hk : findField names k = some f) : Spelled f k := by
  have hs : SimpleName f := by
    simp only [rawMembers, List.mem_cons, List.not_mem_nil, or_false] at hf
    rcases hf with rfl | rfl | rfl <;> decide
  unfold findField at hk
  split at hk
  · cases hk; exact Spelled.refl' _
  · exact (foldKey_spelled hs).1 (by have := List.find?_some hk; simp at this; exact this.symm)

theorem decStruct_alike {names : List Str} {setField : Str → Json → α → Res α} {zero : α} (hz : R zero zero)
    (hset : ∀ f j j' a a', f ∈ names → SameValue p j j' → (p = .outside → f ∈ rawMembers → j = j') → R a a' → Alike p R (setField f j a) (setField f j' a')) {j j' : Json} (h : SameValue p j j') :
    Alike p R (decStruct names setField zero j) (decStruct names setField zero j') := by
  have hf : ∀ {m m' : List (Str × Json)}, SameMembers p m m' → ∀ {a a' : α}, R a a' → Alike p R (decFields names setField m a) (decFields names setField m' a') := by
    intro m
    induction m with
    | nil => intro m' h a a' ha; cases h; exact .ok ha
    | cons e m ih =>
      intro m' h a a' ha
      cases h with
      | @cons k j j' _ m' h1 he h2 =>
        unfold decFields
        cases hk : findField names k with
        | none => exact ih h2 ha
        | some f => exact (hset f _ _ _ _ (findField_mem' hk) h1 (fun hp hf => he hp ⟨f, hf, raw_spelled hf hk⟩) ha).bind (fun _ _ hb => ih h2 hb)
  cases h with
  | text h1 h2 h3 => rcases h1 with rfl | ⟨_, rfl⟩ <;> rcases h2 with rfl | ⟨_, rfl⟩ <;> exact .err _
  | obj h => exact hf h hz
  | null => exact .ok hz
  | _ => exact .err _

theorem unmarshal_alike {env : Env} {names : List Str} {setField : Str → Json → α → Res α} {zero : α} {post : α → Res α} {setUnrec : Fields → α → α} (hz : R zero zero)
    (hset : ∀ f j j' a a', f ∈ names → SameValue p j j' → (p = .outside → f ∈ rawMembers → j = j') → R a a' → Alike p R (setField f j a) (setField f j' a')) (hpost : ∀ a a', R a a' → Alike p R (post a) (post a'))
    (hun : ∀ u a a', R a a' → R (setUnrec u a) (setUnrec u a')) {j j' : Json} (h : SameValue p j j') :
    Alike p R (unmarshalStruct env names setField zero post setUnrec j) (unmarshalStruct env names setField zero post setUnrec j') := by
  unfold unmarshalStruct
  refine (decStruct_alike hz hset h).bind fun a a' ha => (hpost a a' ha).bind fun b b' hb => ?_
  rw [decAnyMap_same h]
  exact (Alike.refl (R := Eq) (fun _ => rfl) _).bind (by rintro d _ rfl; exact .ok (hun _ _ _ hb))

/-- For the types that keep no JSON text. -/
theorem unmarshal_alike_eq {env : Env} {names : List Str} {setField : Str → Json → α → Res α} {zero : α} {setUnrec : Fields → α → α}
    (hset : ∀ f j j' a, f ∈ names → SameValue p j j' → (p = .outside → f ∈ rawMembers → j = j') → Alike p Eq (setField f j a) (setField f j' a)) {j j' : Json} (h : SameValue p j j') :
    Alike p Eq (unmarshalStruct env names setField zero .ok setUnrec j) (unmarshalStruct env names setField zero .ok setUnrec j') :=
  unmarshal_alike rfl (by rintro f j j' a _ hf h he rfl; exact hset f j j' a hf h he) (fun _ _ h => .ok h) (by rintro u a _ rfl; rfl) h

theorem cellText_same {j j' : Json} (h : SameValue p j j') : cellText j = cellText j' := by
  cases h with
  | text h1 h2 h3 => rcases h1 with rfl | ⟨_, rfl⟩ <;> rcases h2 with rfl | ⟨_, rfl⟩ <;> rfl
  | _ => rfl

theorem cells_same {l l' : List Json} (h : SameElements p l l') : l.map cellText = l'.map cellText := by
  induction l generalizing l' with
  | nil => cases h; rfl
  | cons j l ih => cases h with | cons h1 h2 => rw [List.map_cons, List.map_cons, cellText_same h1, ih h2]

theorem overCell_same {j j' : Json} (h : SameValue p j j') (s : Str) : SameValue p (overCell s j) (overCell s j') := by
  cases h with
  | null => exact .text (.inl rfl) (.inl rfl) (fun _ => .inl rfl)
  | text h1 h2 h3 => rcases h1 with rfl | ⟨_, rfl⟩ <;> rcases h2 with rfl | ⟨_, rfl⟩ <;> exact .text (by first | exact .inl rfl | exact .inr ⟨_, rfl⟩) (by first | exact .inl rfl | exact .inr ⟨_, rfl⟩) h3
  | bool b => exact .bool b
  | num n => exact .num n
  | frac l => exact .frac l
  | arr h => exact .arr h
  | obj h => exact .obj h

theorem overCells_same {l l' : List Json} (h : SameElements p l l') : ∀ cells : List Str, SameElements p (overCells l cells) (overCells l' cells) := by
  induction l generalizing l' with
  | nil => cases h; intro cells; exact .nil
  | cons j l ih =>
    cases h with
    | cons h1 h2 =>
      intro cells
      cases cells with
      | nil => exact .cons h1 h2
      | cons s cells => exact .cons (overCell_same h1 s) (ih h2 cells)

theorem sameElements_length {l l' : List Json} (h : SameElements p l l') : l.length = l'.length := by
  induction l generalizing l' with
  | nil => cases h; rfl
  | cons j l ih => cases h with | cons h1 h2 => rw [List.length_cons, List.length_cons, ih h2]

theorem refillOne_same {j j' : Json} (h : SameValue p j j') (cells : List Str) : SameValue p (refillOne cells j).1 (refillOne cells j').1 ∧ (refillOne cells j).2 = (refillOne cells j').2 := by
  have h0 := h
  cases h with
  | text h1 h2 h3 => rcases h1 with rfl | ⟨_, rfl⟩ <;> rcases h2 with rfl | ⟨_, rfl⟩ <;> exact ⟨h0, rfl⟩
  | arr h =>
    have h1 := overCells_same h cells
    cases h with
    | nil => exact ⟨h0, rfl⟩
    | cons h2 h3 => exact ⟨.arr h1, by simp only [refillOne]; rw [cells_same h1, sameElements_length h3]⟩
  | _ => exact ⟨h0, rfl⟩

theorem refill_same {names : List Str} {f : Str} {m m' : List (Str × Json)} (h : SameMembers p m m') : ∀ cells, SameMembers p (refill names f cells m) (refill names f cells m') := by
  induction m generalizing m' with
  | nil => cases h; intro cells; exact .nil
  | cons e m ih =>
    cases h with
    | @cons k j j' _ m' h1 he h2 =>
      intro cells
      unfold refill
      split
      · obtain ⟨h3, h4⟩ := refillOne_same h1 cells
        rw [h4]
        exact .cons h3 (fun hp hn => by rw [he hp hn]) (ih h2 _)
      · exact .cons h1 he (ih h2 _)

theorem refillAll_same {names lists : List Str} {j j' : Json} (h : SameValue p j j') : SameValue p (refillAll names lists j) (refillAll names lists j') := by
  have h0 := h
  cases h with
  | text h1 h2 h3 => rcases h1 with rfl | ⟨_, rfl⟩ <;> rcases h2 with rfl | ⟨_, rfl⟩ <;> exact h0
  | obj h =>
    have : ∀ (l : List Str) {m m' : List (Str × Json)}, SameMembers p m m' → SameMembers p (l.foldl (fun m f => refill names f [] m) m) (l.foldl (fun m f => refill names f [] m) m') := by
      intro l
      induction l with
      | nil => exact fun h => h
      | cons f l ih => exact fun h => ih (refill_same h [])
    exact .obj (this lists h)
  | _ => exact h0

/-- For structs with string lists. -/
theorem lists_alike_eq {env : Env} {names lists : List Str} {setField : Str → Json → α → Res α} {zero : α} {setUnrec : Fields → α → α}
    (hset : ∀ f j j' a, f ∈ names → SameValue p j j' → (p = .outside → f ∈ rawMembers → j = j') → Alike p Eq (setField f j a) (setField f j' a)) {j j' : Json} (h : SameValue p j j') :
    Alike p Eq (unmarshalLists env names lists setField zero setUnrec j) (unmarshalLists env names lists setField zero setUnrec j') := by
  unfold unmarshalLists
  refine (decStruct_alike rfl (by rintro f j j' a _ hf h he rfl; exact hset f j j' a hf h he) (refillAll_same h)).bind ?_
  rintro a _ rfl
  rw [decAnyMap_same h]
  exact (Alike.refl (R := Eq) (fun _ => rfl) _).bind (by rintro d _ rfl; exact .ok rfl)

end

/-! ## The types -/

/-- One assignment. -/
theorem Spec.Alike.field {p : Difference} {α β : Type} {x y : Res β} {f : β → α} (h : Alike p Eq x y) : Alike p Eq (x >>= fun v => .ok (f v)) (y >>= fun v => .ok (f v)) :=
  h.bind (by rintro a _ rfl; exact .ok rfl)

theorem decStr_alike {p : Difference} {j j' : Json} (h : SameValue p j j') (old : Str) : Alike p Eq (decStr j old) (decStr j' old) := by
  rw [decStr_same h]; exact .refl (fun _ => rfl) _
theorem decInt_alike {p : Difference} {j j' : Json} (h : SameValue p j j') (old : Int) : Alike p Eq (decInt j old) (decInt j' old) := by
  rw [decInt_same h]; exact .refl (fun _ => rfl) _
theorem decBool_alike {p : Difference} {j j' : Json} (h : SameValue p j j') (old : Bool) : Alike p Eq (decBool j old) (decBool j' old) := by
  rw [decBool_same h]; exact .refl (fun _ => rfl) _
theorem decStrings_alike {p : Difference} {j j' : Json} (h : SameValue p j j') : Alike p Eq (decSlice (fun j => decStr j []) j) (decSlice (fun j => decStr j []) j') :=
  decSlice_alike (fun _ _ h => decStr_alike h []) h

variable {p : Difference} {env : Env} {j j' : Json}

theorem KeyVal.alike (h : SameValue p j j') : Alike p Eq (KeyVal.unmarshal env j) (KeyVal.unmarshal env j') :=
  unmarshal_alike_eq (fun _ _ _ _ _ h _ => (decStr_alike h _).field) h

theorem Key.alike (h : SameValue p j j') : Alike p Eq (Key.unmarshal env j) (Key.unmarshal env j') := by
  refine unmarshal_alike_eq (fun f j j' a hf h he => ?_) h
  unfold Key.setField
  repeat' split
  · exact (decStr_alike h _).field
  · exact (decStr_alike h _).field
  · exact (KeyVal.alike h).field

theorem Role.alike (h : SameValue p j j') : Alike p Eq (Role.unmarshal env j) (Role.unmarshal env j') := by
  refine lists_alike_eq (fun f j j' a hf h he => ?_) h
  unfold Role.setField
  split
  · exact (decStrings_alike h).field
  · exact (decInt_alike h _).field

theorem MetaFiles.alike (h : SameValue p j j') : Alike p Eq (MetaFiles.unmarshal env j) (MetaFiles.unmarshal env j') := by
  refine unmarshal_alike_eq (fun f j j' a hf h he => ?_) h
  unfold MetaFiles.setField
  repeat' split
  · exact (decInt_alike h _).field
  · exact (decHashes_alike h (fun hp => he hp (by subst_vars; decide)) _).field
  · exact (decInt_alike h _).field

theorem DelegatedRole.alike (h : SameValue p j j') : Alike p Eq (DelegatedRole.unmarshal env j) (DelegatedRole.unmarshal env j') := by
  refine lists_alike_eq (fun f j j' a hf h he => ?_) h
  unfold DelegatedRole.setField
  repeat' split
  · exact (decStr_alike h _).field
  · exact (decStrings_alike h).field
  · exact (decInt_alike h _).field
  · exact (decBool_alike h _).field
  · exact (decStrings_alike h).field
  · exact (decStrings_alike h).field

theorem SuccinctRoles.alike (h : SameValue p j j') : Alike p Eq (SuccinctRoles.unmarshal env j) (SuccinctRoles.unmarshal env j') := by
  refine lists_alike_eq (fun f j j' a hf h he => ?_) h
  unfold SuccinctRoles.setField
  repeat' split
  · exact (decStrings_alike h).field
  · exact (decInt_alike h _).field
  · exact (decInt_alike h _).field
  · exact (decStr_alike h _).field

theorem Delegations.alike (h : SameValue p j j') : Alike p Eq (Delegations.unmarshal env j) (Delegations.unmarshal env j') := by
  refine unmarshal_alike_eq (fun f j j' a hf h he => ?_) h
  unfold Delegations.setField
  repeat' split
  · exact (decMap_alike_eq (fun _ _ h => decPtr_alike_eq (fun _ _ h => Key.alike h) h) h _).field
  · exact (decSlice_alike (fun _ _ h => DelegatedRole.alike h) h).field
  · exact (decPtr_alike_eq (fun _ _ h => SuccinctRoles.alike h) h).field

theorem Signature.alike (h : SameValue p j j') : Alike p Eq (Signature.unmarshal env j) (Signature.unmarshal env j') := by
  refine unmarshal_alike_eq (fun f j j' a hf h he => ?_) h
  unfold Signature.setField
  split
  · exact (decStr_alike h _).field
  · exact (decHex_alike h (fun hp => he hp (by simp only [Signature.names, List.mem_cons, List.not_mem_nil, or_false] at hf; rcases hf with rfl | rfl; contradiction; decide))).field

theorem RootType.alike (h : SameValue p j j') : Alike p Eq (RootType.unmarshal env j) (RootType.unmarshal env j') := by
  refine unmarshal_alike_eq (fun f j j' a hf h he => ?_) h
  unfold RootType.setField
  repeat' split
  · exact (decStr_alike h _).field
  · exact (decStr_alike h _).field
  · exact (decBool_alike h _).field
  · exact (decInt_alike h _).field
  · exact (decTime_alike h (fun hp => he hp (by subst_vars; decide)) _).field
  · exact (decMap_alike_eq (fun _ _ h => decPtr_alike_eq (fun _ _ h => Key.alike h) h) h _).field
  · exact (decMap_alike_eq (fun _ _ h => decPtr_alike_eq (fun _ _ h => Role.alike h) h) h _).field

theorem SnapshotType.alike (h : SameValue p j j') : Alike p Eq (SnapshotType.unmarshal env j) (SnapshotType.unmarshal env j') := by
  refine unmarshal_alike_eq (fun f j j' a hf h he => ?_) h
  unfold SnapshotType.setField
  repeat' split
  · exact (decStr_alike h _).field
  · exact (decStr_alike h _).field
  · exact (decInt_alike h _).field
  · exact (decTime_alike h (fun hp => he hp (by subst_vars; decide)) _).field
  · exact (decMap_alike_eq (fun _ _ h => decPtr_alike_eq (fun _ _ h => MetaFiles.alike h) h) h _).field

theorem TimestampType.alike (h : SameValue p j j') : Alike p Eq (TimestampType.unmarshal env j) (TimestampType.unmarshal env j') := by
  refine unmarshal_alike_eq (fun f j j' a hf h he => ?_) h
  unfold TimestampType.setField
  repeat' split
  · exact (decStr_alike h _).field
  · exact (decStr_alike h _).field
  · exact (decInt_alike h _).field
  · exact (decTime_alike h (fun hp => he hp (by subst_vars; decide)) _).field
  · exact (decMap_alike_eq (fun _ _ h => decPtr_alike_eq (fun _ _ h => MetaFiles.alike h) h) h _).field

theorem TargetFiles.alike (h : SameValue p j j') : Alike p (SameTarget p) (TargetFiles.unmarshal env j) (TargetFiles.unmarshal env j') := by
  refine unmarshal_alike ⟨rfl, rfl, .none, rfl, rfl⟩ (fun f j j' a a' hf h he ha => ?_) (fun _ _ h => .ok h) (fun u a a' ha => { ha with unrec := rfl }) h
  obtain ⟨l, hs, c, q, un⟩ := a
  obtain ⟨l', hs', c', q', un'⟩ := a'
  obtain ⟨rfl, rfl, hc, rfl, rfl⟩ := ha
  unfold TargetFiles.setField
  repeat' split
  · exact (decInt_alike h _).bind (by rintro v _ rfl; exact .ok ⟨rfl, rfl, hc, rfl, rfl⟩)
  · exact (decHashes_alike h (fun hp => he hp (by subst_vars; decide)) _).bind (by rintro v _ rfl; exact .ok ⟨rfl, rfl, hc, rfl, rfl⟩)
  · exact (decPtr_alike (R := SameValue p) (fun _ _ h => .ok h) h).bind (fun v v' hv => .ok ⟨rfl, rfl, hv, rfl, rfl⟩)

theorem setPaths_alike {es es' : Entries (Option TargetFiles)} (h : EntriesRel (OptionRel (SameTarget p)) es es') :
    Alike p (EntriesRel (OptionRel (SameTarget p))) (setPaths es) (setPaths es') := by
  induction h with
  | nil => exact .ok .nil
  | cons h _ ih =>
    cases h with
    | none => exact .panic
    | some h => exact ih.bind (fun r r' hr => .ok (.cons (.some { h with path := rfl }) hr))

theorem TargetsType.alike (h : SameValue p j j') : Alike p (SameTargets p) (TargetsType.unmarshal env j) (TargetsType.unmarshal env j') := by
  refine unmarshal_alike ⟨rfl, rfl, rfl, rfl, .none, rfl, rfl⟩ (fun f j j' a a' hf h he ha => ?_) (fun a a' ha => ?_) (fun u a a' ha => { ha with unrec := rfl }) h
  · obtain ⟨ty, sv, v, e, t, d, un⟩ := a
    obtain ⟨ty', sv', v', e', t', d', un'⟩ := a'
    obtain ⟨rfl, rfl, rfl, rfl, ht, rfl, rfl⟩ := ha
    unfold TargetsType.setField
    repeat' split
    · exact (decStr_alike h _).bind (by rintro v _ rfl; exact .ok ⟨rfl, rfl, rfl, rfl, ht, rfl, rfl⟩)
    · exact (decStr_alike h _).bind (by rintro v _ rfl; exact .ok ⟨rfl, rfl, rfl, rfl, ht, rfl, rfl⟩)
    · exact (decInt_alike h _).bind (by rintro v _ rfl; exact .ok ⟨rfl, rfl, rfl, rfl, ht, rfl, rfl⟩)
    · exact (decTime_alike h (fun hp => he hp (by subst_vars; decide)) _).bind (by rintro v _ rfl; exact .ok ⟨rfl, rfl, rfl, rfl, ht, rfl, rfl⟩)
    · exact (decMap_alike (fun _ _ h => decPtr_alike (fun _ _ h => TargetFiles.alike h) h) h ht).bind (fun v v' hv => .ok ⟨rfl, rfl, rfl, rfl, hv, rfl, rfl⟩)
    · exact (decPtr_alike_eq (fun _ _ h => Delegations.alike h) h).bind (by rintro v _ rfl; exact .ok ⟨rfl, rfl, rfl, rfl, ht, rfl, rfl⟩)
  · unfold TargetsType.setTargetPaths
    have ht := ha.targets
    cases h1 : a.targets with
    | none =>
      rw [h1] at ht
      cases h2 : a'.targets with
      | none => exact .ok ha
      | some _ => rw [h2] at ht; cases ht
    | some es =>
      rw [h1] at ht
      cases h2 : a'.targets with
      | none => rw [h2] at ht; cases ht
      | some es' =>
        rw [h2] at ht
        cases ht with
        | some ht => exact (setPaths_alike ht).bind (fun v v' hv => .ok { ha with targets := .some hv })

theorem fromBytes_alike {T : Type} [RoleType T] {R : T → T → Prop} (hz : R RoleType.zero RoleType.zero)
    (hu : ∀ j j', SameValue p j j' → Alike p R (RoleType.unmarshal env j) (RoleType.unmarshal env j')) {data data' : Bytes} (hj : env.parse data = some j) (hj' : env.parse data' = some j')
    (h : SameValue p j j') : Alike p (Respelled R) (fromBytes (T := T) env data) (fromBytes (T := T) env data') := by
  have hc : checkType env (RoleType.typeName T) data = checkType env (RoleType.typeName T) data' := by
    unfold checkType
    rw [hj, hj']
    show (decAnyMap env j >>= _) = (decAnyMap env j' >>= _)
    rw [decAnyMap_same h]
  have hm : Alike p (Respelled R) (Metadata.unmarshal (T := T) env j) (Metadata.unmarshal env j') := by
    refine unmarshal_alike ⟨hz, rfl, rfl⟩ (fun f j j' a a' hf h he ha => ?_) (fun _ _ h => .ok h) (fun u a a' ha => { ha with unrec := rfl }) h
    unfold Metadata.setField
    split
    · exact (hu _ _ h).bind (fun v v' hv => .ok { ha with signed := hv })
    · exact (decSlice_alike (fun _ _ h => Signature.alike h) h).bind (by rintro v _ rfl; exact .ok { ha with signatures := rfl })
  unfold fromBytes
  rw [hc, hj, hj']
  refine (Alike.refl (R := Eq) (fun _ => rfl) _).bind fun _ _ _ => ?_
  refine Alike.bind (R := Respelled R) hm fun m m' h => ?_
  have hs : checkUniqueSignatures m = checkUniqueSignatures m' := by unfold checkUniqueSignatures; rw [h.signatures]
  rw [hs]
  exact (Alike.refl (R := Eq) (fun _ => rfl) _).bind fun _ _ _ => .ok h

/-! ## What is signed -/

theorem EntriesRel_members {m m' : Fields} (h : EntriesRel (SameValue .any) m m') : SameMembers .any m m' := by
  induction h with
  | nil => exact .nil
  | cons h _ ih => exact .cons h (fun h => by cases h) ih

theorem SameValue_refl (j : Json) : SameValue p j j := by
  refine Json.rec (motive_1 := fun j => SameValue p j j) (motive_2 := fun l => SameElements p l l) (motive_3 := fun m => SameMembers p m m)
    (motive_4 := fun e => SameValue p e.2 e.2) .null .bool .num .frac (fun s => .text (.inl rfl) (.inl rfl) (fun _ => .inl rfl))
    (fun r s => .text (.inr ⟨r, rfl⟩) (.inr ⟨r, rfl⟩) (fun _ => .inl rfl)) (fun _ h => .arr h) (fun _ h => .obj h) .nil (fun _ _ h1 h2 => .cons h1 h2) .nil
    (fun _ _ h1 h2 => .cons h1 (fun _ _ => rfl) h2) (fun _ _ h => h) j

theorem mkDict_same {un : Fields} {l l' : Fields} (h : EntriesRel (SameValue p) l l') : EntriesRel (SameValue p) (mkDict un l) (mkDict un l') := by
  unfold mkDict
  have hu : EntriesRel (SameValue p) un un := EntriesRel.refl SameValue_refl un
  generalize un = v at hu ⊢
  suffices ∀ v v', EntriesRel (SameValue p) v v' → EntriesRel (SameValue p) (l.foldl (fun acc e => Entries.set acc e.1 e.2) v) (l'.foldl (fun acc e => Entries.set acc e.1 e.2) v') from this _ _ hu
  clear hu
  induction h with
  | nil => intro v v' h; exact h
  | cons h1 _ ih => intro v v' h; exact ih _ _ (h.set _ h1)

theorem TargetFiles.marshal_same {t t' : TargetFiles} (h : SameTarget .any t t') : SameValue .any t.marshal t'.marshal := by
  obtain ⟨l, hs, c, q, un⟩ := t
  obtain ⟨l', hs', c', q', un'⟩ := t'
  obtain ⟨h1, h2, hc, h3, h4⟩ := h
  dsimp only at h1 h2 hc h3 h4
  subst h1 h2 h3 h4
  refine .obj (EntriesRel_members (mkDict_same (.cons (SameValue_refl _) (.cons (SameValue_refl _) ?_))))
  cases hc with
  | none => exact .nil
  | some h => exact .cons h .nil

theorem TargetsType.payload_any {a a' : TargetsType} (h : SameTargets .any a a') : payload a = payload a' := by
  obtain ⟨ty, sv, v, e, t, d, un⟩ := a
  obtain ⟨ty', sv', v', e', t', d', un'⟩ := a'
  obtain ⟨h1, h2, h3, h4, ht, h5, h6⟩ := h
  dsimp only at h1 h2 h3 h4 ht h5 h6
  subst h1 h2 h3 h4 h5 h6
  have htm : SameValue .any (encMap (encPtr TargetFiles.marshal) t) (encMap (encPtr TargetFiles.marshal) t') := by
    cases ht with
    | none => exact .null
    | some h =>
      refine .obj (EntriesRel_members ?_)
      induction h with
      | nil => exact .nil
      | cons h _ ih =>
        refine .cons ?_ ih
        cases h with
        | none => exact .null
        | some h => exact TargetFiles.marshal_same h
  show (TargetsType.marshal _).bind canonical = (TargetsType.marshal _).bind canonical
  unfold TargetsType.marshal
  dsimp only
  have hc : ∀ {x y : Json}, SameValue .any x y → canonical x = canonical y := by
    intro x y h
    unfold canonical
    rw [toAny_same h]
  cases d with
  | none => exact hc (.obj (EntriesRel_members (mkDict_same (.cons (SameValue_refl _) (.cons (SameValue_refl _) (.cons (SameValue_refl _) (.cons (SameValue_refl _) (.cons htm .nil))))))))
  | some d =>
    show (d.marshal.bind _).bind _ = (d.marshal.bind _).bind _
    cases d.marshal with
    | ok j =>
      exact hc (.obj (EntriesRel_members (mkDict_same (.cons (SameValue_refl _) (.cons (SameValue_refl _) (.cons (SameValue_refl _) (.cons (SameValue_refl _) (.cons htm
        (.cons (SameValue_refl _) .nil)))))))))
    | err e => rfl
    | panic => rfl

theorem SameValue_any {j j' : Json} (h : SameValue p j j') : SameValue .any j j' := by
  refine SameValue.rec (d := p) (motive_1 := fun j j' _ => SameValue .any j j') (motive_2 := fun l l' _ => SameElements .any l l')
    (motive_3 := fun m m' _ => SameMembers .any m m') .null .bool .num .frac (fun h1 h2 _ => .text h1 h2 (fun h => by cases h)) (fun _ h => .arr h) (fun _ h => .obj h)
    .nil (fun _ _ h1 h2 => .cons h1 h2) .nil (fun _ _ _ h1 h2 => .cons h1 (fun h => by cases h) h2) h

theorem EntriesRel_mono {α : Type} {R S : α → α → Prop} (hRS : ∀ a a', R a a' → S a a') {es es' : Entries α} (h : EntriesRel R es es') : EntriesRel S es es' := by
  induction h with
  | nil => exact .nil
  | cons h _ ih => exact .cons (hRS _ _ h) ih

theorem OptionRel_mono {α : Type} {R S : α → α → Prop} (hRS : ∀ a a', R a a' → S a a') {o o' : Option α} (h : OptionRel R o o') : OptionRel S o o' := by
  cases h with
  | none => exact .none
  | some h => exact .some (hRS _ _ h)

theorem TargetsType.payload_same {a a' : TargetsType} (h : SameTargets p a a') : payload a = payload a' :=
  TargetsType.payload_any { h with
    targets := OptionRel_mono (fun _ _ => EntriesRel_mono (fun _ _ => OptionRel_mono (fun _ _ h => { h with custom := OptionRel_mono (fun _ _ => SameValue_any) h.custom }))) h.targets }

end Tuf
