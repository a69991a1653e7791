import Verif.Props.MapFile
import Verif.Props.Payload
import Verif.Props.Small
import Verif.Proofs.Complete
import Verif.Spec.Meaning

/-!
# What a document says is what is read (C137): decoders of fields and objects
-/

namespace Tuf
open Spec Sample

variable {env : Env} {α β γ : Type}

/-- The decoder reads exactly what `R` says, among the values in `Q`; and `R` speaks of no others. -/
structure Reads (Q : Json → Prop) (d : Json → Res β) (R : Json → β → Prop) : Prop where
  sound : ∀ j v, Q j → d j = .ok v → R j v
  exact : ∀ j v, R j v → d j = .ok v
  inQ : ∀ j v, R j v → Q j

/-- The same for a decoder that sees the previous value of its field; `R` tells what it makes of the zero value. -/
structure FieldReads (Q : Json → Prop) (d : Json → β → Res β) (zero : β) (R : Json → β → Prop) : Prop where
  sound : ∀ j v, Q j → d j zero = .ok v → R j v
  takes : ∀ j v, R j v → ∀ old, ∃ v', d j old = .ok v'
  one : ∀ j v v', R j v → R j v' → v = v'
  inQ : ∀ j v, R j v → Q j

theorem Reads.field {Q : Json → Prop} {d : Json → Res β} {R : Json → β → Prop} (h : Reads Q d R) (zero : β) : FieldReads Q (fun j _ => d j) zero R :=
  ⟨h.sound, fun j v hv _ => ⟨v, h.exact j v hv⟩, fun j v v' h1 h2 => by have := h.exact j v h1; rw [h.exact j v' h2] at this; cases this; rfl, h.inQ⟩

theorem Reads.iff {Q : Json → Prop} {d : Json → Res β} {R : Json → β → Prop} (h : Reads Q d R) {j : Json} (hq : Q j) {v : β} : d j = .ok v ↔ R j v := ⟨h.sound j v hq, h.exact j v⟩

/-! ## Plain values -/

theorem text_reads : FieldReads (fun _ => True) decStr [] TextAs :=
  ⟨fun _ _ _ h => decStr_as.1 h, fun _ _ h => decStr_succeeds h, fun j v v' h1 h2 => by have := decStr_as.2 h1; rw [decStr_as.2 h2] at this; cases this; rfl, fun _ _ _ => trivial⟩

theorem int_reads : FieldReads (fun _ => True) decInt 0 IntAs where
  sound := fun _ _ _ h => decInt_as.1 h
  takes := by
    rintro j v (⟨hj | ⟨hj, _⟩, hn⟩ | ⟨hj, _⟩) old
    · exact ⟨v, by rw [hj]; simp [decInt, hn]⟩
    · exact ⟨0, by rw [hj]; rfl⟩
    · exact ⟨_, by rw [hj]; rfl⟩
  one := fun j v v' h1 h2 => by have := decInt_as.2 h1; rw [decInt_as.2 h2] at this; cases this; rfl
  inQ := fun _ _ _ => trivial

theorem bool_reads : FieldReads (fun _ => True) decBool false BoolAs where
  sound := fun _ _ _ h => decBool_as.1 h
  takes := by rintro j v (hj | ⟨hj, _⟩) old <;> exact ⟨_, by rw [hj]; rfl⟩
  one := fun j v v' h1 h2 => by have := decBool_as.2 h1; rw [decBool_as.2 h2] at this; cases this; rfl
  inQ := fun _ _ _ => trivial

theorem decTime_as {j : Json} {t : Time} : decTime env j Time.zero = .ok t ↔ TimeAs env j t := by
  unfold decTime TimeAs
  cases j with
  | str s => simp [Res.ofOption_eq_ok]
  | _ => simp [eq_comm]

theorem time_reads : FieldReads (fun _ => True) (decTime env) Time.zero (TimeAs env) where
  sound := fun _ _ _ h => decTime_as.1 h
  takes := by
    rintro j v (⟨s, hj, h⟩ | ⟨hj, _⟩) old
    · exact ⟨v, by rw [hj]; exact Res.ofOption_eq_ok.2 h⟩
    · exact ⟨old, by rw [hj]; rfl⟩
  one := fun j v v' h1 h2 => by have := decTime_as.2 h1; rw [decTime_as.2 h2] at this; cases this; rfl
  inQ := fun _ _ _ => trivial

theorem hex_reads : Reads (fun _ => True) decHex HexAs where
  sound := by
    intro j v _ h
    unfold decHex at h
    split at h
    · next s => exact ⟨s, rfl, (hexDecode_iff _ _).1 (Res.ofOption_eq_ok.1 h)⟩
    · cases h
  exact := by rintro j v ⟨s, rfl, h⟩; exact Res.ofOption_eq_ok.2 ((hexDecode_iff _ _).2 h)
  inQ := fun _ _ _ => trivial

/-! ## Pointers, arrays and maps -/

theorem Reads.ptr {Q : Json → Prop} {d : Json → Res β} {R : Json → β → Prop} (h : Reads Q d R) (hn : Q .null) : Reads Q (decPtr d) (PtrAs R) where
  sound := by
    intro j v hq hd
    unfold decPtr at hd
    split at hd
    · cases hd; exact .inl ⟨rfl, rfl⟩
    · next hj => obtain ⟨a, ha, rfl⟩ := Res.map_eq_ok.1 hd; exact .inr ⟨hj, a, h.sound _ _ hq ha, rfl⟩
  exact := by
    rintro j v (⟨rfl, rfl⟩ | ⟨hj, a, ha, rfl⟩)
    · rfl
    · unfold decPtr
      split
      · exact absurd rfl hj
      · rw [h.exact _ _ ha]; rfl
  inQ := by
    rintro j v (⟨rfl, rfl⟩ | ⟨hj, a, ha, rfl⟩)
    · exact hn
    · exact h.inQ _ _ ha

theorem Reads.each {Q : Json → Prop} {d : Json → Res β} {R : Json → β → Prop} (h : Reads Q d R) {l : List Json} (hq : ∀ j ∈ l, Q j) : ∀ {v : List β}, decList d l = .ok v → EachAs R l v := by
  induction l with
  | nil => intro v hd; cases hd; exact .nil
  | cons j l ih =>
    intro v hd
    obtain ⟨a, h1, hd⟩ := Res.bind_eq_ok.1 hd
    obtain ⟨b, h2, hd⟩ := Res.bind_eq_ok.1 hd
    cases hd
    exact .cons (h.sound _ _ (hq _ (by simp)) h1) (ih (fun j hj => hq j (List.mem_cons_of_mem _ hj)) h2)

theorem Reads.each_exact {Q : Json → Prop} {d : Json → Res β} {R : Json → β → Prop} (h : Reads Q d R) {l : List Json} {v : List β} (hv : EachAs R l v) : decList d l = .ok v ∧ ∀ j ∈ l, Q j := by
  induction hv with
  | nil => exact ⟨rfl, by simp⟩
  | cons h1 _ ih =>
    refine ⟨by rw [decList, h.exact _ _ h1, Res.bind_ok, ih.1, Res.bind_ok], ?_⟩
    intro j hj
    rcases List.mem_cons.1 hj with rfl | hj
    · exact h.inQ _ _ h1
    · exact ih.2 j hj

theorem Reads.slice {Q : Json → Prop} {d : Json → Res β} {R : Json → β → Prop} (h : Reads Q d R) : Reads (ForElems Q) (decSlice d) (ListAs R) where
  sound := by
    intro j v hq hd
    unfold decSlice at hd
    split at hd
    · cases hd; exact .null
    · next l => obtain ⟨a, ha, rfl⟩ := Res.map_eq_ok.1 hd; exact .arr (h.each (hq l rfl) ha)
    · cases hd
  exact := by
    intro j v hv
    cases hv with
    | null => rfl
    | arr hv => unfold decSlice; simp only []; rw [(h.each_exact hv).1]; rfl
  inQ := by
    intro j v hv l hl
    cases hv with
    | null => cases hl
    | arr hv => cases hl; exact (h.each_exact hv).2

theorem decEntries_last' {R : Json → β → Prop} {dec : Json → Res β} {m : List (Str × Json)} (hd : ∀ e ∈ m, ∀ a, dec e.2 = .ok a ↔ R e.2 a) : ∀ {acc es : Entries β}, decEntries dec m acc = .ok es →
    (∀ e ∈ m, ∃ v, R e.2 v) ∧ ∀ k v, es.get? k = some v ↔ (∃ j, LastMember m k j ∧ R j v) ∨ ((∀ e ∈ m, e.1 ≠ k) ∧ acc.get? k = some v) := by
  induction m with
  | nil =>
    intro acc es h
    cases h
    refine ⟨by simp, fun k v => ⟨fun h => .inr ⟨by simp, h⟩, ?_⟩⟩
    rintro (⟨j, ⟨p, q, h, _⟩, _⟩ | ⟨_, h⟩)
    · cases p <;> cases h
    · exact h
  | cons e m ih =>
    intro acc es h
    obtain ⟨k0, j0⟩ := e
    obtain ⟨a, h1, h⟩ := Res.bind_eq_ok.1 h
    obtain ⟨h2, h3⟩ := ih (fun e he => hd e (List.mem_cons_of_mem _ he)) h
    have hd0 := hd (k0, j0) (by simp)
    refine ⟨?_, ?_⟩
    · intro e he
      rcases List.mem_cons.1 he with rfl | he
      · exact ⟨a, (hd0 _).1 h1⟩
      · exact h2 e he
    · intro k v
      rw [h3, Entries.get?_set]
      constructor
      · rintro (⟨j, hj, hR⟩ | ⟨hn, h⟩)
        · exact .inl ⟨j, LastMember.cons.2 (.inl hj), hR⟩
        · split at h
          · next hk => cases h; exact .inl ⟨j0, LastMember.cons.2 (.inr ⟨by simp_all, rfl, hn⟩), (hd0 _).1 h1⟩
          · next hk =>
            refine .inr ⟨?_, h⟩
            intro e he
            rcases List.mem_cons.1 he with rfl | he
            · exact hk
            · exact hn e he
      · rintro (⟨j, hj, hR⟩ | ⟨hn, h⟩)
        · rcases LastMember.cons.1 hj with hj | ⟨rfl, rfl, hq⟩
          · exact .inl ⟨j, hj, hR⟩
          · refine .inr ⟨hq, ?_⟩
            have := (hd0 _).2 hR
            rw [h1] at this
            cases this
            simp
        · refine .inr ⟨fun e he => hn e (List.mem_cons_of_mem _ he), ?_⟩
          have := hn (k0, j0) (by simp)
          simp_all [eq_comm]

theorem decEntries_takes {dec : Json → Res β} {m : List (Str × Json)} (h : ∀ e ∈ m, ∃ v, dec e.2 = .ok v) : ∀ acc, ∃ l, decEntries dec m acc = .ok l := by
  induction m with
  | nil => exact fun acc => ⟨acc, rfl⟩
  | cons e m ih =>
    intro acc
    obtain ⟨v, hv⟩ := h e (by simp)
    obtain ⟨l, hl⟩ := ih (fun e he => h e (List.mem_cons_of_mem _ he)) (acc.set e.1 v)
    exact ⟨l, by rw [decEntries, hv, Res.bind_ok, hl]⟩

theorem MapOf.one {R : Str → Json → β → Prop} {j : Json} {g g' : GoMap β} (h : MapOf R j g) (h' : MapOf R j g') : g = g' := by
  rcases h with ⟨rfl, rfl⟩ | ⟨m, es, rfl, rfl, _, h2, h3⟩
  · rcases h' with ⟨_, rfl⟩ | ⟨m, es, hm, _⟩
    · rfl
    · cases hm
  · rcases h' with ⟨hm, _⟩ | ⟨m', es', hm, rfl, _, h2', h3'⟩
    · cases hm
    · cases hm
      congr 1
      refine h3.ext h3' (fun k => Option.ext fun v => ?_)
      rw [h2, h2']

theorem Reads.map {Q : Json → Prop} {d : Json → Res β} {R : Json → β → Prop} (h : Reads Q d R) : FieldReads (ForEntries Q) (decMap d) none (MapOf fun _ => R) where
  sound := by
    intro j g hq hd
    unfold decMap at hd
    split at hd
    · cases hd; exact .inl ⟨rfl, rfl⟩
    · next m =>
      obtain ⟨es, hes, rfl⟩ := Res.map_eq_ok.1 hd
      have hes : decEntries d m [] = .ok es := hes
      obtain ⟨h1, h2⟩ := decEntries_last' (R := R) (fun e he a => h.iff (hq m rfl e he)) hes
      refine .inr ⟨m, es, rfl, rfl, h1, fun k v => ?_, decEntries_sorted Entries.sorted_nil hes⟩
      rw [h2]
      exact ⟨fun h => h.elim id (fun h => absurd h.2 (by intro h; cases h)), .inl⟩
    · cases hd
  takes := by
    rintro j g (⟨rfl, rfl⟩ | ⟨m, es, rfl, rfl, h1, _⟩) old
    · exact ⟨none, rfl⟩
    · obtain ⟨l, hl⟩ := decEntries_takes (dec := d) (m := m) (fun e he => (h1 e he).imp fun v hv => h.exact _ _ hv) old.entries
      exact ⟨some l, by unfold decMap; simp only []; rw [hl]; rfl⟩
  one := fun _ _ _ => MapOf.one
  inQ := by
    rintro j g (⟨rfl, rfl⟩ | ⟨m, es, rfl, rfl, h1, _⟩) m' hm
    · cases hm
    · cases hm
      intro e he
      obtain ⟨v, hv⟩ := h1 e he
      exact h.inQ _ _ hv

/-! ## Unrecognised members -/

theorem others_of {names : List Str} {m : List (Str × Json)} {d : Fields} (h : decAnyMap env (.obj m) = .ok d) : OthersAs env names m (names.foldl Entries.del d) := by
  unfold decAnyMap at h
  simp only at h
  split at h
  · next d' hd =>
    cases h
    obtain ⟨m', es, hm, hes, rfl⟩ := toAny_obj_inv hd
    cases hm
    refine ⟨fun e he => toAny_obj_isSome.1 (by rw [hd]; rfl) e he, fun k v => ?_, (Entries.sorted_nil.foldl_set _).foldl_del _⟩
    rw [Entries.get?_foldl_del, ← dict_get? hes]
    split <;> simp_all
  · cases h

theorem others_takes {names : List Str} {m : List (Str × Json)} {u : Fields} (h : OthersAs env names m u) : ∃ d, decAnyMap env (.obj m) = .ok d := decAnyMap_ok_of_fit (toAny_obj_isSome.2 h.1)

theorem others_one {names : List Str} {m : List (Str × Json)} {u u' : Fields} (h : OthersAs env names m u) (h' : OthersAs env names m u') : u = u' :=
  h.2.2.ext h'.2.2 (fun k => Option.ext fun v => by rw [h.2.1, h'.2.1])

/-! ## Objects -/

theorem Spec.Says.one {R : Json → β → Prop} {zero : β} {m : List (Str × Json)} {n : Str} {v v' : β} (hR : ∀ j v v', R j v → R j v' → v = v') (h : Says R zero m n v) (h' : Says R zero m n v') : v = v' := by
  rcases h with ⟨hu, rfl⟩ | ⟨j, hj, hr⟩ <;> rcases h' with ⟨hu', rfl⟩ | ⟨j', hj', hr'⟩
  · rfl
  · obtain ⟨p, k, q, rfl, hs, _⟩ := hj'; exact absurd hs (hu (k, j') (by simp))
  · obtain ⟨p, k, q, rfl, hs, _⟩ := hj; exact absurd hs (hu' (k, j) (by simp))
  · rw [Once.unique hj hj'] at hr; exact hR _ _ _ hr hr'

theorem Spec.Says.plain {R : Json → β → Prop} {zero : β} {m : List (Str × Json)} {n : Str} {v : β} (h : Says R zero m n v) : Unmentioned m n ∨ ∃ j, Once m n j :=
  h.imp And.left (fun ⟨j, hj, _⟩ => ⟨j, hj⟩)

/-- A field of a struct: its name, its place, its decoder and what that reads. -/
structure Fld (α : Type) where
  name : Str
  {β : Type}
  get : α → β
  d : Json → β → Res β
  Q : Json → Prop
  R : Json → β → Prop

/-- The fields are decoded independently; nothing else of the struct is touched. -/
structure StructReads (names : List Str) (setField : Str → Json → α → Res α) (zero : α) (setUnrec : Fields → α → α) (u : α → Fields) (rest : α → γ) (fs : List (Fld α)) : Prop where
  named : fs.map (·.name) = names
  simple : ∀ n ∈ names, SimpleName n
  set : ∀ F ∈ fs, ∀ j a a', setField F.name j a = .ok a' → F.d j (F.get a) = .ok (F.get a') ∧ (∀ G ∈ fs, G.name ≠ F.name → G.get a' = G.get a) ∧ rest a' = rest a
  takes : ∀ F ∈ fs, ∀ j a v, F.d j (F.get a) = .ok v → ∃ a', setField F.name j a = .ok a'
  reads : ∀ F ∈ fs, FieldReads F.Q F.d (F.get zero) F.R
  unrec : ∀ x a, u (setUnrec x a) = x ∧ (∀ F ∈ fs, F.get (setUnrec x a) = F.get a) ∧ rest (setUnrec x a) = rest a
  ext : ∀ a b, (∀ F ∈ fs, F.get a = F.get b) → u a = u b → rest a = rest b → a = b
  empty : u zero = []

theorem StructReads.object {names : List Str} {setField : Str → Json → α → Res α} {zero : α} {setUnrec : Fields → α → α} {u : α → Fields} {rest : α → γ} {fs : List (Fld α)}
    (h : StructReads names setField zero setUnrec u rest fs) :
    Reads (ForObj fun m => Plain names m ∧ ∀ F ∈ fs, AtField m F.name F.Q) (unmarshalStruct env names setField zero .ok setUnrec)
      (ObjAs (fun m a => (∀ F ∈ fs, Says F.R (F.get zero) m F.name (F.get a)) ∧ OthersAs env names m (u a) ∧ rest a = rest zero) zero) := by
  have hmem : ∀ F ∈ fs, F.name ∈ names := fun F hF => by rw [← h.named]; exact List.mem_map_of_mem hF
  have hsound : ∀ j a, (ForObj fun m => Plain names m ∧ ∀ F ∈ fs, AtField m F.name F.Q) j → unmarshalStruct env names setField zero .ok setUnrec j = .ok a →
      (ObjAs (fun m a => (∀ F ∈ fs, Says F.R (F.get zero) m F.name (F.get a)) ∧ OthersAs env names m (u a) ∧ rest a = rest zero) zero) j a := by
    intro j a hq hd
    obtain ⟨a1, h1, hd⟩ := Res.bind_eq_ok.1 hd
    rw [Res.bind_ok] at hd
    obtain ⟨d, h2, hd⟩ := Res.bind_eq_ok.1 hd
    cases hd
    cases j with
    | null =>
      cases h1
      cases h2
      refine .inr ⟨rfl, h.ext _ _ (h.unrec _ _).2.1 ?_ (h.unrec _ _).2.2⟩
      rw [(h.unrec _ _).1, h.empty]
      clear hmem
      have : ∀ l : List Str, l.foldl Entries.del ([] : Fields) = [] := by intro l; induction l with | nil => rfl | cons _ _ ih => exact ih
      exact this names
    | obj m =>
      obtain ⟨hp, hQ⟩ := hq m rfl
      have h1 : decFields names setField m zero = .ok a1 := h1
      refine .inl ⟨m, rfl, ?_, ?_, ?_⟩
      · intro F hF
        rw [(h.unrec _ _).2.1 F hF]
        refine decFields_says h.simple (hmem F hF) ?_ (hp _ (hmem F hF)) ?_ h1
        · intro f j a a' hf hne hset
          rw [← h.named, List.mem_map] at hf
          obtain ⟨G, hG, rfl⟩ := hf
          exact (h.set G hG j a a' hset).2.1 F hF (Ne.symm hne)
        · intro e he hs b b' hb hset
          have := (h.set F hF _ _ _ hset).1
          rw [hb] at this
          exact (h.reads F hF).sound _ _ (hQ F hF e he hs) this
      · rw [(h.unrec _ _).1]; exact others_of h2
      · rw [(h.unrec _ _).2.2]
        refine decFields_inv' (P := fun b => rest b = rest zero) ?_ rfl h1
        intro k f j a a' _ hf hP hset
        have hf := findField_mem hf
        rw [← h.named, List.mem_map] at hf
        obtain ⟨G, hG, rfl⟩ := hf
        rw [(h.set G hG j a a' hset).2.2]; exact hP
    | _ => cases h1
  have hinQ : ∀ j a, (ObjAs (fun m a => (∀ F ∈ fs, Says F.R (F.get zero) m F.name (F.get a)) ∧ OthersAs env names m (u a) ∧ rest a = rest zero) zero) j a →
      (ForObj fun m => Plain names m ∧ ∀ F ∈ fs, AtField m F.name F.Q) j := by
    rintro j a (⟨m, rfl, h1, h2, h3⟩ | ⟨rfl, rfl⟩) m' hm
    · cases hm
      refine ⟨?_, ?_⟩
      · intro n hn
        rw [← h.named, List.mem_map] at hn
        obtain ⟨F, hF, rfl⟩ := hn
        exact (h1 F hF).plain
      · intro F hF e he hs
        obtain ⟨v, hv⟩ := (h1 F hF).all e he hs
        exact (h.reads F hF).inQ _ _ hv
    · cases hm
  refine ⟨hsound, ?_, hinQ⟩
  intro j a hR
  have hQ := hinQ j a hR
  have hok : ∃ a', unmarshalStruct env names setField zero .ok setUnrec j = .ok a' := by
    rcases hR with ⟨m, rfl, h1, h2, h3⟩ | ⟨rfl, rfl⟩
    · obtain ⟨b, hb⟩ : ∃ b, decFields names setField m zero = .ok b := by
        refine decFields_succeeds ?_ _
        intro e he f hf b
        have hfm := findField_mem hf
        have hsp := (findField_spelled h.simple hfm).1 hf
        rw [← h.named, List.mem_map] at hfm
        obtain ⟨F, hF, rfl⟩ := hfm
        obtain ⟨v, hv⟩ := (h1 F hF).all e he hsp
        obtain ⟨w, hw⟩ := (h.reads F hF).takes _ _ hv (F.get b)
        exact h.takes F hF _ _ _ hw
      obtain ⟨d, hd⟩ := others_takes h2
      refine ⟨setUnrec (names.foldl Entries.del d) b, ?_⟩
      show (decFields names setField m zero >>= _) = _
      rw [hb, Res.bind_ok, Res.bind_ok, hd, Res.bind_ok]
    · exact ⟨_, rfl⟩
  obtain ⟨a', ha'⟩ := hok
  rw [ha']
  congr 1
  rcases hsound j a' hQ ha' with ⟨m, rfl, h1, h2, h3⟩ | ⟨rfl, rfl⟩
  · rcases hR with ⟨m', hm, h1', h2', h3'⟩ | ⟨hm, _⟩
    · cases hm
      exact h.ext _ _ (fun F hF => (h1 F hF).one (h.reads F hF).one (h1' F hF)) (others_one h2 h2') (h3.trans h3'.symm)
    · cases hm
  · rcases hR with ⟨m', hm, _⟩ | ⟨_, rfl⟩
    · cases hm
    · rfl

theorem OneMember.of_plain {names : List Str} {m : List (Str × Json)} (hsi : ∀ n ∈ names, SimpleName n) (hp : Plain names m) {f : Str} (hf : f ∈ names) : OneMember names f m := by
  rcases hp f hf with hu | ⟨j, p, k, q, rfl, hs, hn⟩
  · refine List.pairwise_iff_forall_sublist.2 ?_
    intro a b hab h1
    exact absurd ((findField_spelled hsi hf).1 h1) (hu a (hab.subset (by simp)))
  · have hno : ∀ e ∈ p ++ q, findField names e.1 ≠ some f := fun e he h => hn e he ((findField_spelled hsi hf).1 h)
    refine List.pairwise_append.2 ⟨?_, List.pairwise_cons.2 ⟨fun e he _ => hno e (List.mem_append_right _ he), ?_⟩, ?_⟩
    · exact List.pairwise_iff_forall_sublist.2 (fun {a b} hab h => absurd h (hno a (List.mem_append_left _ (hab.subset (by simp)))))
    · exact List.pairwise_iff_forall_sublist.2 (fun {a b} hab h => absurd h (hno a (List.mem_append_right _ (hab.subset (by simp)))))
    · intro a ha b hb h
      exact absurd h (hno a (List.mem_append_left _ ha))

/-- The same for structs with string lists. -/
theorem StructReads.lists {names lists : List Str} {setField : Str → Json → α → Res α} {zero : α} {setUnrec : Fields → α → α} {u : α → Fields} {rest : α → γ} {fs : List (Fld α)}
    (h : StructReads names setField zero setUnrec u rest fs) (hl : ∀ f ∈ lists, f ∈ names) :
    Reads (ForObj fun m => Plain names m ∧ ∀ F ∈ fs, AtField m F.name F.Q) (unmarshalLists env names lists setField zero setUnrec)
      (ObjAs (fun m a => (∀ F ∈ fs, Says F.R (F.get zero) m F.name (F.get a)) ∧ OthersAs env names m (u a) ∧ rest a = rest zero) zero) := by
  have he : ∀ j, (ForObj fun m => Plain names m ∧ ∀ F ∈ fs, AtField m F.name F.Q) j →
      unmarshalLists env names lists setField zero setUnrec j = unmarshalStruct env names setField zero .ok setUnrec j := by
    intro j hq
    cases j with
    | obj m => exact unmarshalLists_once fun f hf => OneMember.of_plain h.simple (hq m rfl).1 (hl f hf)
    | _ => rfl
  have h0 := h.object (env := env)
  exact ⟨fun j v hq hd => h0.sound j v hq ((he j hq).symm.trans hd), fun j v hv => (he j (h0.inQ j v hv)).trans (h0.exact j v hv), h0.inQ⟩

theorem Reads.congr {Q Q' : Json → Prop} {d : Json → Res β} {R R' : Json → β → Prop} (h : Reads Q d R) (hQ : ∀ j, Q j ↔ Q' j) (hR : ∀ j v, R j v ↔ R' j v) : Reads Q' d R' :=
  ⟨fun j v hq hd => (hR _ _).1 (h.sound j v ((hQ j).2 hq) hd), fun j v hv => h.exact j v ((hR _ _).2 hv), fun j v hv => (hQ j).1 (h.inQ j v ((hR _ _).2 hv))⟩

theorem objAs_congr {P P' : List (Str × Json) → β → Prop} {zero : β} (h : ∀ m a, P m a ↔ P' m a) (j : Json) (a : β) : ObjAs P zero j a ↔ ObjAs P' zero j a := by
  unfold ObjAs; simp only [h]

theorem forObj_congr {P P' : List (Str × Json) → Prop} (h : ∀ m, P m ↔ P' m) (j : Json) : ForObj P j ↔ ForObj P' j := by
  unfold ForObj; simp only [h]

end Tuf
