import Verif.Props.Meaning
import Verif.Spec.Lists

/-!
# Where the lists of strings of a document come from (C144)
-/

namespace Tuf
open Spec Sample

variable {env : Env}

/-! ## Cells -/

theorem overCells_length (l : List Json) : ∀ cells : List Str, (overCells l cells).length = l.length := by
  induction l with
  | nil => intro cells; cases cells <;> rfl
  | cons j l ih =>
    intro cells
    cases cells with
    | nil => rfl
    | cons s cells => simp [overCells, ih]

/-- An element after decoding over cells is the one written, or a `null` in place of which a cell shows. -/
theorem overCells_get {l : List Json} : ∀ {cells : List Str} {i : Nat} {y : Json}, (overCells l cells)[i]? = some y →
    l[i]? = some y ∨ (l[i]? = some .null ∧ ∃ s, cells[i]? = some s ∧ y = .str s) := by
  induction l with
  | nil => intro cells i y h; cases cells <;> simp [overCells] at h
  | cons j l ih =>
    intro cells i y h
    cases cells with
    | nil => exact .inl h
    | cons s cells =>
      cases i with
      | zero =>
        simp only [overCells, List.getElem?_cons_zero, Option.some.injEq] at h ⊢
        cases j with
        | null => exact .inr ⟨rfl, s, rfl, h.symm⟩
        | _ => exact .inl h
      | succ i =>
        simp only [overCells, List.getElem?_cons_succ] at h ⊢
        exact ih h

theorem cellText_cases (j : Json) : cellText j = [] ∨ IsText j (cellText j) := by
  cases j with
  | str s => exact .inr (.inl rfl)
  | esc b s => exact .inr (.inr ⟨b, rfl⟩)
  | _ => exact .inl rfl

/-- The cells hold nothing, or what mentions of the list have written there. -/
def CellsFrom (m : List (Str × Json)) (f : Str) (cells : List Str) : Prop := ∀ i s, cells[i]? = some s → s = [] ∨ WrittenAt m f i s

theorem CellsFrom.one {m : List (Str × Json)} {f : Str} {cells : List Str} {j : Json} (h : CellsFrom m f cells) (hj : Has m f j) : CellsFrom m f (refillOne cells j).2 := by
  unfold refillOne
  split
  · next x l =>
    intro i s hs
    by_cases hi : i < ((overCells (x :: l) cells).map cellText).length
    · rw [List.getElem?_append_left hi, List.getElem?_map] at hs
      obtain ⟨y, hy, rfl⟩ := Option.map_eq_some_iff.1 hs
      rcases cellText_cases y with h0 | h0
      · exact .inl h0
      · rcases overCells_get hy with hy | ⟨_, s, hc, rfl⟩
        · exact .inr ⟨_, y, hj, hy, h0⟩
        · exact h i s hc
    · have hle := Nat.not_lt.1 hi
      rw [List.getElem?_append_right hle, List.getElem?_drop] at hs
      rw [List.length_map, overCells_length, List.length_cons] at hs hle
      rw [show l.length + 1 + (i - (l.length + 1)) = i by omega] at hs
      exact h i s hs
  · intro i s hs; simp at hs

theorem refillOne_shape (cells : List Str) (j : Json) : (∃ l, j = .arr l ∧ (refillOne cells j).1 = .arr (overCells l cells)) ∨ ((∀ l, j ≠ .arr l) ∧ (refillOne cells j).1 = j) := by
  cases j with
  | arr l =>
    cases l with
    | nil => exact .inl ⟨[], rfl, by cases cells <;> rfl⟩
    | cons x l => exact .inl ⟨_, rfl, rfl⟩
  | _ => exact .inr ⟨by simp, rfl⟩

theorem LastSpelled.cons {e : Str × Json} {m : List (Str × Json)} {f : Str} {j : Json} : LastSpelled (e :: m) f j ↔ LastSpelled m f j ∨ (Spelled f e.1 ∧ e.2 = j ∧ Unmentioned m f) := by
  constructor
  · rintro ⟨p, k, q, h, hs, hq⟩
    cases p with
    | nil => cases h; exact .inr ⟨hs, rfl, hq⟩
    | cons a p => cases h; exact .inl ⟨p, k, q, rfl, hs, hq⟩
  · rintro (⟨p, k, q, rfl, hs, hq⟩ | ⟨hs, rfl, hq⟩)
    · exact ⟨e :: p, k, q, rfl, hs, hq⟩
    · exact ⟨[], e.1, m, rfl, hs, hq⟩

theorem refill_keys {names : List Str} {f : Str} {m : List (Str × Json)} : ∀ cells, (refill names f cells m).map Prod.fst = m.map Prod.fst := by
  induction m with
  | nil => intro cells; rfl
  | cons e m ih =>
    intro cells
    rw [refill]
    split <;> simp [ih]

theorem refill_unmentioned {names : List Str} {f g : Str} {m : List (Str × Json)} {cells : List Str} : Unmentioned (refill names f cells m) g ↔ Unmentioned m g := by
  have : ∀ m : List (Str × Json), Unmentioned m g ↔ ∀ k ∈ m.map Prod.fst, ¬ Spelled g k := by
    intro m; simp [Unmentioned]
  rw [this, this, refill_keys]

theorem refill_last {names : List Str} (hsi : ∀ n ∈ names, SimpleName n) {f : Str} (hf : f ∈ names) {j : Json} (w : List (Str × Json)) {m : List (Str × Json)} : ∀ {cells : List Str}, (∀ e ∈ m, e ∈ w) →
    CellsFrom w f cells → LastSpelled m f j → ∃ cells', CellsFrom w f cells' ∧ LastSpelled (refill names f cells m) f (refillOne cells' j).1 := by
  induction m with
  | nil => rintro cells _ _ ⟨p, k, q, h, _⟩; cases p <;> cases h
  | cons e m ih =>
    intro cells hw hc hl
    obtain ⟨k, j0⟩ := e
    have hw' : ∀ e ∈ m, e ∈ w := fun e he => hw e (List.mem_cons_of_mem _ he)
    rw [refill]
    split
    · next hk =>
      have hs := (findField_spelled hsi hf).1 hk
      rcases LastSpelled.cons.1 hl with hl | ⟨_, rfl, hu⟩
      · obtain ⟨c, h1, h2⟩ := ih hw' (hc.one ⟨k, hw (k, j0) (by simp), hs⟩) hl
        exact ⟨c, h1, LastSpelled.cons.2 (.inl h2)⟩
      · exact ⟨cells, hc, LastSpelled.cons.2 (.inr ⟨hs, rfl, refill_unmentioned.2 hu⟩)⟩
    · next hk =>
      rcases LastSpelled.cons.1 hl with hl | ⟨hs, _⟩
      · obtain ⟨c, h1, h2⟩ := ih hw' hc hl
        exact ⟨c, h1, LastSpelled.cons.2 (.inl h2)⟩
      · exact absurd ((findField_spelled hsi hf).2 hs) hk

/-- Refilling another list changes nothing of this one. -/
theorem refill_other {names : List Str} (hsi : ∀ n ∈ names, SimpleName n) {f g : Str} (hf : f ∈ names) (hg : g ∈ names) (hfg : f ≠ g) {m : List (Str × Json)} : ∀ {cells : List Str},
    (∀ j, LastSpelled (refill names g cells m) f j ↔ LastSpelled m f j) ∧ (∀ j, Has (refill names g cells m) f j ↔ Has m f j) := by
  induction m with
  | nil => intro cells; exact ⟨fun _ => Iff.rfl, fun _ => Iff.rfl⟩
  | cons e m ih =>
    intro cells
    obtain ⟨k, j0⟩ := e
    have hcons : ∀ (m : List (Str × Json)) (e : Str × Json) j, Has (e :: m) f j ↔ (e.2 = j ∧ Spelled f e.1) ∨ Has m f j := by
      intro m e j
      constructor
      · rintro ⟨k, hk, hs⟩
        rcases List.mem_cons.1 hk with rfl | hk
        · exact .inl ⟨rfl, hs⟩
        · exact .inr ⟨k, hk, hs⟩
      · rintro (⟨rfl, hs⟩ | ⟨k, hk, hs⟩)
        · exact ⟨e.1, by simp, hs⟩
        · exact ⟨k, List.mem_cons_of_mem _ hk, hs⟩
    rw [refill]
    split
    · next hk =>
      have hns : ¬ Spelled f k := fun hs => hfg (by have := (findField_spelled hsi hf).2 hs; rw [hk] at this; cases this; rfl)
      refine ⟨fun j => ?_, fun j => ?_⟩
      · rw [LastSpelled.cons, LastSpelled.cons, ih.1]; simp [hns]
      · rw [hcons, hcons, ih.2]; simp [hns]
    · refine ⟨fun j => ?_, fun j => ?_⟩
      · rw [LastSpelled.cons, LastSpelled.cons, ih.1, refill_unmentioned]
      · rw [hcons, hcons, ih.2]

/-- What is decoded for a list of an object, the lists having been refilled. -/
theorem refillAll_shown {names lists : List Str} (hsi : ∀ n ∈ names, SimpleName n) (hls : ∀ f ∈ lists, f ∈ names) (hnd : lists.Nodup) {f : Str} (hf : f ∈ lists) {m m' : List (Str × Json)}
    (h : refillAll names lists (.obj m) = .obj m') : (Unmentioned m' f ↔ Unmentioned m f) ∧ ∀ j, LastSpelled m f j → ∃ cells, CellsFrom m f cells ∧ LastSpelled m' f (refillOne cells j).1 := by
  have hkeep : ∀ (l : List Str), (∀ g ∈ l, g ∈ names ∧ f ≠ g) → ∀ m : List (Str × Json), (∀ j, LastSpelled (l.foldl (fun m f => refill names f [] m) m) f j ↔ LastSpelled m f j) ∧
      (∀ j, Has (l.foldl (fun m f => refill names f [] m) m) f j ↔ Has m f j) := by
    intro l
    induction l with
    | nil => exact fun _ m => ⟨fun _ => Iff.rfl, fun _ => Iff.rfl⟩
    | cons g l ih =>
      intro hl m
      obtain ⟨h1, h2⟩ := ih (fun g hg => hl g (List.mem_cons_of_mem _ hg)) (refill names g [] m)
      obtain ⟨h3, h4⟩ := refill_other hsi (hls f hf) (hl g (by simp)).1 (hl g (by simp)).2 (m := m) (cells := [])
      exact ⟨fun j => (h1 j).trans (h3 j), fun j => (h2 j).trans (h4 j)⟩
  have hun : ∀ (l : List Str) (m : List (Str × Json)), Unmentioned (l.foldl (fun m f => refill names f [] m) m) f ↔ Unmentioned m f := by
    intro l
    induction l with
    | nil => exact fun _ => Iff.rfl
    | cons g l ih => exact fun m => (ih _).trans refill_unmentioned
  have hm' : m' = lists.foldl (fun m f => refill names f [] m) m := by
    have : Json.obj (lists.foldl (fun m f => refill names f [] m) m) = .obj m' := h
    cases this; rfl
  subst hm'
  refine ⟨hun lists m, ?_⟩
  intro j hj
  obtain ⟨p, q, rfl⟩ := List.append_of_mem hf
  obtain ⟨hp, hq, hpq⟩ := List.nodup_append.1 hnd
  have hfp : ∀ g ∈ p, g ∈ names ∧ f ≠ g := fun g hg => ⟨hls g (List.mem_append_left _ hg), fun he => hpq g hg f (by simp) he.symm⟩
  have hfq : ∀ g ∈ q, g ∈ names ∧ f ≠ g := fun g hg => ⟨hls g (List.mem_append_right _ (List.mem_cons_of_mem _ hg)), fun he => (List.nodup_cons.1 hq).1 (he ▸ hg)⟩
  obtain ⟨h1, h2⟩ := hkeep p hfp m
  rw [List.foldl_append, List.foldl_cons]
  obtain ⟨cells, h3, h4⟩ := refill_last hsi (hls f hf) (p.foldl (fun m f => refill names f [] m) m) (cells := []) (fun _ h => h) (by intro i s hs; simp at hs) ((h1 j).2 hj)
  refine ⟨cells, ?_, ((hkeep q hfq _).1 _).2 h4⟩
  intro i s hs
  rcases h3 i s hs with h0 | ⟨l, x, hh, hx⟩
  · exact .inl h0
  · exact .inr ⟨l, x, (h2 _).1 hh, hx⟩

/-- What `decSlice` makes of the elements. -/
theorem decTexts_get {l : List Json} : ∀ {v : List Str}, decList (fun j => decStr j []) l = .ok v → v.length = l.length ∧ ∀ (i : Nat) y s, l[i]? = some y → v[i]? = some s → IsText y s ∨ (y = .null ∧ s = []) := by
  induction l with
  | nil => intro v h; cases h; simp
  | cons j l ih =>
    intro v h
    obtain ⟨a, h1, h⟩ := Res.bind_eq_ok.1 h
    obtain ⟨b, h2, h⟩ := Res.bind_eq_ok.1 h
    cases h
    obtain ⟨h3, h4⟩ := ih h2
    refine ⟨by simp [h3], ?_⟩
    intro i y s hy hs
    cases i with
    | zero =>
      simp only [List.getElem?_cons_zero, Option.some.injEq] at hy hs
      subst hy hs
      cases j with
      | null => cases h1; exact .inr ⟨rfl, rfl⟩
      | str t => cases h1; exact .inl (.inl rfl)
      | esc b t => cases h1; exact .inl (.inr ⟨b, rfl⟩)
      | _ => cases h1
    | succ i => simp only [List.getElem?_cons_succ] at hy hs; exact h4 i y s hy hs

theorem decTexts_shown {m : List (Str × Json)} {f : Str} {j : Json} {cells : List Str} {v : Slice Str} (hl : LastSpelled m f j) (hc : CellsFrom m f cells)
    (h : decSlice (fun j => decStr j []) (refillOne cells j).1 = .ok v) : ListShown m f v := by
  rcases refillOne_shape cells j with ⟨l, rfl, he⟩ | ⟨hn, he⟩
  · rw [he] at h
    obtain ⟨w, hw, rfl⟩ := Res.map_eq_ok.1 (show (decList _ _).map some = _ from h)
    obtain ⟨h1, h2⟩ := decTexts_get hw
    rw [overCells_length] at h1
    refine .inr (.inr ⟨l, w, hl, rfl, h1, ?_⟩)
    intro i x s hx hs
    have hi : i < (overCells l cells).length := by rw [overCells_length]; exact (List.getElem?_eq_some_iff.1 hx).1
    have hy := List.getElem?_eq_getElem hi
    rcases overCells_get hy with h3 | ⟨h3, t, ht, h4⟩
    · rw [hx] at h3
      cases h3
      rcases h2 i _ s hy hs with h5 | ⟨h5, h6⟩
      · exact .inl h5
      · exact .inr ⟨h5, .inl h6⟩
    · rw [hx] at h3
      cases h3
      have h5 := h2 i _ s hy hs
      rw [h4] at h5
      rcases h5 with (h5 | ⟨_, h5⟩) | ⟨h5, _⟩
      · cases h5; exact .inr ⟨rfl, hc i s ht⟩
      · cases h5
      · cases h5
  · rw [he] at h
    cases j with
    | null => cases h; exact .inr (.inl ⟨hl, rfl⟩)
    | arr l => exact absurd rfl (hn l)
    | _ => cases h

/-- A list of a struct after decoding an object. -/
theorem unmarshalLists_shown {α : Type} {names lists : List Str} {setField : Str → Json → α → Res α} {zero : α} {setUnrec : Fields → α → α} {m : List (Str × Json)} {a : α}
    (h : unmarshalLists env names lists setField zero setUnrec (.obj m) = .ok a) (get : α → Slice Str) {f : Str}
    (hsi : ∀ n ∈ names, SimpleName n) (hls : ∀ f ∈ lists, f ∈ names) (hnd : lists.Nodup) (hf : f ∈ lists)
    (hother : ∀ g j a a', g ∈ names → g ≠ f → setField g j a = .ok a' → get a' = get a) (hset : ∀ j a a', setField f j a = .ok a' → decSlice (fun j => decStr j []) j = .ok (get a'))
    (hun : ∀ u a, get (setUnrec u a) = get a) (hz : get zero = none) : ListShown m f (get a) := by
  unfold unmarshalLists at h
  obtain ⟨a1, h1, h⟩ := Res.bind_eq_ok.1 h
  obtain ⟨d, _, h⟩ := Res.bind_eq_ok.1 h
  cases h
  rw [hun]
  have hm' : ∃ m', refillAll names lists (.obj m) = .obj m' := ⟨_, rfl⟩
  obtain ⟨m', hm'⟩ := hm'
  obtain ⟨h2, h3⟩ := refillAll_shown hsi hls hnd hf hm'
  rw [hm'] at h1
  have h1 : decFields names setField m' zero = .ok a1 := h1
  by_cases hex : ∃ e ∈ m, Spelled f e.1
  · obtain ⟨j, hj⟩ := exists_lastSpelled hex
    obtain ⟨cells, hc, hl⟩ := h3 j hj
    exact decTexts_shown hj hc (decFields_last_says' (P := fun v => decSlice (fun j => decStr j []) (refillOne cells j).1 = .ok v) hsi (hls f hf) hother (fun a a' hs => hset _ a a' hs) hl h1)
  · have hu : Unmentioned m f := fun e he hs => hex ⟨e, he, hs⟩
    exact .inl ⟨hu, by rw [decFields_silent (hsi f (hls f hf)) hother (h2.2 hu) h1, hz]⟩

/-! ## Structs -/

theorem bind_put {α β : Type} {x : Res β} {f : β → α} {a' : α} (h : (x >>= fun v => Res.ok (f v)) = .ok a') : ∃ v, x = .ok v ∧ a' = f v := by
  obtain ⟨v, hv, h⟩ := Res.bind_eq_ok.1 h
  cases h
  exact ⟨v, hv, rfl⟩

theorem Role.shown {m : List (Str × Json)} {a : Role} (h : Role.unmarshal env (.obj m) = .ok a) : ListShown m b!"keyids" a.keyIDs := by
  unfold Role.unmarshal at h
  refine unmarshalLists_shown h (·.keyIDs) (by decide) (by decide) (by decide) (by decide) ?_ ?_ (fun _ _ => rfl) rfl
  · intro g j a a' hg hne hs
    unfold Role.setField at hs
    rw [if_neg hne] at hs
    obtain ⟨v, _, rfl⟩ := bind_put hs
    rfl
  · intro j a a' hs
    obtain ⟨v, hv, rfl⟩ := bind_put hs
    exact hv

theorem SuccinctRoles.shown {m : List (Str × Json)} {a : SuccinctRoles} (h : SuccinctRoles.unmarshal env (.obj m) = .ok a) : ListShown m b!"keyids" a.keyIDs := by
  unfold SuccinctRoles.unmarshal at h
  refine unmarshalLists_shown h (·.keyIDs) (by decide) (by decide) (by decide) (by decide) ?_ ?_ (fun _ _ => rfl) rfl
  · intro g j a a' hg hne hs
    unfold SuccinctRoles.setField at hs
    rw [if_neg hne] at hs
    repeat' split at hs
    all_goals (obtain ⟨v, _, rfl⟩ := bind_put hs; rfl)
  · intro j a a' hs
    obtain ⟨v, hv, rfl⟩ := bind_put hs
    exact hv

theorem DelegatedRole.shown {m : List (Str × Json)} {a : DelegatedRole} (h : DelegatedRole.unmarshal env (.obj m) = .ok a) :
    ListShown m b!"keyids" a.keyIDs ∧ ListShown m b!"paths" a.paths ∧ ListShown m b!"path_hash_prefixes" a.pathHashPrefixes := by
  unfold DelegatedRole.unmarshal at h
  refine ⟨unmarshalLists_shown h (·.keyIDs) (by decide) (by decide) (by decide) (by decide) ?_ ?_ (fun _ _ => rfl) rfl,
    unmarshalLists_shown h (·.paths) (by decide) (by decide) (by decide) (by decide) ?_ ?_ (fun _ _ => rfl) rfl,
    unmarshalLists_shown h (·.pathHashPrefixes) (by decide) (by decide) (by decide) (by decide) ?_ ?_ (fun _ _ => rfl) rfl⟩
  all_goals first
    | (intro g j a a' hg hne hs
       simp only [DelegatedRole.names, List.mem_cons, List.not_mem_nil, or_false] at hg
       rcases hg with rfl | rfl | rfl | rfl | rfl | rfl
       all_goals first
         | exact absurd rfl hne
         | (obtain ⟨v, _, rfl⟩ := bind_put hs; rfl))
    | (intro j a a' hs
       obtain ⟨v, hv, rfl⟩ := bind_put hs
       exact hv)

/-! ## Documents -/

theorem decEntries_from {β : Type} {dec : Json → Res β} {m : List (Str × Json)} : ∀ {acc es : Entries β}, decEntries dec m acc = .ok es →
    ∀ k v, es.get? k = some v → acc.get? k = some v ∨ ∃ j, (k, j) ∈ m ∧ dec j = .ok v := by
  induction m with
  | nil => intro acc es h k v hk; cases h; exact .inl hk
  | cons e m ih =>
    intro acc es h k v hk
    obtain ⟨a, h1, h⟩ := Res.bind_eq_ok.1 h
    rcases ih h k v hk with h2 | ⟨j, hj, h2⟩
    · rw [Entries.get?_set] at h2
      split at h2
      · next he => cases h2; subst he; exact .inr ⟨_, by simp, h1⟩
      · exact .inl h2
    · exact .inr ⟨j, List.mem_cons_of_mem _ hj, h2⟩

theorem RootType.roles_from {s : List (Str × Json)} {a : RootType} (h : RootType.unmarshal env (.obj s) = .ok a) {name : Str} {role : Role} (hr : a.roles.entries.get? name = some (some role)) :
    ∃ rs r, Has s b!"roles" (.obj rs) ∧ (name, .obj r) ∈ rs ∧ ListShown r b!"keyids" role.keyIDs := by
  obtain ⟨a1, h1, h⟩ := Res.bind_eq_ok.1 h
  obtain ⟨a2, h2, h⟩ := Res.bind_eq_ok.1 h
  obtain ⟨d, _, h⟩ := Res.bind_eq_ok.1 h
  cases h2
  cases h
  have h1 : decFields RootType.names (RootType.setField env) s {} = .ok a1 := h1
  refine decFields_inv' (P := fun a : RootType => ∀ name role, a.roles.entries.get? name = some (some role) → ∃ rs r, Has s b!"roles" (.obj rs) ∧ (name, .obj r) ∈ rs ∧ ListShown r b!"keyids" role.keyIDs)
    ?_ (by intro name role h; cases h) h1 name role hr
  intro k f j a a' hm hk hP hs
  have hf := findField_mem hk
  simp only [RootType.names, List.mem_cons, List.not_mem_nil, or_false] at hf
  rcases hf with rfl | rfl | rfl | rfl | rfl | rfl | rfl
  case inr.inr.inr.inr.inr.inr =>
    obtain ⟨v, hv, rfl⟩ := bind_put hs
    intro name role hr
    unfold decMap at hv
    split at hv
    · cases hv; cases hr
    · next rs =>
      obtain ⟨es, hes, rfl⟩ := Res.map_eq_ok.1 hv
      rcases decEntries_from hes name (some role) hr with h2 | ⟨j, hj, h2⟩
      · exact hP name role h2
      · unfold decPtr at h2
        split at h2
        · cases h2
        · obtain ⟨r, h3, h4⟩ := Res.map_eq_ok.1 h2
          cases h4
          cases j with
          | obj r => exact ⟨rs, r, ⟨k, hm, (findField_spelled (by decide) (by decide)).1 hk⟩, hj, Role.shown h3⟩
          | null => contradiction
          | _ => cases h3
    · cases hv
  all_goals (obtain ⟨v, _, rfl⟩ := bind_put hs; exact hP)

theorem decList_from {β : Type} {dec : Json → Res β} {l : List Json} : ∀ {v : List β}, decList dec l = .ok v → ∀ b ∈ v, ∃ j ∈ l, dec j = .ok b := by
  induction l with
  | nil => intro v h b hb; cases h; cases hb
  | cons j l ih =>
    intro v h b hb
    obtain ⟨a, h1, h⟩ := Res.bind_eq_ok.1 h
    obtain ⟨r, h2, h⟩ := Res.bind_eq_ok.1 h
    cases h
    rcases List.mem_cons.1 hb with rfl | hb
    · exact ⟨j, by simp, h1⟩
    · obtain ⟨j, hj, h3⟩ := ih h2 b hb
      exact ⟨j, List.mem_cons_of_mem _ hj, h3⟩

theorem Delegations.roles_from {d : List (Str × Json)} {a : Delegations} (h : Delegations.unmarshal env (.obj d) = .ok a) :
    (∀ role ∈ a.roles.elems, ∃ rs j, Has d b!"roles" (.arr rs) ∧ j ∈ rs ∧ ((j = .null ∧ role.keyIDs = none ∧ role.paths = none ∧ role.pathHashPrefixes = none) ∨
      ∃ r, j = .obj r ∧ ListShown r b!"keyids" role.keyIDs ∧ ListShown r b!"paths" role.paths ∧ ListShown r b!"path_hash_prefixes" role.pathHashPrefixes)) ∧
    ∀ role, a.succinctRoles = some role → ∃ r, Has d b!"succinct_roles" (.obj r) ∧ ListShown r b!"keyids" role.keyIDs := by
  obtain ⟨a1, h1, h⟩ := Res.bind_eq_ok.1 h
  obtain ⟨a2, h2, h⟩ := Res.bind_eq_ok.1 h
  obtain ⟨u, _, h⟩ := Res.bind_eq_ok.1 h
  cases h2
  cases h
  have h1 : decFields Delegations.names (Delegations.setField env) d {} = .ok a1 := h1
  refine decFields_inv' (a := {}) (a' := a1) (P := fun a : Delegations => (∀ role ∈ a.roles.elems, ∃ rs j, Has d b!"roles" (.arr rs) ∧ j ∈ rs ∧ ((j = .null ∧ role.keyIDs = none ∧ role.paths = none ∧ role.pathHashPrefixes = none) ∨
      ∃ r, j = .obj r ∧ ListShown r b!"keyids" role.keyIDs ∧ ListShown r b!"paths" role.paths ∧ ListShown r b!"path_hash_prefixes" role.pathHashPrefixes)) ∧
    ∀ role, a.succinctRoles = some role → ∃ r, Has d b!"succinct_roles" (.obj r) ∧ ListShown r b!"keyids" role.keyIDs) ?_ (by refine ⟨?_, ?_⟩ <;> (intro r hr; cases hr)) h1
  intro k f j a a' hm hk hP hs
  have hf := findField_mem hk
  simp only [Delegations.names, List.mem_cons, List.not_mem_nil, or_false] at hf
  rcases hf with rfl | rfl | rfl
  · obtain ⟨v, _, rfl⟩ := bind_put hs; exact hP
  · obtain ⟨v, hv, rfl⟩ := bind_put hs
    refine ⟨?_, hP.2⟩
    intro role hr
    unfold decSlice at hv
    split at hv
    · cases hv; cases hr
    · next rs =>
      obtain ⟨w, hw, rfl⟩ := Res.map_eq_ok.1 hv
      obtain ⟨j, hj, h3⟩ := decList_from hw role hr
      refine ⟨rs, j, ⟨k, hm, (findField_spelled (by decide) (by decide)).1 hk⟩, hj, ?_⟩
      cases j with
      | obj r => exact .inr ⟨r, rfl, DelegatedRole.shown h3⟩
      | null => cases h3; exact .inl ⟨rfl, rfl, rfl, rfl⟩
      | _ => cases h3
    · cases hv
  · obtain ⟨v, hv, rfl⟩ := bind_put hs
    refine ⟨hP.1, ?_⟩
    rintro role rfl
    unfold decPtr at hv
    split at hv
    · cases hv
    · obtain ⟨w, hw, h4⟩ := Res.map_eq_ok.1 hv
      cases h4
      cases j with
      | obj r => exact ⟨r, ⟨k, hm, (findField_spelled (by decide) (by decide)).1 hk⟩, SuccinctRoles.shown hw⟩
      | null => contradiction
      | _ => cases hw

theorem TargetsType.delegations_from {s : List (Str × Json)} {a : TargetsType} (h : TargetsType.unmarshal env (.obj s) = .ok a) {ds : Delegations} (hd : a.delegations = some ds) :
    ∃ d, Has s b!"delegations" (.obj d) ∧ Delegations.unmarshal env (.obj d) = .ok ds := by
  obtain ⟨a1, h1, h⟩ := Res.bind_eq_ok.1 h
  obtain ⟨a2, h2, h⟩ := Res.bind_eq_ok.1 h
  obtain ⟨u, _, h⟩ := Res.bind_eq_ok.1 h
  cases h
  have h3 : a2.delegations = a1.delegations := by
    unfold TargetsType.setTargetPaths at h2
    split at h2
    · cases h2; rfl
    · obtain ⟨v, _, rfl⟩ := bind_put h2; rfl
  have hd : a1.delegations = some ds := h3.symm.trans hd
  have h1 : decFields TargetsType.names (TargetsType.setField env) s {} = .ok a1 := h1
  refine decFields_inv' (P := fun a : TargetsType => ∀ ds, a.delegations = some ds → ∃ d, Has s b!"delegations" (.obj d) ∧ Delegations.unmarshal env (.obj d) = .ok ds) ?_ (by intro ds h; cases h) h1 ds hd
  intro k f j a a' hm hk hP hs
  have hf := findField_mem hk
  simp only [TargetsType.names, List.mem_cons, List.not_mem_nil, or_false] at hf
  rcases hf with rfl | rfl | rfl | rfl | rfl | rfl
  case inr.inr.inr.inr.inr =>
    obtain ⟨v, hv, rfl⟩ := bind_put hs
    rintro ds rfl
    unfold decPtr at hv
    split at hv
    · cases hv
    · obtain ⟨w, hw, h4⟩ := Res.map_eq_ok.1 hv
      cases h4
      cases j with
      | obj d => exact ⟨d, ⟨k, hm, (findField_spelled (by decide) (by decide)).1 hk⟩, hw⟩
      | null => contradiction
      | _ => cases hw
  all_goals (obtain ⟨v, _, rfl⟩ := bind_put hs; exact hP)

/-- C144: the key IDs of every role of an accepted root document are those of the last mention in the object of the role; elements that are `null` there show nothing or what a mention has at their place. -/
theorem C144_root {data : Bytes} {m : Metadata RootType} (h : fromBytes env data = .ok m) {name : Str} {role : Role} (hr : m.signed.roles.entries.get? name = some (some role)) :
    RootRoleIn env data name role := by
  obtain ⟨doc, j, h1, h2, h3⟩ := fromBytes_spelled_signed h
  cases j with
  | obj s =>
    obtain ⟨rs, r, h4, h5, h6⟩ := RootType.roles_from h3 hr
    exact ⟨doc, s, rs, r, h1, h2, h4, h5, h6⟩
  | null => rw [← Res.ok.inj h3] at hr; cases hr
  | _ => cases h3

/-- C144: the same for the key IDs, paths and hash prefixes of delegations. -/
theorem C144_delegations {data : Bytes} {m : Metadata TargetsType} (h : fromBytes env data = .ok m) {ds : Delegations} (hd : m.signed.delegations = some ds) :
    (∀ role ∈ ds.roles.elems, DelegationIn env data role) ∧ ∀ role, ds.succinctRoles = some role → SuccinctIn env data role := by
  obtain ⟨doc, j, h1, h2, h3⟩ := fromBytes_spelled_signed h
  cases j with
  | obj s =>
    obtain ⟨d, h4, h5⟩ := TargetsType.delegations_from h3 hd
    obtain ⟨h6, h7⟩ := Delegations.roles_from h5
    refine ⟨fun role hr => ?_, fun role hr => ?_⟩
    · obtain ⟨rs, j, h8, h9, h10⟩ := h6 role hr
      exact ⟨doc, s, d, rs, j, h1, h2, h4, h8, h9, h10⟩
    · obtain ⟨r, h8, h9⟩ := h7 role hr
      exact ⟨doc, s, d, r, h1, h2, h4, h8, h9⟩
  | null => rw [← Res.ok.inj h3] at hd; cases hd
  | _ => cases h3

/-- A list whose last mention has texts only is that list of texts. -/
theorem Spec.ListShown.texts {m : List (Str × Json)} {name : Str} {v : Slice Str} (h : ListShown m name v) {l : List Json} (hl : LastSpelled m name (.arr l)) {w : List Str} (hw : EachAs IsText l w) : v = some w := by
  have huniq : ∀ j, LastSpelled m name j → j = .arr l := by
    rintro j ⟨p, k, q, hm, hs, hq⟩
    obtain ⟨p', k', q', hm', hs', hq'⟩ := hl
    rw [hm] at hm'
    rcases List.append_eq_append_iff.1 hm' with ⟨a, h1, h2⟩ | ⟨a, h1, h2⟩
    · cases a with
      | nil => cases h2; rfl
      | cons e a => cases h2; exact absurd hs' (hq (k', .arr l) (by simp))
    · cases a with
      | nil => cases h2; rfl
      | cons e a => cases h2; exact absurd hs (hq' (k, j) (by simp))
  rcases h with ⟨hu, _⟩ | ⟨hn, _⟩ | ⟨l', w', hl', rfl, hlen, hel⟩
  · obtain ⟨p, k, q, rfl, hs, _⟩ := hl
    exact absurd hs (hu (k, .arr l) (by simp))
  · cases huniq _ hn
  · cases huniq _ hl'
    congr 1
    have : ∀ {l : List Json} {w : List Str}, EachAs IsText l w → w.length = l.length ∧ ∀ (i : Nat) x, l[i]? = some x → ∃ s, w[i]? = some s ∧ IsText x s := by
      intro l w h
      induction h with
      | nil => simp
      | cons h1 _ ih =>
        refine ⟨by simp [ih.1], ?_⟩
        intro i x hx
        cases i with
        | zero => cases hx; exact ⟨_, rfl, h1⟩
        | succ i => exact ih.2 i x hx
    obtain ⟨h1, h2⟩ := this hw
    refine List.ext_getElem? fun i => ?_
    by_cases hi : i < l.length
    · obtain ⟨s, hs, hx⟩ := h2 i _ (List.getElem?_eq_getElem hi)
      have hi' : i < w'.length := by omega
      rw [hs, List.getElem?_eq_getElem hi']
      rcases hel i _ _ (List.getElem?_eq_getElem hi) (List.getElem?_eq_getElem hi') with h3 | ⟨h3, _⟩
      · rcases hx with hx | ⟨_, hx⟩ <;> rcases h3 with h3 | ⟨_, h3⟩ <;> rw [hx] at h3 <;> cases h3 <;> rfl
      · rcases hx with hx | ⟨_, hx⟩ <;> rw [hx] at h3 <;> cases h3
    · rw [List.getElem?_eq_none (by omega), List.getElem?_eq_none (by omega)]

end Tuf
