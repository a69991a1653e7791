import Verif.Model.Metadata

/-! Facts about decoding. -/

namespace Tuf

theorem Res.map_eq_ok {α β : Type} {r : Res α} {f : α → β} {b : β} : r.map f = .ok b ↔ ∃ a, r = .ok a ∧ f a = b := by
  cases r <;> simp [Res.map]

/-- A predicate that every field assignment preserves holds after decoding the fields. -/
theorem decFields_inv {α : Type} {names : List Str} {setField : Str → Json → α → Res α} {P : α → Prop}
    (hset : ∀ f j a a', P a → setField f j a = .ok a' → P a') {m : List (Str × Json)} {a a' : α}
    (ha : P a) (h : decFields names setField m a = .ok a') : P a' := by
  induction m generalizing a with
  | nil => simp [decFields] at h; exact h ▸ ha
  | cons e r ih =>
    obtain ⟨k, j⟩ := e
    simp only [decFields] at h
    split at h
    · exact ih ha h
    · next f hf =>
      obtain ⟨a1, h1, h⟩ := Res.bind_eq_ok.1 h
      exact ih (hset f j a a1 ha h1) h

/-- A predicate that the zero value has and that every step of an `UnmarshalJSON` method preserves holds for its result. -/
theorem unmarshal_inv {α : Type} {env : Env} {names : List Str} {setField : Str → Json → α → Res α} {zero : α}
    {post : α → Res α} {setUnrec : Fields → α → α} {P Q : α → Prop} (hzero : P zero)
    (hset : ∀ f j a a', P a → setField f j a = .ok a' → P a') (hpost : ∀ a a', P a → post a = .ok a' → Q a')
    (hunrec : ∀ u a, Q a → Q (setUnrec u a)) {j : Json} {a : α}
    (h : unmarshalStruct env names setField zero post setUnrec j = .ok a) : Q a := by
  unfold unmarshalStruct at h
  obtain ⟨a1, h1, h⟩ := Res.bind_eq_ok.1 h
  obtain ⟨a2, h2, h⟩ := Res.bind_eq_ok.1 h
  obtain ⟨d, _, h⟩ := Res.bind_eq_ok.1 h
  cases h
  apply hunrec
  apply hpost a1 a2 _ h2
  unfold decStruct at h1
  split at h1
  · cases h1; exact hzero
  · exact decFields_inv hset hzero h1
  · cases h1

/-! ## Lists that are mentioned again -/

theorem overCells_nil (l : List Json) : overCells l [] = l := by
  cases l with
  | nil => rfl
  | cons j l => rfl

theorem refillOne_nil (j : Json) : (refillOne [] j).1 = j := by
  unfold refillOne
  split
  · rw [overCells_nil]
  · rfl

/-- At most one member is decoded into the field. -/
def OneMember (names : List Str) (f : Str) (m : List (Str × Json)) : Prop :=
  m.Pairwise (fun a b => findField names a.1 = some f → findField names b.1 ≠ some f)

theorem refill_none {names : List Str} {f : Str} {m : List (Str × Json)} (h : ∀ e ∈ m, findField names e.1 ≠ some f) (cells : List Str) : refill names f cells m = m := by
  induction m with
  | nil => rfl
  | cons e m ih =>
    rw [refill, if_neg (h e (by simp)), ih (fun e he => h e (List.mem_cons_of_mem _ he))]

theorem refill_once {names : List Str} {f : Str} {m : List (Str × Json)} (h : OneMember names f m) : refill names f [] m = m := by
  induction m with
  | nil => rfl
  | cons e m ih =>
    obtain ⟨k, j⟩ := e
    obtain ⟨h1, h2⟩ := List.pairwise_cons.1 h
    rw [refill]
    split
    · next hk =>
      have hn : ∀ cells, refill names f cells m = m := fun cells => refill_none (fun e he => h1 e he hk) cells
      rw [hn, refillOne_nil]
    · rw [ih h2]

theorem refillAll_once {names lists : List Str} {m : List (Str × Json)} (h : ∀ f ∈ lists, OneMember names f m) : refillAll names lists (.obj m) = .obj m := by
  have : ∀ l : List Str, (∀ f ∈ l, f ∈ lists) → l.foldl (fun m f => refill names f [] m) m = m := by
    intro l
    induction l with
    | nil => exact fun _ => rfl
    | cons f l ih => intro hl; rw [List.foldl_cons, refill_once (h f (hl f (by simp)))]; exact ih (fun f hf => hl f (List.mem_cons_of_mem _ hf))
  show Json.obj _ = _
  rw [this lists (fun _ h => h)]

/-- Where no list is mentioned twice, lists are fields like others. -/
theorem unmarshalLists_once {α : Type} {env : Env} {names lists : List Str} {setField : Str → Json → α → Res α} {zero : α} {setUnrec : Fields → α → α} {m : List (Str × Json)}
    (h : ∀ f ∈ lists, OneMember names f m) : unmarshalLists env names lists setField zero setUnrec (.obj m) = unmarshalStruct env names setField zero .ok setUnrec (.obj m) := by
  unfold unmarshalLists unmarshalStruct
  rw [refillAll_once h]
  rfl

/-- Every name is mentioned once and is an exact one or none of the field names. -/
theorem OneMember.of_nodup {names : List Str} {f : Str} {m : List (Str × Json)} (hd : (m.map Prod.fst).Nodup) (hmem : ∀ e ∈ m, e.1 ∈ names ∨ findField names e.1 = none) : OneMember names f m := by
  have hf : ∀ e ∈ m, findField names e.1 = some f → e.1 = f := by
    intro e he hk
    rcases hmem e he with hn | hn
    · unfold findField at hk; rw [if_pos hn] at hk; cases hk; rfl
    · rw [hn] at hk; cases hk
  refine List.Pairwise.imp_of_mem ?_ (List.pairwise_map.1 hd)
  intro a b ha hb hab h1 h2
  exact hab ((hf a ha h1).trans (hf b hb h2).symm)

/-- The objects decoded differ in the elements of lists only. -/
theorem refillAll_cases (names lists : List Str) (j : Json) : (∃ m m', j = .obj m ∧ refillAll names lists j = .obj m') ∨ refillAll names lists j = j := by
  cases j with
  | obj m => exact .inl ⟨m, _, rfl, rfl⟩
  | _ => exact .inr rfl

theorem decInt_range {j : Json} {old v : Int} (ho : inInt64 old = true) (h : decInt j old = .ok v) : inInt64 v = true := by
  unfold decInt at h
  split at h
  · cases h; exact ho
  · split at h
    · next hr => cases h; exact hr
    · cases h
  · split at h
    · cases h; decide
    · cases h
  · cases h

/-- What `FromBytes` decodes satisfies every predicate that holds for all decoded signed parts. -/
theorem fromBytes_signed {T : Type} [RoleType T] {env : Env} {P : T → Prop} (hzero : P RoleType.zero)
    (hun : ∀ j a, RoleType.unmarshal env j = .ok a → P a) {data : Bytes} {m : Metadata T} (h : fromBytes env data = .ok m) :
    P m.signed := by
  unfold fromBytes at h
  obtain ⟨_, _, h⟩ := Res.bind_eq_ok.1 h
  obtain ⟨j, _, h⟩ := Res.bind_eq_ok.1 h
  obtain ⟨m', hm, h⟩ := Res.bind_eq_ok.1 h
  obtain ⟨_, _, h⟩ := Res.bind_eq_ok.1 h
  cases h
  refine unmarshal_inv (P := fun m : Metadata T => P m.signed) (Q := fun m : Metadata T => P m.signed) hzero ?_ ?_ ?_ hm
  · intro f j a a' ha h
    unfold Metadata.setField at h
    split at h
    · obtain ⟨v, hv, h⟩ := Res.bind_eq_ok.1 h
      cases h
      exact hun j v hv
    · obtain ⟨v, hv, h⟩ := Res.bind_eq_ok.1 h
      cases h
      exact ha
  · intro a a' ha h; cases h; exact ha
  · intro u a ha; exact ha

/-- Decoded root versions are in the range of `int64`. -/
theorem root_version_range {env : Env} {data : Bytes} {m : Metadata RootType} (h : fromBytes env data = .ok m) :
    inInt64 m.signed.version = true := by
  refine fromBytes_signed (P := fun r : RootType => inInt64 r.version = true) (by decide) ?_ h
  intro j a ha
  refine unmarshal_inv (P := fun r : RootType => inInt64 r.version = true) (Q := fun r : RootType => inInt64 r.version = true)
    (by decide) ?_ ?_ ?_ (show RootType.unmarshal env j = .ok a from ha)
  · intro f j a a' ha h
    unfold RootType.setField at h
    repeat' split at h
    all_goals
      obtain ⟨v, hv, h⟩ := Res.bind_eq_ok.1 h
      cases h
    all_goals first | exact ha | exact decInt_range ha hv
  · intro a a' ha h; cases h; exact ha
  · intro u a ha; exact ha

theorem wrap64_of_range {n : Int} (h : inInt64 n = true) : wrap64 n = n := by
  simp [inInt64] at h
  unfold wrap64
  rw [Int.bmod_eq_of_le] <;> omega

theorem wrap64_max : wrap64 (2 ^ 63) = -(2 ^ 63) := by decide

end Tuf
