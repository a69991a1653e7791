import Verif.Props.Parsing
import Verif.Proofs.Spelling
import Verif.Spec.Fields

/-!
# Versions and specification versions of documents (C114)
-/

namespace Tuf
open Spec Sample

/-- As `decFields_last`, with a condition in place of a value. -/
theorem decFields_last_says {α β : Type} {names : List Str} {setField : Str → Json → α → Res α} {get : α → β} {f0 : Str} {j0 : Json} {P : β → Prop}
    (hsi : ∀ n ∈ names, SimpleName n) (hmem : f0 ∈ names) (hother : ∀ f j a a', f ≠ f0 → setField f j a = .ok a' → get a' = get a)
    (hset : ∀ a a', setField f0 j0 a = .ok a' → P (get a')) {m : List (Str × Json)}
    (hl : LastSpelled m f0 j0) {a a' : α} (h : decFields names setField m a = .ok a') : P (get a') := by
  obtain ⟨p, k0, q, rfl, hk0, hq⟩ := hl
  rw [decFields_append] at h
  obtain ⟨a1, _, h⟩ := Res.bind_eq_ok.1 h
  have hf : findField names k0 = some f0 := (findField_spelled hsi hmem).2 hk0
  simp only [decFields, hf] at h
  obtain ⟨a2, h2, h⟩ := Res.bind_eq_ok.1 h
  refine decFields_inv' (P := fun a => P (get a)) ?_ (hset a1 a2 h2) h
  intro k f j a a' hm hkf hP hs
  rw [hother f j a a' ?_ hs]
  · exact hP
  · intro hff
    rw [hff] at hkf
    exact hq (k, j) hm ((findField_spelled hsi hmem).1 hkf)

theorem unmarshal_says {α β : Type} {env : Env} {names : List Str} {setField : Str → Json → α → Res α} {zero : α} {post : α → Res α}
    {setUnrec : Fields → α → α} {get : α → β} {f0 : Str} {j0 : Json} {P : β → Prop} (hsi : ∀ n ∈ names, SimpleName n) (hmem : f0 ∈ names)
    (hother : ∀ f j a a', f ≠ f0 → setField f j a = .ok a' → get a' = get a)
    (hset : ∀ a a', setField f0 j0 a = .ok a' → P (get a'))
    (hpost : ∀ a a', post a = .ok a' → get a' = get a) (hunrec : ∀ u a, get (setUnrec u a) = get a)
    {s : List (Str × Json)} (hl : LastSpelled s f0 j0) {a : α}
    (h : unmarshalStruct env names setField zero post setUnrec (.obj s) = .ok a) : P (get a) := by
  unfold unmarshalStruct at h
  obtain ⟨a1, h1, h⟩ := Res.bind_eq_ok.1 h
  obtain ⟨a2, h2, h⟩ := Res.bind_eq_ok.1 h
  obtain ⟨d, _, h⟩ := Res.bind_eq_ok.1 h
  cases h
  rw [hunrec, hpost a1 a2 h2]
  exact decFields_last_says hsi hmem hother hset hl h1

theorem decInt_says {j : Json} {old v : Int} (h : decInt j old = .ok v) : SaysInt j v := by
  unfold decInt at h
  split at h
  · exact .inl rfl
  · next n =>
    split at h
    · next hn => cases h; exact .inr ⟨.inl rfl, hn⟩
    · cases h
  · split at h
    · next hl => cases h; subst hl; exact .inr ⟨.inr ⟨rfl, rfl⟩, by decide⟩
    · cases h
  · cases h

theorem decStr_says {j : Json} {old v : Str} (h : decStr j old = .ok v) : SaysText j v := by
  unfold decStr at h
  split at h
  · exact .inl rfl
  · cases h; exact .inr (.inl rfl)
  · cases h; exact .inr (.inr ⟨_, rfl⟩)
  · cases h

theorem decTime_says {env : Env} {j : Json} {old v : Time} (h : decTime env j old = .ok v) : SaysTime env j v := by
  unfold decTime at h
  split at h
  · exact .inl rfl
  · next s => exact .inr ⟨s, rfl, Res.ofOption_eq_ok.1 h⟩
  · cases h

theorem unmarshal_unmentioned {α β : Type} {env : Env} {names : List Str} {setField : Str → Json → α → Res α} {zero : α} {post : α → Res α}
    {setUnrec : Fields → α → α} {get : α → β} {f0 : Str} (hsi : SimpleName f0)
    (hother : ∀ f j a a', f ≠ f0 → setField f j a = .ok a' → get a' = get a)
    (hpost : ∀ a a', post a = .ok a' → get a' = get a) (hunrec : ∀ u a, get (setUnrec u a) = get a)
    {s : List (Str × Json)} (hs : Unmentioned s f0) {a : α}
    (h : unmarshalStruct env names setField zero post setUnrec (.obj s) = .ok a) : get a = get zero := by
  unfold unmarshalStruct at h
  obtain ⟨a1, h1, h⟩ := Res.bind_eq_ok.1 h
  obtain ⟨a2, h2, h⟩ := Res.bind_eq_ok.1 h
  obtain ⟨d, _, h⟩ := Res.bind_eq_ok.1 h
  cases h
  rw [hunrec, hpost a1 a2 h2]
  refine decFields_inv' (P := fun a => get a = get zero) ?_ rfl h1
  intro k f j a a' hm hkf hP hset
  rw [hother f j a a' (fun hff => hs (k, j) hm ((foldKey_spelled hsi).1 (by rw [← hff]; exact (findField_fold hkf).symm))) hset]
  exact hP

theorem RootType.version_says {env : Env} {s : List (Str × Json)} {j : Json}
    (hl : LastSpelled s b!"version" j) {a : RootType} (h : RootType.unmarshal env (.obj s) = .ok a) : SaysInt j a.version := by
  unfold RootType.unmarshal at h
  refine unmarshal_says (get := RootType.version) (P := SaysInt j) (by decide) (by decide) ?_ ?_ ?_ ?_ hl h
  · intro f j a a' hf h
    unfold RootType.setField at h
    repeat' split at h
    all_goals (obtain ⟨v, hv, h⟩ := Res.bind_eq_ok.1 h; cases h; first | rfl | contradiction)
  · intro a a' h
    obtain ⟨v, hv, h⟩ := Res.bind_eq_ok.1 (show (_ >>= _) = Res.ok a' from h)
    cases h
    exact decInt_says hv
  · intro a a' h; cases h; rfl
  · intro _ _; rfl
theorem RootType.version_unmentioned {env : Env} {s : List (Str × Json)} (hs : Unmentioned s b!"version") {a : RootType}
    (h : RootType.unmarshal env (.obj s) = .ok a) : a.version = ({} : RootType).version := by
  unfold RootType.unmarshal at h
  refine unmarshal_unmentioned (get := RootType.version) (by decide) ?_ ?_ ?_ hs h
  · intro f j a a' hf h
    unfold RootType.setField at h
    repeat' split at h
    all_goals (obtain ⟨v, hv, h⟩ := Res.bind_eq_ok.1 h; cases h; first | rfl | contradiction)
  · intro a a' h; cases h; rfl
  · intro _ _; rfl

theorem RootType.specVersion_says {env : Env} {s : List (Str × Json)} {j : Json}
    (hl : LastSpelled s b!"spec_version" j) {a : RootType} (h : RootType.unmarshal env (.obj s) = .ok a) : SaysText j a.specVersion := by
  unfold RootType.unmarshal at h
  refine unmarshal_says (get := RootType.specVersion) (P := SaysText j) (by decide) (by decide) ?_ ?_ ?_ ?_ hl h
  · intro f j a a' hf h
    unfold RootType.setField at h
    repeat' split at h
    all_goals (obtain ⟨v, hv, h⟩ := Res.bind_eq_ok.1 h; cases h; first | rfl | contradiction)
  · intro a a' h
    obtain ⟨v, hv, h⟩ := Res.bind_eq_ok.1 (show (_ >>= _) = Res.ok a' from h)
    cases h
    exact decStr_says hv
  · intro a a' h; cases h; rfl
  · intro _ _; rfl
theorem RootType.specVersion_unmentioned {env : Env} {s : List (Str × Json)} (hs : Unmentioned s b!"spec_version") {a : RootType}
    (h : RootType.unmarshal env (.obj s) = .ok a) : a.specVersion = ({} : RootType).specVersion := by
  unfold RootType.unmarshal at h
  refine unmarshal_unmentioned (get := RootType.specVersion) (by decide) ?_ ?_ ?_ hs h
  · intro f j a a' hf h
    unfold RootType.setField at h
    repeat' split at h
    all_goals (obtain ⟨v, hv, h⟩ := Res.bind_eq_ok.1 h; cases h; first | rfl | contradiction)
  · intro a a' h; cases h; rfl
  · intro _ _; rfl

theorem RootType.expires_says {env : Env} {s : List (Str × Json)} {j : Json}
    (hl : LastSpelled s b!"expires" j) {a : RootType} (h : RootType.unmarshal env (.obj s) = .ok a) : SaysTime env j a.expires := by
  unfold RootType.unmarshal at h
  refine unmarshal_says (get := RootType.expires) (P := SaysTime env j) (by decide) (by decide) ?_ ?_ ?_ ?_ hl h
  · intro f j a a' hf h
    unfold RootType.setField at h
    repeat' split at h
    all_goals (obtain ⟨v, hv, h⟩ := Res.bind_eq_ok.1 h; cases h; first | rfl | contradiction)
  · intro a a' h
    obtain ⟨v, hv, h⟩ := Res.bind_eq_ok.1 (show (_ >>= _) = Res.ok a' from h)
    cases h
    exact decTime_says hv
  · intro a a' h; cases h; rfl
  · intro _ _; rfl
theorem RootType.expires_unmentioned {env : Env} {s : List (Str × Json)} (hs : Unmentioned s b!"expires") {a : RootType}
    (h : RootType.unmarshal env (.obj s) = .ok a) : a.expires = ({} : RootType).expires := by
  unfold RootType.unmarshal at h
  refine unmarshal_unmentioned (get := RootType.expires) (by decide) ?_ ?_ ?_ hs h
  · intro f j a a' hf h
    unfold RootType.setField at h
    repeat' split at h
    all_goals (obtain ⟨v, hv, h⟩ := Res.bind_eq_ok.1 h; cases h; first | rfl | contradiction)
  · intro a a' h; cases h; rfl
  · intro _ _; rfl

theorem RootType.stated {env : Env} {s : List (Str × Json)} {a : RootType} (h : RootType.unmarshal env (.obj s) = .ok a) :
    StatedIn env s a.version a.specVersion a.expires :=
  ⟨fun _ hl => RootType.version_says hl h, fun _ hl => RootType.specVersion_says hl h, fun _ hl => RootType.expires_says hl h,
    fun hs => RootType.version_unmentioned hs h, fun hs => RootType.specVersion_unmentioned hs h, fun hs => RootType.expires_unmentioned hs h⟩

theorem TimestampType.version_says {env : Env} {s : List (Str × Json)} {j : Json}
    (hl : LastSpelled s b!"version" j) {a : TimestampType} (h : TimestampType.unmarshal env (.obj s) = .ok a) : SaysInt j a.version := by
  unfold TimestampType.unmarshal at h
  refine unmarshal_says (get := TimestampType.version) (P := SaysInt j) (by decide) (by decide) ?_ ?_ ?_ ?_ hl h
  · intro f j a a' hf h
    unfold TimestampType.setField at h
    repeat' split at h
    all_goals (obtain ⟨v, hv, h⟩ := Res.bind_eq_ok.1 h; cases h; first | rfl | contradiction)
  · intro a a' h
    obtain ⟨v, hv, h⟩ := Res.bind_eq_ok.1 (show (_ >>= _) = Res.ok a' from h)
    cases h
    exact decInt_says hv
  · intro a a' h; cases h; rfl
  · intro _ _; rfl
theorem TimestampType.version_unmentioned {env : Env} {s : List (Str × Json)} (hs : Unmentioned s b!"version") {a : TimestampType}
    (h : TimestampType.unmarshal env (.obj s) = .ok a) : a.version = ({} : TimestampType).version := by
  unfold TimestampType.unmarshal at h
  refine unmarshal_unmentioned (get := TimestampType.version) (by decide) ?_ ?_ ?_ hs h
  · intro f j a a' hf h
    unfold TimestampType.setField at h
    repeat' split at h
    all_goals (obtain ⟨v, hv, h⟩ := Res.bind_eq_ok.1 h; cases h; first | rfl | contradiction)
  · intro a a' h; cases h; rfl
  · intro _ _; rfl

theorem TimestampType.specVersion_says {env : Env} {s : List (Str × Json)} {j : Json}
    (hl : LastSpelled s b!"spec_version" j) {a : TimestampType} (h : TimestampType.unmarshal env (.obj s) = .ok a) : SaysText j a.specVersion := by
  unfold TimestampType.unmarshal at h
  refine unmarshal_says (get := TimestampType.specVersion) (P := SaysText j) (by decide) (by decide) ?_ ?_ ?_ ?_ hl h
  · intro f j a a' hf h
    unfold TimestampType.setField at h
    repeat' split at h
    all_goals (obtain ⟨v, hv, h⟩ := Res.bind_eq_ok.1 h; cases h; first | rfl | contradiction)
  · intro a a' h
    obtain ⟨v, hv, h⟩ := Res.bind_eq_ok.1 (show (_ >>= _) = Res.ok a' from h)
    cases h
    exact decStr_says hv
  · intro a a' h; cases h; rfl
  · intro _ _; rfl
theorem TimestampType.specVersion_unmentioned {env : Env} {s : List (Str × Json)} (hs : Unmentioned s b!"spec_version") {a : TimestampType}
    (h : TimestampType.unmarshal env (.obj s) = .ok a) : a.specVersion = ({} : TimestampType).specVersion := by
  unfold TimestampType.unmarshal at h
  refine unmarshal_unmentioned (get := TimestampType.specVersion) (by decide) ?_ ?_ ?_ hs h
  · intro f j a a' hf h
    unfold TimestampType.setField at h
    repeat' split at h
    all_goals (obtain ⟨v, hv, h⟩ := Res.bind_eq_ok.1 h; cases h; first | rfl | contradiction)
  · intro a a' h; cases h; rfl
  · intro _ _; rfl

theorem TimestampType.expires_says {env : Env} {s : List (Str × Json)} {j : Json}
    (hl : LastSpelled s b!"expires" j) {a : TimestampType} (h : TimestampType.unmarshal env (.obj s) = .ok a) : SaysTime env j a.expires := by
  unfold TimestampType.unmarshal at h
  refine unmarshal_says (get := TimestampType.expires) (P := SaysTime env j) (by decide) (by decide) ?_ ?_ ?_ ?_ hl h
  · intro f j a a' hf h
    unfold TimestampType.setField at h
    repeat' split at h
    all_goals (obtain ⟨v, hv, h⟩ := Res.bind_eq_ok.1 h; cases h; first | rfl | contradiction)
  · intro a a' h
    obtain ⟨v, hv, h⟩ := Res.bind_eq_ok.1 (show (_ >>= _) = Res.ok a' from h)
    cases h
    exact decTime_says hv
  · intro a a' h; cases h; rfl
  · intro _ _; rfl
theorem TimestampType.expires_unmentioned {env : Env} {s : List (Str × Json)} (hs : Unmentioned s b!"expires") {a : TimestampType}
    (h : TimestampType.unmarshal env (.obj s) = .ok a) : a.expires = ({} : TimestampType).expires := by
  unfold TimestampType.unmarshal at h
  refine unmarshal_unmentioned (get := TimestampType.expires) (by decide) ?_ ?_ ?_ hs h
  · intro f j a a' hf h
    unfold TimestampType.setField at h
    repeat' split at h
    all_goals (obtain ⟨v, hv, h⟩ := Res.bind_eq_ok.1 h; cases h; first | rfl | contradiction)
  · intro a a' h; cases h; rfl
  · intro _ _; rfl

theorem TimestampType.stated {env : Env} {s : List (Str × Json)} {a : TimestampType} (h : TimestampType.unmarshal env (.obj s) = .ok a) :
    StatedIn env s a.version a.specVersion a.expires :=
  ⟨fun _ hl => TimestampType.version_says hl h, fun _ hl => TimestampType.specVersion_says hl h, fun _ hl => TimestampType.expires_says hl h,
    fun hs => TimestampType.version_unmentioned hs h, fun hs => TimestampType.specVersion_unmentioned hs h, fun hs => TimestampType.expires_unmentioned hs h⟩

theorem SnapshotType.version_says {env : Env} {s : List (Str × Json)} {j : Json}
    (hl : LastSpelled s b!"version" j) {a : SnapshotType} (h : SnapshotType.unmarshal env (.obj s) = .ok a) : SaysInt j a.version := by
  unfold SnapshotType.unmarshal at h
  refine unmarshal_says (get := SnapshotType.version) (P := SaysInt j) (by decide) (by decide) ?_ ?_ ?_ ?_ hl h
  · intro f j a a' hf h
    unfold SnapshotType.setField at h
    repeat' split at h
    all_goals (obtain ⟨v, hv, h⟩ := Res.bind_eq_ok.1 h; cases h; first | rfl | contradiction)
  · intro a a' h
    obtain ⟨v, hv, h⟩ := Res.bind_eq_ok.1 (show (_ >>= _) = Res.ok a' from h)
    cases h
    exact decInt_says hv
  · intro a a' h; cases h; rfl
  · intro _ _; rfl
theorem SnapshotType.version_unmentioned {env : Env} {s : List (Str × Json)} (hs : Unmentioned s b!"version") {a : SnapshotType}
    (h : SnapshotType.unmarshal env (.obj s) = .ok a) : a.version = ({} : SnapshotType).version := by
  unfold SnapshotType.unmarshal at h
  refine unmarshal_unmentioned (get := SnapshotType.version) (by decide) ?_ ?_ ?_ hs h
  · intro f j a a' hf h
    unfold SnapshotType.setField at h
    repeat' split at h
    all_goals (obtain ⟨v, hv, h⟩ := Res.bind_eq_ok.1 h; cases h; first | rfl | contradiction)
  · intro a a' h; cases h; rfl
  · intro _ _; rfl

theorem SnapshotType.specVersion_says {env : Env} {s : List (Str × Json)} {j : Json}
    (hl : LastSpelled s b!"spec_version" j) {a : SnapshotType} (h : SnapshotType.unmarshal env (.obj s) = .ok a) : SaysText j a.specVersion := by
  unfold SnapshotType.unmarshal at h
  refine unmarshal_says (get := SnapshotType.specVersion) (P := SaysText j) (by decide) (by decide) ?_ ?_ ?_ ?_ hl h
  · intro f j a a' hf h
    unfold SnapshotType.setField at h
    repeat' split at h
    all_goals (obtain ⟨v, hv, h⟩ := Res.bind_eq_ok.1 h; cases h; first | rfl | contradiction)
  · intro a a' h
    obtain ⟨v, hv, h⟩ := Res.bind_eq_ok.1 (show (_ >>= _) = Res.ok a' from h)
    cases h
    exact decStr_says hv
  · intro a a' h; cases h; rfl
  · intro _ _; rfl
theorem SnapshotType.specVersion_unmentioned {env : Env} {s : List (Str × Json)} (hs : Unmentioned s b!"spec_version") {a : SnapshotType}
    (h : SnapshotType.unmarshal env (.obj s) = .ok a) : a.specVersion = ({} : SnapshotType).specVersion := by
  unfold SnapshotType.unmarshal at h
  refine unmarshal_unmentioned (get := SnapshotType.specVersion) (by decide) ?_ ?_ ?_ hs h
  · intro f j a a' hf h
    unfold SnapshotType.setField at h
    repeat' split at h
    all_goals (obtain ⟨v, hv, h⟩ := Res.bind_eq_ok.1 h; cases h; first | rfl | contradiction)
  · intro a a' h; cases h; rfl
  · intro _ _; rfl

theorem SnapshotType.expires_says {env : Env} {s : List (Str × Json)} {j : Json}
    (hl : LastSpelled s b!"expires" j) {a : SnapshotType} (h : SnapshotType.unmarshal env (.obj s) = .ok a) : SaysTime env j a.expires := by
  unfold SnapshotType.unmarshal at h
  refine unmarshal_says (get := SnapshotType.expires) (P := SaysTime env j) (by decide) (by decide) ?_ ?_ ?_ ?_ hl h
  · intro f j a a' hf h
    unfold SnapshotType.setField at h
    repeat' split at h
    all_goals (obtain ⟨v, hv, h⟩ := Res.bind_eq_ok.1 h; cases h; first | rfl | contradiction)
  · intro a a' h
    obtain ⟨v, hv, h⟩ := Res.bind_eq_ok.1 (show (_ >>= _) = Res.ok a' from h)
    cases h
    exact decTime_says hv
  · intro a a' h; cases h; rfl
  · intro _ _; rfl
theorem SnapshotType.expires_unmentioned {env : Env} {s : List (Str × Json)} (hs : Unmentioned s b!"expires") {a : SnapshotType}
    (h : SnapshotType.unmarshal env (.obj s) = .ok a) : a.expires = ({} : SnapshotType).expires := by
  unfold SnapshotType.unmarshal at h
  refine unmarshal_unmentioned (get := SnapshotType.expires) (by decide) ?_ ?_ ?_ hs h
  · intro f j a a' hf h
    unfold SnapshotType.setField at h
    repeat' split at h
    all_goals (obtain ⟨v, hv, h⟩ := Res.bind_eq_ok.1 h; cases h; first | rfl | contradiction)
  · intro a a' h; cases h; rfl
  · intro _ _; rfl

theorem SnapshotType.stated {env : Env} {s : List (Str × Json)} {a : SnapshotType} (h : SnapshotType.unmarshal env (.obj s) = .ok a) :
    StatedIn env s a.version a.specVersion a.expires :=
  ⟨fun _ hl => SnapshotType.version_says hl h, fun _ hl => SnapshotType.specVersion_says hl h, fun _ hl => SnapshotType.expires_says hl h,
    fun hs => SnapshotType.version_unmentioned hs h, fun hs => SnapshotType.specVersion_unmentioned hs h, fun hs => SnapshotType.expires_unmentioned hs h⟩

theorem TargetsType.version_says {env : Env} {s : List (Str × Json)} {j : Json}
    (hl : LastSpelled s b!"version" j) {a : TargetsType} (h : TargetsType.unmarshal env (.obj s) = .ok a) : SaysInt j a.version := by
  unfold TargetsType.unmarshal at h
  refine unmarshal_says (get := TargetsType.version) (P := SaysInt j) (by decide) (by decide) ?_ ?_ ?_ ?_ hl h
  · intro f j a a' hf h
    unfold TargetsType.setField at h
    repeat' split at h
    all_goals (obtain ⟨v, hv, h⟩ := Res.bind_eq_ok.1 h; cases h; first | rfl | contradiction)
  · intro a a' h
    obtain ⟨v, hv, h⟩ := Res.bind_eq_ok.1 (show (_ >>= _) = Res.ok a' from h)
    cases h
    exact decInt_says hv
  · intro a a' h
    unfold TargetsType.setTargetPaths at h
    split at h
    · cases h; rfl
    · obtain ⟨v, hv, h⟩ := Res.bind_eq_ok.1 h; cases h; rfl
  · intro _ _; rfl
theorem TargetsType.version_unmentioned {env : Env} {s : List (Str × Json)} (hs : Unmentioned s b!"version") {a : TargetsType}
    (h : TargetsType.unmarshal env (.obj s) = .ok a) : a.version = ({} : TargetsType).version := by
  unfold TargetsType.unmarshal at h
  refine unmarshal_unmentioned (get := TargetsType.version) (by decide) ?_ ?_ ?_ hs h
  · intro f j a a' hf h
    unfold TargetsType.setField at h
    repeat' split at h
    all_goals (obtain ⟨v, hv, h⟩ := Res.bind_eq_ok.1 h; cases h; first | rfl | contradiction)
  · intro a a' h
    unfold TargetsType.setTargetPaths at h
    split at h
    · cases h; rfl
    · obtain ⟨v, hv, h⟩ := Res.bind_eq_ok.1 h; cases h; rfl
  · intro _ _; rfl

theorem TargetsType.specVersion_says {env : Env} {s : List (Str × Json)} {j : Json}
    (hl : LastSpelled s b!"spec_version" j) {a : TargetsType} (h : TargetsType.unmarshal env (.obj s) = .ok a) : SaysText j a.specVersion := by
  unfold TargetsType.unmarshal at h
  refine unmarshal_says (get := TargetsType.specVersion) (P := SaysText j) (by decide) (by decide) ?_ ?_ ?_ ?_ hl h
  · intro f j a a' hf h
    unfold TargetsType.setField at h
    repeat' split at h
    all_goals (obtain ⟨v, hv, h⟩ := Res.bind_eq_ok.1 h; cases h; first | rfl | contradiction)
  · intro a a' h
    obtain ⟨v, hv, h⟩ := Res.bind_eq_ok.1 (show (_ >>= _) = Res.ok a' from h)
    cases h
    exact decStr_says hv
  · intro a a' h
    unfold TargetsType.setTargetPaths at h
    split at h
    · cases h; rfl
    · obtain ⟨v, hv, h⟩ := Res.bind_eq_ok.1 h; cases h; rfl
  · intro _ _; rfl
theorem TargetsType.specVersion_unmentioned {env : Env} {s : List (Str × Json)} (hs : Unmentioned s b!"spec_version") {a : TargetsType}
    (h : TargetsType.unmarshal env (.obj s) = .ok a) : a.specVersion = ({} : TargetsType).specVersion := by
  unfold TargetsType.unmarshal at h
  refine unmarshal_unmentioned (get := TargetsType.specVersion) (by decide) ?_ ?_ ?_ hs h
  · intro f j a a' hf h
    unfold TargetsType.setField at h
    repeat' split at h
    all_goals (obtain ⟨v, hv, h⟩ := Res.bind_eq_ok.1 h; cases h; first | rfl | contradiction)
  · intro a a' h
    unfold TargetsType.setTargetPaths at h
    split at h
    · cases h; rfl
    · obtain ⟨v, hv, h⟩ := Res.bind_eq_ok.1 h; cases h; rfl
  · intro _ _; rfl

theorem TargetsType.expires_says {env : Env} {s : List (Str × Json)} {j : Json}
    (hl : LastSpelled s b!"expires" j) {a : TargetsType} (h : TargetsType.unmarshal env (.obj s) = .ok a) : SaysTime env j a.expires := by
  unfold TargetsType.unmarshal at h
  refine unmarshal_says (get := TargetsType.expires) (P := SaysTime env j) (by decide) (by decide) ?_ ?_ ?_ ?_ hl h
  · intro f j a a' hf h
    unfold TargetsType.setField at h
    repeat' split at h
    all_goals (obtain ⟨v, hv, h⟩ := Res.bind_eq_ok.1 h; cases h; first | rfl | contradiction)
  · intro a a' h
    obtain ⟨v, hv, h⟩ := Res.bind_eq_ok.1 (show (_ >>= _) = Res.ok a' from h)
    cases h
    exact decTime_says hv
  · intro a a' h
    unfold TargetsType.setTargetPaths at h
    split at h
    · cases h; rfl
    · obtain ⟨v, hv, h⟩ := Res.bind_eq_ok.1 h; cases h; rfl
  · intro _ _; rfl
theorem TargetsType.expires_unmentioned {env : Env} {s : List (Str × Json)} (hs : Unmentioned s b!"expires") {a : TargetsType}
    (h : TargetsType.unmarshal env (.obj s) = .ok a) : a.expires = ({} : TargetsType).expires := by
  unfold TargetsType.unmarshal at h
  refine unmarshal_unmentioned (get := TargetsType.expires) (by decide) ?_ ?_ ?_ hs h
  · intro f j a a' hf h
    unfold TargetsType.setField at h
    repeat' split at h
    all_goals (obtain ⟨v, hv, h⟩ := Res.bind_eq_ok.1 h; cases h; first | rfl | contradiction)
  · intro a a' h
    unfold TargetsType.setTargetPaths at h
    split at h
    · cases h; rfl
    · obtain ⟨v, hv, h⟩ := Res.bind_eq_ok.1 h; cases h; rfl
  · intro _ _; rfl

theorem TargetsType.stated {env : Env} {s : List (Str × Json)} {a : TargetsType} (h : TargetsType.unmarshal env (.obj s) = .ok a) :
    StatedIn env s a.version a.specVersion a.expires :=
  ⟨fun _ hl => TargetsType.version_says hl h, fun _ hl => TargetsType.specVersion_says hl h, fun _ hl => TargetsType.expires_says hl h,
    fun hs => TargetsType.version_unmentioned hs h, fun hs => TargetsType.specVersion_unmentioned hs h, fun hs => TargetsType.expires_unmentioned hs h⟩

theorem exists_lastSpelled {m : List (Str × Json)} {name : Str} (h : ∃ e ∈ m, Spelled name e.1) : ∃ j, LastSpelled m name j := by
  induction m with
  | nil => obtain ⟨e, he, _⟩ := h; cases he
  | cons e r ih =>
    by_cases hr : ∃ e ∈ r, Spelled name e.1
    · obtain ⟨j, p, k, q, rfl, h1, h2⟩ := ih hr
      exact ⟨j, e :: p, k, q, rfl, h1, h2⟩
    · obtain ⟨e', he', hs⟩ := h
      rcases List.mem_cons.1 he' with rfl | he'
      · exact ⟨e'.2, [], e'.1, r, rfl, hs, fun e he hse => hr ⟨e, he, hse⟩⟩
      · exact absurd ⟨e', he', hs⟩ hr

/-- The last member that is a spelling of `signed` is decoded. -/
theorem fromBytes_spelled_signed {T : Type} [RoleType T] {env : Env} {data : Bytes} {m : Metadata T} (h : fromBytes env data = .ok m) :
    ∃ doc j, env.parse data = some (.obj doc) ∧ LastSpelled doc b!"signed" j ∧ RoleType.unmarshal env j = .ok m.signed := by
  obtain ⟨doc, s, h1, ⟨p0, q0, hd, _⟩, _⟩ := fromBytes_last_signed h
  have hsome : ∃ e ∈ doc, Spelled b!"signed" e.1 := ⟨(b!"signed", .obj s), by rw [hd]; simp, Spelled.refl' _⟩
  obtain ⟨j, hl⟩ := exists_lastSpelled hsome
  refine ⟨doc, j, h1, hl, ?_⟩
  unfold fromBytes at h
  obtain ⟨_, _, h⟩ := Res.bind_eq_ok.1 h
  obtain ⟨j', hj, h⟩ := Res.bind_eq_ok.1 h
  obtain ⟨m', hm, h⟩ := Res.bind_eq_ok.1 h
  obtain ⟨_, _, h⟩ := Res.bind_eq_ok.1 h
  cases h
  rw [Res.ofOption_eq_ok, h1] at hj
  cases hj
  have hm' : unmarshalStruct env Metadata.names (Metadata.setField env) { signed := RoleType.zero } .ok
    (fun u (a : Metadata T) => { a with unrec := u }) (.obj doc) = .ok m := hm
  refine unmarshal_says (names := Metadata.names) (setField := Metadata.setField env) (post := .ok) (setUnrec := fun u (a : Metadata T) => { a with unrec := u }) (get := fun m : Metadata T => m.signed) (P := fun v => RoleType.unmarshal env j = .ok v) (by decide) (by decide) (by
    intro f j a a' hf hs
    unfold Metadata.setField at hs
    rw [if_neg hf] at hs
    obtain ⟨w, _, hs⟩ := Res.bind_eq_ok.1 hs
    cases hs
    rfl) (by
    intro a a' hs
    unfold Metadata.setField at hs
    rw [if_pos rfl] at hs
    obtain ⟨w, hw, hs⟩ := Res.bind_eq_ok.1 hs
    cases hs
    exact hw) (by intro a a' h; cases h; rfl) (fun _ _ => rfl) hl hm'

/-- C114: what a loaded root document has as version, specification version and expiry date is what its text states. -/
theorem C114_root_partial {env : Env} {data : Bytes} {m : Metadata RootType} (h : fromBytes env data = .ok m) :
    Stated env data m.signed.version m.signed.specVersion m.signed.expires := by
  obtain ⟨doc, j, h1, h2, h3⟩ := fromBytes_spelled_signed h
  refine ⟨doc, j, h1, h2, ?_⟩
  cases j with
  | obj s => exact .inl ⟨s, rfl, RootType.stated h3⟩
  | null => exact .inr ⟨rfl, by rw [← Res.ok.inj h3]; exact ⟨rfl, rfl, rfl⟩⟩
  | _ => cases h3

/-- C114: what a loaded timestamp document has as version, specification version and expiry date is what its text states. -/
theorem C114_timestamp_partial {env : Env} {data : Bytes} {m : Metadata TimestampType} (h : fromBytes env data = .ok m) :
    Stated env data m.signed.version m.signed.specVersion m.signed.expires := by
  obtain ⟨doc, j, h1, h2, h3⟩ := fromBytes_spelled_signed h
  refine ⟨doc, j, h1, h2, ?_⟩
  cases j with
  | obj s => exact .inl ⟨s, rfl, TimestampType.stated h3⟩
  | null => exact .inr ⟨rfl, by rw [← Res.ok.inj h3]; exact ⟨rfl, rfl, rfl⟩⟩
  | _ => cases h3

/-- C114: what a loaded snapshot document has as version, specification version and expiry date is what its text states. -/
theorem C114_snapshot_partial {env : Env} {data : Bytes} {m : Metadata SnapshotType} (h : fromBytes env data = .ok m) :
    Stated env data m.signed.version m.signed.specVersion m.signed.expires := by
  obtain ⟨doc, j, h1, h2, h3⟩ := fromBytes_spelled_signed h
  refine ⟨doc, j, h1, h2, ?_⟩
  cases j with
  | obj s => exact .inl ⟨s, rfl, SnapshotType.stated h3⟩
  | null => exact .inr ⟨rfl, by rw [← Res.ok.inj h3]; exact ⟨rfl, rfl, rfl⟩⟩
  | _ => cases h3

/-- C114: what a loaded targets document has as version, specification version and expiry date is what its text states. -/
theorem C114_targets_partial {env : Env} {data : Bytes} {m : Metadata TargetsType} (h : fromBytes env data = .ok m) :
    Stated env data m.signed.version m.signed.specVersion m.signed.expires := by
  obtain ⟨doc, j, h1, h2, h3⟩ := fromBytes_spelled_signed h
  refine ⟨doc, j, h1, h2, ?_⟩
  cases j with
  | obj s => exact .inl ⟨s, rfl, TargetsType.stated h3⟩
  | null => exact .inr ⟨rfl, by rw [← Res.ok.inj h3]; exact ⟨rfl, rfl, rfl⟩⟩
  | _ => cases h3

end Tuf
