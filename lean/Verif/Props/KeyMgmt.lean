import Verif.Spec.KeyMgmt
import Verif.Props.Sample

/-! # Adding and revoking keys: properties C56 to C59 -/

namespace Tuf
open Spec

theorem Entries.set_self {α : Type} {m : Entries α} {k : Str} {v : α} (h : m.get? k = some v) : m.set k v = m := by
  show (if (m.get? k).isSome then m.replace k v else insertByKey (k, v) m) = m
  rw [if_pos (by rw [h]; rfl)]
  induction m with
  | nil => cases h
  | cons e m ih =>
    obtain ⟨k0, v0⟩ := e
    rw [Entries.get?_cons] at h
    simp only [Entries.replace]
    split
    · next hk => rw [if_pos hk] at h; cases h; rw [hk]
    · next hk => rw [if_neg hk] at h; rw [ih h]

theorem Entries.set_set {α : Type} (m : Entries α) (k : Str) (v : α) : (m.set k v).set k v = m.set k v := Entries.set_self (Entries.get?_set_self m k v)

theorem roles_some {s : RootType} {role : Str} {x : Option Role} (h : s.roles.get? role = some x) :
    ∃ es, s.roles = some es ∧ es.get? role = some x := by
  cases hr : s.roles with
  | none => rw [hr] at h; cases h
  | some es => rw [hr] at h; exact ⟨es, rfl, h⟩

/-- `AddKey`, when nothing panics. -/
theorem addKey_eq {env : Env} {s : RootType} {key key' : Key} {role id : Str} {r : Role} {es : Entries (Option Role)} {ks : Entries (Option Key)}
    (hr : s.roles = some es) (hg : es.get? role = some (some r)) (hk : s.keys = some ks) (hid : key.ID env = .ok (id, key')) :
    s.addKey env key role = (.ok (),
      { s with roles := some (es.set role (some (if id ∈ r.keyIDs.elems then r else { r with keyIDs := some (r.keyIDs.elems ++ [id]) }))),
               keys := some (ks.set id (some key')) }) := by
  have h1 : s.roles.get? role = some (some r) := by rw [hr]; exact hg
  unfold RootType.addKey
  rw [h1]
  simp only [hid, hk, hr, GoMap.set, Option.map_some]

/-- **C56.** `AddKey` on a role that does not exist returns an error and changes nothing. -/
theorem C56_no_role (env : Env) (s : RootType) (key : Key) (role : Str) (h : s.roles.get? role = none) :
    ∃ e, s.addKey env key role = (.err e, s) := by
  unfold RootType.addKey
  rw [h]
  exact ⟨_, rfl⟩

/-- **C56.** Otherwise it succeeds: the key ID is listed (appended only if it was not), the key is stored, everything else is as
before, and doing it again changes nothing. -/
theorem C56_add_key_partial (env : Env) (s : RootType) (key key' : Key) (role id : Str) (r : Role) (ks : Entries (Option Key))
    (hr : s.roles.get? role = some (some r)) (hk : s.keys = some ks) (hid : key.ID env = .ok (id, key')) :
    ∃ s', s.addKey env key role = (.ok (), s') ∧
      (∃ r', s'.roles.get? role = some (some r') ∧ r'.threshold = r.threshold ∧ r'.unrec = r.unrec ∧
        r'.keyIDs.elems = r.keyIDs.elems ++ (if id ∈ r.keyIDs.elems then [] else [id])) ∧
      (∀ other, other ≠ role → s'.roles.get? other = s.roles.get? other) ∧
      s'.keys.get? id = some (some key') ∧ (∀ other, other ≠ id → s'.keys.get? other = s.keys.get? other) ∧
      SameRest s s' ∧ s'.addKey env key role = (.ok (), s') := by
  obtain ⟨es, he, hg⟩ := roles_some hr
  have h1 := addKey_eq he hg hk hid
  refine ⟨_, h1, ?_, ?_, ?_, ?_, ⟨rfl, rfl, rfl, rfl, rfl, rfl⟩, ?_⟩
  · refine ⟨_, Entries.get?_set_self _ _ _, ?_, ?_, ?_⟩
    · split <;> rfl
    · split <;> rfl
    · split
      · simp
      · rfl
  · intro other ho
    rw [he]
    exact Entries.get?_set_ne _ _ (Ne.symm ho)
  · exact Entries.get?_set_self _ _ _
  · intro other ho
    rw [hk]
    exact Entries.get?_set_ne _ _ (Ne.symm ho)
  · rw [addKey_eq rfl (Entries.get?_set_self _ _ _) rfl hid]
    have hmem : id ∈ (if id ∈ r.keyIDs.elems then r else { r with keyIDs := some (r.keyIDs.elems ++ [id]) }).keyIDs.elems := by
      split
      · assumption
      · simp [Slice.elems]
    rw [if_pos hmem, Entries.set_set, Entries.set_set]

/-- **C56.** Adding never makes a role list a key ID twice. -/
theorem C56_no_duplicate (env : Env) (s s' : RootType) (key : Key) (role : Str) (r r' : Role)
    (hr : s.roles.get? role = some (some r)) (hn : r.keyIDs.elems.Nodup) (h : (s.addKey env key role).2 = s')
    (hr' : s'.roles.get? role = some (some r')) : r'.keyIDs.elems.Nodup := by
  obtain ⟨es, he, hg⟩ := roles_some hr
  have key : ∀ id, ∀ r', (es.set role (some (if id ∈ r.keyIDs.elems then r else { r with keyIDs := some (r.keyIDs.elems ++ [id]) }))).get? role = some (some r') →
      r'.keyIDs.elems.Nodup := by
    intro id r' hx
    rw [Entries.get?_set_self] at hx
    have := Option.some.inj (Option.some.inj hx)
    subst this
    split
    · exact hn
    · next hni =>
      show (r.keyIDs.elems ++ [id]).Nodup
      exact List.nodup_append.2 ⟨hn, by simp, by intro a ha b hb; simp at hb; subst hb; rintro rfl; exact hni ha⟩
  have same : ∀ r', s.roles.get? role = some (some r') → r'.keyIDs.elems.Nodup := by
    intro r' hx
    rw [hr] at hx
    have := Option.some.inj (Option.some.inj hx)
    subst this
    exact hn
  subst h
  unfold RootType.addKey at hr'
  rw [hr] at hr'
  simp only at hr'
  split at hr'
  · split at hr'
    · simp only [he, Option.map_some] at hr'
      exact key _ r' hr'
    · simp only [he, Option.map_some] at hr'
      exact key _ r' hr'
  · exact same r' hr'

/-- `AddKey` panics on a root without key store. -/
theorem C56_nil_keys_crash : ∃ (env : Env) (s : RootType) (key : Key) (role : Str),
    s.roles.get? role ≠ none ∧ (s.addKey env key role).1 = .panic := by
  refine ⟨Sample.env0, { roles := some [(ROOT, some newRole)] }, { id := b!"k" }, ROOT, by decide, by decide +kernel⟩

/-- The hypotheses of `C56_add_key_partial` are met by fresh root metadata. -/
example : ∃ s', (newRoot Time.zero).signed.addKey Sample.env0 { id := b!"k" } SNAPSHOT = (.ok (), s') ∧ ListsKey s' SNAPSHOT b!"k" :=
  ⟨_, rfl, _, rfl, by decide⟩

/-! ## C57 -/

theorem anyRoleLists_ok {id : Str} {es : Entries (Option Role)} (h : ∀ e ∈ es, e.2.isSome = true) :
    ∃ b, anyRoleLists id es = .ok b ∧ (b = true ↔ ∃ e ∈ es, ∃ r, e.2 = some r ∧ id ∈ r.keyIDs.elems) := by
  induction es with
  | nil => exact ⟨false, rfl, by simp⟩
  | cons e es ih =>
    obtain ⟨k, v⟩ := e
    obtain ⟨h1, h2⟩ := List.forall_mem_cons.1 h
    obtain ⟨b, hb, hb2⟩ := ih h2
    cases v with
    | none => cases h1
    | some r =>
      simp only [anyRoleLists]
      split
      · next hm => exact ⟨true, rfl, by simp [hm]⟩
      · next hm =>
        refine ⟨b, hb, ?_⟩
        rw [hb2]
        simp [hm]

theorem lists_iff {s : RootType} (hg : GoodRoles s.roles) (id : Str) :
    (∃ role, ListsKey s role id) ↔ ∃ e ∈ s.roles.entries, ∃ r, e.2 = some r ∧ id ∈ r.keyIDs.elems := by
  constructor
  · rintro ⟨role, r, hr, hm⟩
    exact ⟨(role, some r), Entries.mem_of_get? hr, r, rfl, hm⟩
  · rintro ⟨⟨role, v⟩, he, r, rfl, hm⟩
    exact ⟨role, r, Entries.get?_of_mem hg.unique he, hm⟩

theorem goodRoles_set {es : Entries (Option Role)} (h : GoodRoles (some es)) (role : Str) (r : Role) :
    GoodRoles (some (es.set role (some r))) := by
  refine ⟨Entries.nodup_set h.unique _ _, ?_⟩
  intro e he
  rcases Entries.mem_set he with rfl | he
  · rfl
  · exact h.present e he

/-- **C57.** `RevokeKey` on a role that does not exist, or that does not list the key ID, returns an error and changes nothing. -/
theorem C57_not_listed (s : RootType) (id role : Str) (hg : GoodRoles s.roles) (h : ¬ ListsKey s role id) :
    ∃ e, s.revokeKey id role = (.err e, s) := by
  unfold RootType.revokeKey
  cases hr : s.roles.get? role with
  | none => exact ⟨_, rfl⟩
  | some x =>
    cases x with
    | none => have := hg.present _ (Entries.mem_of_get? hr); cases this
    | some r => exact ⟨_, if_neg fun hm => h ⟨r, hr, hm⟩⟩

/-- **C57.** Otherwise it succeeds: the role lists exactly its other key IDs, in the same order; other roles are untouched; the key
is dropped exactly if no role lists it any more, and no other key is touched. -/
theorem C57_revoke_key (s : RootType) (id role : Str) (r : Role) (hg : GoodRoles s.roles)
    (hr : s.roles.get? role = some (some r)) (hm : id ∈ r.keyIDs.elems) :
    ∃ s', s.revokeKey id role = (.ok (), s') ∧
      (∃ r', s'.roles.get? role = some (some r') ∧ r'.threshold = r.threshold ∧ r'.unrec = r.unrec ∧ id ∉ r'.keyIDs.elems ∧
        r'.keyIDs.elems = r.keyIDs.elems.filter (fun k => k ≠ id)) ∧
      (∀ other, other ≠ role → s'.roles.get? other = s.roles.get? other) ∧
      ((∃ any, ListsKey s' any id) → ∀ k, s'.keys.get? k = s.keys.get? k) ∧
      ((¬ ∃ any, ListsKey s' any id) → s'.keys.get? id = none ∧ ∀ k, k ≠ id → s'.keys.get? k = s.keys.get? k) ∧
      SameRest s s' ∧ GoodRoles s'.roles := by
  obtain ⟨es, he, hge⟩ := roles_some hr
  obtain ⟨r', hr'⟩ : ∃ r' : Role, r' = { r with keyIDs := some (r.keyIDs.elems.filter (fun k => k ≠ id)) } := ⟨_, rfl⟩
  have hg1 : GoodRoles (some (es.set role (some r'))) := goodRoles_set (he ▸ hg) role r'
  obtain ⟨b, hb, hb2⟩ := anyRoleLists_ok (id := id) hg1.present
  have hrole : ∃ r0, (es.set role (some r')).get? role = some (some r0) ∧ r0.threshold = r.threshold ∧ r0.unrec = r.unrec ∧ id ∉ r0.keyIDs.elems ∧
      r0.keyIDs.elems = r.keyIDs.elems.filter (fun k => k ≠ id) := by
    refine ⟨r', Entries.get?_set_self _ _ _, ?_⟩
    subst hr'
    refine ⟨rfl, rfl, ?_, rfl⟩
    simp [Slice.elems]
  have hother : ∀ other, other ≠ role → (es.set role (some r')).get? other = s.roles.get? other := by
    intro other ho
    rw [he]
    exact Entries.get?_set_ne _ _ (Ne.symm ho)
  have hrun : s.revokeKey id role = match anyRoleLists id (es.set role (some r')) with
      | .ok true => (.ok (), { s with roles := some (es.set role (some r')) })
      | .ok false => (.ok (), { s with roles := some (es.set role (some r')), keys := s.keys.del id })
      | _ => (.panic, { s with roles := some (es.set role (some r')) }) := by
    unfold RootType.revokeKey
    rw [hr]
    simp only [if_pos hm]
    subst hr'
    simp only [he, Option.map_some, GoMap.entries_some]
    cases anyRoleLists id _ with
    | ok b => cases b <;> rfl
    | err e => rfl
    | panic => rfl
  rw [show anyRoleLists id (es.set role (some r')) = .ok b from hb] at hrun
  cases b with
  | true =>
    refine ⟨_, hrun, hrole, hother, fun _ _ => rfl, ?_, ⟨rfl, rfl, rfl, rfl, rfl, rfl⟩, hg1⟩
    intro hno
    exact absurd ((lists_iff hg1 id).2 (hb2.1 rfl)) hno
  | false =>
    refine ⟨_, hrun, hrole, hother, ?_, ?_, ⟨rfl, rfl, rfl, rfl, rfl, rfl⟩, hg1⟩
    · intro hl
      exact absurd (hb2.2 ((lists_iff hg1 id).1 hl)) (by simp)
    · intro _
      have hdel : ∀ k, (s.keys.del id).get? k = if id = k then none else s.keys.get? k := by
        intro k
        cases hk : s.keys with
        | none => simp [GoMap.del, GoMap.get?]
        | some ks => exact Entries.get?_del ks id k
      refine ⟨?_, fun k hk => ?_⟩
      · show (s.keys.del id).get? id = none
        rw [hdel, if_pos rfl]
      · show (s.keys.del id).get? k = _
        rw [hdel, if_neg (Ne.symm hk)]

/-- A root in which two roles share a key: the first revocation keeps the key, the second drops it. -/
def Sample.shared : RootType := { roles := some [(ROOT, some { keyIDs := some [b!"k", b!"l"], threshold := 1 }), (SNAPSHOT, some { keyIDs := some [b!"k"], threshold := 1 })],
                                  keys := some [(b!"k", some { id := b!"k" }), (b!"l", some { id := b!"l" })] }
example : ((Sample.shared.revokeKey b!"k" ROOT).2.keys.get? b!"k").isSome = true ∧
    (((Sample.shared.revokeKey b!"k" ROOT).2.revokeKey b!"k" SNAPSHOT).2.keys.get? b!"k").isSome = false := by decide +kernel
example : GoodRoles Sample.shared.roles ∧ ListsKey Sample.shared ROOT b!"k" := ⟨⟨by decide, by decide⟩, _, rfl, by decide⟩

/-! ## C58 -/

/-- Invariant of edit histories. -/
structure EditInv (s : RootType) : Prop where
  good : GoodRoles s.roles
  keys : s.keys.isSome = true
  cons : Consistent s

theorem edit_inv (env : Env) (s : RootType) (e : Edit) (h : EditInv s) : EditInv (e.run env s) := by
  obtain ⟨hg, hk, hc⟩ := h
  obtain ⟨ks, hks⟩ := Option.isSome_iff_exists.1 hk
  cases e with
  | add key role =>
    simp only [Edit.run]
    cases hr : s.roles.get? role with
    | none => obtain ⟨e, he⟩ := C56_no_role env s key role hr; rw [he]; exact ⟨hg, hk, hc⟩
    | some x =>
      cases x with
      | none => have := hg.present _ (Entries.mem_of_get? hr); cases this
      | some r =>
        have hpanic : ∀ x, key.ID env = x → (∀ a, x ≠ .ok a) → (s.addKey env key role).2 = s := by
          intro x hx hne
          unfold RootType.addKey
          rw [hr]
          simp only [hx]
          cases x with
          | ok a => exact absurd rfl (hne a)
          | err e => rfl
          | panic => rfl
        cases hid : key.ID env with
        | err e => rw [hpanic _ hid (by intro a ha; cases ha)]; exact ⟨hg, hk, hc⟩
        | panic => rw [hpanic _ hid (by intro a ha; cases ha)]; exact ⟨hg, hk, hc⟩
        | ok p =>
          obtain ⟨id, key'⟩ := p
          obtain ⟨s', hrun, ⟨r', hr', _, _, hids⟩, hoth, hkey, hkoth, _, _⟩ := C56_add_key_partial env s key key' role id r ks hr hks hid
          obtain ⟨es, hes, hge⟩ := roles_some hr
          have hs' : s' = (s.addKey env key role).2 := by rw [hrun]
          have hroles : s'.roles = some (es.set role (some (if id ∈ r.keyIDs.elems then r else { r with keyIDs := some (r.keyIDs.elems ++ [id]) }))) := by
            rw [hs', addKey_eq hes hge hks hid]
          have hkeys : s'.keys = some (ks.set id (some key')) := by rw [hs', addKey_eq hes hge hks hid]
          rw [← hs']
          refine ⟨?_, by rw [hkeys]; rfl, ?_, ?_⟩
          · rw [hroles]; exact goodRoles_set (hes ▸ hg) _ _
          · rintro role0 id0 ⟨r0, hr0, hm0⟩
            by_cases h0 : id0 = id
            · exact ⟨key', h0 ▸ hkey⟩
            · rw [hkoth id0 h0]
              by_cases h1 : role0 = role
              · subst h1
                rw [hr'] at hr0
                have := Option.some.inj (Option.some.inj hr0)
                subst this
                rw [hids] at hm0
                rcases List.mem_append.1 hm0 with hm0 | hm0
                · exact hc.listed role0 id0 ⟨r, hr, hm0⟩
                · split at hm0
                  · cases hm0
                  · simp at hm0; exact absurd hm0 h0
              · rw [hoth role0 h1] at hr0
                exact hc.listed role0 id0 ⟨r0, hr0, hm0⟩
          · intro id0 hid0
            by_cases h0 : id0 = id
            · refine ⟨role, r', hr', ?_⟩
              rw [hids, h0]
              by_cases hm : id ∈ r.keyIDs.elems <;> simp [hm]
            · rw [hkoth id0 h0] at hid0
              obtain ⟨role0, r0, hr0, hm0⟩ := hc.stored id0 hid0
              by_cases h1 : role0 = role
              · subst h1
                rw [hr] at hr0
                have := Option.some.inj (Option.some.inj hr0)
                subst this
                exact ⟨role0, r', hr', by rw [hids]; exact List.mem_append.2 (.inl hm0)⟩
              · exact ⟨role0, r0, by rw [hoth role0 h1]; exact hr0, hm0⟩
  | revoke id role =>
    simp only [Edit.run]
    by_cases hl : ListsKey s role id
    · obtain ⟨r, hr, hm⟩ := hl
      obtain ⟨s', hrun, ⟨r', hr', _, _, hni, hids⟩, hoth, hkeep, hdrop, _, hg'⟩ := C57_revoke_key s id role r hg hr hm
      have hs' : (s.revokeKey id role).2 = s' := by rw [hrun]
      rw [hs']
      have back : ∀ role0 id0, ListsKey s' role0 id0 → ListsKey s role0 id0 := by
        rintro role0 id0 ⟨r0, hr0, hm0⟩
        by_cases h1 : role0 = role
        · subst h1
          rw [hr'] at hr0
          have := Option.some.inj (Option.some.inj hr0)
          subst this
          rw [hids] at hm0
          exact ⟨r, hr, (List.mem_filter.1 hm0).1⟩
        · rw [hoth role0 h1] at hr0
          exact ⟨r0, hr0, hm0⟩
      have fwd : ∀ role0 id0, id0 ≠ id → ListsKey s role0 id0 → ListsKey s' role0 id0 := by
        rintro role0 id0 hne ⟨r0, hr0, hm0⟩
        by_cases h1 : role0 = role
        · subst h1
          rw [hr] at hr0
          have := Option.some.inj (Option.some.inj hr0)
          subst this
          exact ⟨r', hr', by rw [hids]; exact List.mem_filter.2 ⟨hm0, by simpa using hne⟩⟩
        · exact ⟨r0, by rw [hoth role0 h1]; exact hr0, hm0⟩
      have hsome : s'.keys.isSome = true := by
        rw [← hs']
        unfold RootType.revokeKey
        rw [hr]
        simp only [if_pos hm]
        split
        · exact hk
        · rw [hks]; rfl
        · exact hk
      by_cases hex : ∃ any, ListsKey s' any id
      · refine ⟨hg', hsome, ?_, ?_⟩
        · intro role0 id0 h0
          rw [hkeep hex]
          exact hc.listed role0 id0 (back role0 id0 h0)
        · intro id0 h0
          rw [hkeep hex] at h0
          by_cases h1 : id0 = id
          · subst h1; exact hex
          · obtain ⟨role0, hl0⟩ := hc.stored id0 h0
            exact ⟨role0, fwd role0 id0 h1 hl0⟩
      · obtain ⟨hd1, hd2⟩ := hdrop hex
        refine ⟨hg', hsome, ?_, ?_⟩
        · intro role0 id0 h0
          have hne : id0 ≠ id := by rintro rfl; exact hex ⟨role0, h0⟩
          rw [hd2 id0 hne]
          exact hc.listed role0 id0 (back role0 id0 h0)
        · intro id0 h0
          have hne : id0 ≠ id := by rintro rfl; rw [hd1] at h0; cases h0
          rw [hd2 id0 hne] at h0
          obtain ⟨role0, hl0⟩ := hc.stored id0 h0
          exact ⟨role0, fwd role0 id0 hne hl0⟩
    · obtain ⟨e, he⟩ := C57_not_listed s id role hg hl
      rw [he]
      exact ⟨hg, hk, hc⟩

/-- **C58.** Every history of `AddKey` and `RevokeKey`, whatever the single calls return, keeps roles and keys consistent. -/
theorem C58_consistent (env : Env) (s : RootType) (edits : List Edit) (hg : GoodRoles s.roles) (hk : s.keys ≠ none)
    (hc : Consistent s) : Consistent (edits.foldl (Edit.run env) s) := by
  have : EditInv s := ⟨hg, Option.isSome_iff_ne_none.2 hk, hc⟩
  clear hg hk hc
  induction edits generalizing s with
  | nil => exact this.cons
  | cons e es ih => exact ih _ (edit_inv env s e this)

/-- Fresh root metadata meets the hypotheses of C58. -/
theorem C58_fresh_root (t : Time) : GoodRoles (newRoot t).signed.roles ∧ (newRoot t).signed.keys ≠ none ∧ Consistent (newRoot t).signed := by
  refine ⟨⟨show [ROOT, SNAPSHOT, TARGETS, TIMESTAMP].Nodup by decide +kernel, by simp [newRoot]⟩, by simp [newRoot], ?_, ?_⟩
  · rintro role id ⟨r, hr, hm⟩
    have := Entries.mem_of_get? hr
    simp only [newRoot, GoMap.entries_some, List.mem_cons, Prod.mk.injEq, List.not_mem_nil, or_false, Option.some.injEq] at this
    have hr : r = newRole := by rcases this with h | h | h | h <;> exact h.2
    subst hr
    cases hm
  · intro id h
    cases h

/-- A history with effect: add a key to two roles, revoke it from one, then from the other. -/
example : let s := [Edit.add { id := b!"k" } ROOT, .add { id := b!"k" } SNAPSHOT, .revoke b!"k" ROOT].foldl (Edit.run Sample.env0) (newRoot Time.zero).signed
    (s.keys.get? b!"k").isSome = true ∧ ((Edit.run Sample.env0 s (.revoke b!"k" SNAPSHOT)).keys.get? b!"k").isSome = false := by decide +kernel

/-! ## C59 -/

theorem addToRole_spec (role id : Str) (rs : List DelegatedRole) (hex : ∃ r ∈ rs, r.name = role) :
    (∃ r, FirstOf (addToRole role id rs).1 role r ∧ id ∈ r.keyIDs.elems) ∧
    ((addToRole role id rs).1 = rs ∨ ∃ pre r post, rs = pre ++ r :: post ∧ r.name = role ∧ id ∉ r.keyIDs.elems ∧
      (addToRole role id rs).1 = pre ++ { r with keyIDs := some (r.keyIDs.elems ++ [id]) } :: post) := by
  have snd : ∀ rs : List DelegatedRole, (addToRole role id rs).1 = rs ∨ ∃ pre r post, rs = pre ++ r :: post ∧ r.name = role ∧ id ∉ r.keyIDs.elems ∧
      (addToRole role id rs).1 = pre ++ { r with keyIDs := some (r.keyIDs.elems ++ [id]) } :: post := by
    intro rs
    induction rs with
    | nil => exact .inl rfl
    | cons d ds ih =>
      have step : (addToRole role id (d :: ds)).1 = d :: (addToRole role id ds).1 →
          ((addToRole role id (d :: ds)).1 = d :: ds ∨ ∃ pre r post, d :: ds = pre ++ r :: post ∧ r.name = role ∧ id ∉ r.keyIDs.elems ∧
            (addToRole role id (d :: ds)).1 = pre ++ { r with keyIDs := some (r.keyIDs.elems ++ [id]) } :: post) := by
        intro he
        rw [he]
        rcases ih with ih | ⟨pre, r, post, h1, h2, h3, h4⟩
        · exact .inl (by rw [ih])
        · exact .inr ⟨d :: pre, r, post, by rw [h1]; rfl, h2, h3, by rw [h4]; rfl⟩
      by_cases hn : d.name = role
      · by_cases hm : id ∈ d.keyIDs.elems
        · apply step; simp only [addToRole, if_pos hn, if_pos hm]
        · right
          refine ⟨[], d, ds, rfl, hn, hm, ?_⟩
          simp only [addToRole, if_pos hn, if_neg hm]
          rfl
      · apply step; simp only [addToRole, if_neg hn]
  refine ⟨?_, snd rs⟩
  induction rs with
  | nil => obtain ⟨r, h, _⟩ := hex; cases h
  | cons d ds ih =>
    by_cases hn : d.name = role
    · by_cases hm : id ∈ d.keyIDs.elems
      · refine ⟨d, ⟨[], (addToRole role id ds).1, ?_, by simp, hn⟩, hm⟩
        simp only [addToRole, if_pos hn, if_pos hm]
        rfl
      · refine ⟨{ d with keyIDs := some (d.keyIDs.elems ++ [id]) }, ⟨[], ds, ?_, by simp, hn⟩, by simp [Slice.elems]⟩
        simp only [addToRole, if_pos hn, if_neg hm]
        rfl
    · obtain ⟨r0, hr0, hr1⟩ := hex
      rcases List.mem_cons.1 hr0 with rfl | hr0
      · exact absurd hr1 hn
      · obtain ⟨r, ⟨pre, post, h1, h2, h3⟩, hm⟩ := ih ⟨r0, hr0, hr1⟩
        refine ⟨r, ⟨d :: pre, post, ?_, ?_, h3⟩, hm⟩
        · simp only [addToRole, if_neg hn, h1]
          rfl
        · intro x hx
          rcases List.mem_cons.1 hx with rfl | hx
          · exact hn
          · exact h2 x hx

/-- **C59, AddKey, without delegations or with an unknown role name.** An error, nothing changes. -/
theorem C59_add_unknown (env : Env) (s : TargetsType) (key : Key) (role : Str)
    (h : s.delegations = none ∨ ∃ d rs, s.delegations = some d ∧ d.roles = some rs ∧ ∀ r ∈ rs, r.name ≠ role) :
    ∃ e, s.addKey env key role = (.err e, s) := by
  unfold TargetsType.addKey
  rcases h with h | ⟨d, rs, h, hr, hne⟩
  · rw [h]; exact ⟨_, rfl⟩
  · rw [h]
    simp only [hr]
    rw [if_neg (by simpa using hne)]
    exact ⟨_, rfl⟩

/-- **C59, AddKey, roles by name.** The first role of that name lists the key ID afterwards; at most one role changes, by one
appended key ID; the key is stored; other keys and all other fields are as before. -/
theorem C59_add_to_role (env : Env) (s : TargetsType) (d : Delegations) (rs : List DelegatedRole) (ks : Entries (Option Key))
    (key key' : Key) (role id : Str) (hd : s.delegations = some d) (hr : d.roles = some rs) (hk : d.keys = some ks)
    (hid : key.ID env = .ok (id, key')) (hex : ∃ r ∈ rs, r.name = role) :
    ∃ rs' ks', s.addKey env key role = (.ok (), { s with delegations := some { d with roles := some rs', keys := some ks' } }) ∧
      (∃ r, FirstOf rs' role r ∧ id ∈ r.keyIDs.elems) ∧
      (rs' = rs ∨ ∃ pre r post, rs = pre ++ r :: post ∧ r.name = role ∧ id ∉ r.keyIDs.elems ∧
        rs' = pre ++ { r with keyIDs := some (r.keyIDs.elems ++ [id]) } :: post) ∧
      ks'.get? id = some (some key') ∧ ∀ other, other ≠ id → ks'.get? other = ks.get? other := by
  obtain ⟨h1, h2⟩ := addToRole_spec role id rs hex
  refine ⟨(addToRole role id rs).1, ks.set id (some key'), ?_, h1, h2, Entries.get?_set_self _ _ _,
    fun other ho => Entries.get?_set_ne _ _ (Ne.symm ho)⟩
  unfold TargetsType.addKey
  rw [hd]
  simp only [hr]
  rw [if_pos (by simpa using hex)]
  simp only [hid, hk, GoMap.set]

/-- **C59, AddKey, succinct delegation.** -/
theorem C59_add_succinct (env : Env) (s : TargetsType) (d : Delegations) (sr : SuccinctRoles) (ks : Entries (Option Key))
    (key key' : Key) (role id : Str) (hd : s.delegations = some d) (hr : d.roles = none) (hsr : d.succinctRoles = some sr)
    (hk : d.keys = some ks) (hid : key.ID env = .ok (id, key')) :
    ∃ sr' ks', s.addKey env key role = (.ok (), { s with delegations := some { d with succinctRoles := some sr', keys := some ks' } }) ∧
      id ∈ sr'.keyIDs.elems ∧ sr' = { sr with keyIDs := sr'.keyIDs } ∧
      sr'.keyIDs.elems = sr.keyIDs.elems ++ (if id ∈ sr.keyIDs.elems then [] else [id]) ∧
      ks'.get? id = some (some key') ∧ ∀ other, other ≠ id → ks'.get? other = ks.get? other := by
  refine ⟨if id ∈ sr.keyIDs.elems then sr else { sr with keyIDs := some (sr.keyIDs.elems ++ [id]) }, ks.set id (some key'), ?_, ?_, ?_, ?_,
    Entries.get?_set_self _ _ _, fun other ho => Entries.get?_set_ne _ _ (Ne.symm ho)⟩
  · unfold TargetsType.addKey
    rw [hd]
    simp only [hr, hid, hsr, hk, GoMap.set]
  · split
    · assumption
    · simp [Slice.elems]
  · split <;> rfl
  · split
    · simp
    · rfl

/-- **C59 is false in one case**: with delegations that have neither roles nor a succinct delegation, `AddKey` succeeds, stores
the key, and no role lists it. -/
theorem C59_unused_key_stored : ∃ (env : Env) (s : TargetsType) (key : Key) (role : Str),
    (s.addKey env key role).1 = .ok () ∧
    (s.addKey env key role).2.delegations.map (fun d => ((d.keys.get? b!"k").isSome, d.roles.elems.length, d.succinctRoles.isSome)) = some (true, 0, false) :=
  ⟨Sample.env0, { delegations := some { keys := some [] } }, { id := b!"k" }, b!"r", by decide +kernel, by decide +kernel⟩

theorem revokeFromRole_none {role id : Str} {rs : List DelegatedRole} :
    revokeFromRole role id rs = none ↔ ∀ r ∈ rs, r.name ≠ role := by
  induction rs with
  | nil => simp [revokeFromRole]
  | cons d ds ih =>
    simp only [revokeFromRole]
    split
    · next h => split <;> simp [h]
    · next h => simp [ih, h]

theorem revokeFromRole_first {role id : Str} {rs pre post : List DelegatedRole} {r : DelegatedRole} (he : rs = pre ++ r :: post)
    (hpre : ∀ x ∈ pre, x.name ≠ role) (hn : r.name = role) :
    revokeFromRole role id rs = some (if id ∈ r.keyIDs.elems then
      .ok (pre ++ { r with keyIDs := some (r.keyIDs.elems.filter (fun k => k ≠ id)) } :: post) else .err (.value "key is not used by role")) := by
  subst he
  induction pre with
  | nil =>
    simp only [List.nil_append, revokeFromRole, if_pos hn]
    split <;> rfl
  | cons p pre ih =>
    obtain ⟨hp, hpre⟩ := List.forall_mem_cons.1 hpre
    simp only [List.cons_append, revokeFromRole, if_neg hp, ih hpre, Option.map_some]
    split <;> rfl

/-- **C59, RevokeKey, failure.** If there are no delegations, no role of that name, or the first one does not list the key ID
(for a succinct delegation: if it does not list the key ID), an error is returned and nothing changes. -/
theorem C59_revoke_failure (s : TargetsType) (id role : Str)
    (h : s.delegations = none ∨ ∃ d, s.delegations = some d ∧
      ((∃ rs, d.roles = some rs ∧ ((∀ r ∈ rs, r.name ≠ role) ∨ ∃ r, FirstOf rs role r ∧ id ∉ r.keyIDs.elems)) ∨
       (d.roles = none ∧ ∀ sr, d.succinctRoles = some sr → id ∉ sr.keyIDs.elems))) :
    ∃ e, s.revokeKey id role = (.err e, s) := by
  unfold TargetsType.revokeKey
  rcases h with h | ⟨d, h, ⟨rs, hr, hne | ⟨r, ⟨pre, post, h1, h2, h3⟩, hni⟩⟩ | ⟨hr, hni⟩⟩
  · rw [h]; exact ⟨_, rfl⟩
  · rw [h]
    simp only [hr, revokeFromRole_none.2 hne]
    exact ⟨_, rfl⟩
  · rw [h]
    simp only [hr, revokeFromRole_first h1 h2 h3, if_neg hni]
    exact ⟨_, rfl⟩
  · rw [h]
    simp only [hr]
    cases hs : d.succinctRoles with
    | none => exact ⟨_, rfl⟩
    | some sr => simp only [if_neg (hni sr hs)]; exact ⟨_, rfl⟩

theorem goMap_get_del {α : Type} (m : GoMap α) (id k : Str) : (m.del id).get? k = if k = id then none else m.get? k := by
  cases m with
  | none => simp [GoMap.del, GoMap.get?]
  | some ks =>
    have := Entries.get?_del ks id k
    show Entries.get? (Entries.del ks id) k = _
    rw [this]
    by_cases h : id = k
    · rw [if_pos h, if_pos h.symm]
    · rw [if_neg h, if_neg (Ne.symm h)]; rfl

/-- **C59, RevokeKey, roles by name.** The first role of that name no longer lists the key ID, nothing else changes in the roles,
and the key is dropped exactly if no delegated role lists it any more. -/
theorem C59_revoke_from_role (s : TargetsType) (d : Delegations) (rs pre post : List DelegatedRole) (r : DelegatedRole) (role id : Str)
    (hd : s.delegations = some d) (hr : d.roles = some rs) (he : rs = pre ++ r :: post) (hpre : ∀ x ∈ pre, x.name ≠ role)
    (hn : r.name = role) (hm : id ∈ r.keyIDs.elems) :
    ∃ rs' keys', s.revokeKey id role = (.ok (), { s with delegations := some { d with roles := some rs', keys := keys' } }) ∧
      rs' = pre ++ { r with keyIDs := some (r.keyIDs.elems.filter (fun k => k ≠ id)) } :: post ∧
      (∀ r', FirstOf rs' role r' → id ∉ r'.keyIDs.elems) ∧
      (DelegatedLists rs' id → ∀ k, keys'.get? k = d.keys.get? k) ∧
      (¬ DelegatedLists rs' id → ∀ k, keys'.get? k = if k = id then none else d.keys.get? k) := by
  refine ⟨pre ++ { r with keyIDs := some (r.keyIDs.elems.filter (fun k => k ≠ id)) } :: post,
    if (pre ++ { r with keyIDs := some (r.keyIDs.elems.filter (fun k => k ≠ id)) } :: post).any (fun r => decide (id ∈ r.keyIDs.elems)) then d.keys else d.keys.del id,
    ?_, rfl, ?_, ?_, ?_⟩
  · unfold TargetsType.revokeKey
    rw [hd]
    simp only [hr, revokeFromRole_first he hpre hn, if_pos hm]
    split <;> rfl
  · rintro r' ⟨pre', post', h1, h2, h3⟩
    have uniq : ∀ (a b : List DelegatedRole) (x y : DelegatedRole) (c e : List DelegatedRole), a ++ x :: c = b ++ y :: e → (∀ z ∈ a, z.name ≠ role) →
        (∀ z ∈ b, z.name ≠ role) → x.name = role → y.name = role → x = y := by
      intro a
      induction a with
      | nil =>
        intro b x y c e h _ hb hx _
        cases b with
        | nil => exact (List.cons.inj h).1
        | cons b0 b =>
          have := (List.cons.inj h).1
          subst this
          exact absurd hx (hb x (by simp))
      | cons a0 a ih =>
        intro b x y c e h ha hb hx hy
        cases b with
        | nil =>
          have := (List.cons.inj h).1
          subst this
          exact absurd hy (ha _ (by simp))
        | cons b0 b =>
          exact ih b x y c e (List.cons.inj h).2 (fun z hz => ha z (List.mem_cons_of_mem _ hz)) (fun z hz => hb z (List.mem_cons_of_mem _ hz)) hx hy
    have := uniq _ _ _ _ _ _ h1 hpre h2 hn h3
    rw [← this]
    simp [Slice.elems]
  · rintro ⟨r', hr', hm'⟩ k
    rw [if_pos (List.any_eq_true.2 ⟨r', hr', by simpa using hm'⟩)]
  · intro hno k
    rw [if_neg]
    · exact goMap_get_del _ _ _
    · intro hany
      obtain ⟨r', hr', hm'⟩ := List.any_eq_true.1 hany
      exact hno ⟨r', hr', by simpa using hm'⟩

/-- **C59, RevokeKey, succinct delegation.** -/
theorem C59_revoke_succinct (s : TargetsType) (d : Delegations) (sr : SuccinctRoles) (role id : Str)
    (hd : s.delegations = some d) (hr : d.roles = none) (hsr : d.succinctRoles = some sr) (hm : id ∈ sr.keyIDs.elems) :
    ∃ sr' keys', s.revokeKey id role = (.ok (), { s with delegations := some { d with succinctRoles := some sr', keys := keys' } }) ∧
      sr' = { sr with keyIDs := some (sr.keyIDs.elems.filter (fun k => k ≠ id)) } ∧ id ∉ sr'.keyIDs.elems ∧
      ∀ k, keys'.get? k = if k = id then none else d.keys.get? k := by
  refine ⟨_, d.keys.del id, ?_, rfl, by simp [Slice.elems], goMap_get_del _ _⟩
  unfold TargetsType.revokeKey
  rw [hd]
  simp only [hr, hsr, if_pos hm]

/-- Targets metadata that meets the hypotheses of the C59 theorems, with a shared key. -/
def Sample.delegating : TargetsType where
  delegations := some
    { keys := some [(b!"k", some { id := b!"k" })]
      roles := some [{ name := b!"a", keyIDs := some [b!"k"] }, { name := b!"b", keyIDs := some [b!"k"] }] }
example : let k (s : TargetsType) := s.delegations.map (fun d => (d.keys.get? b!"k").isSome)
    (Sample.delegating.revokeKey b!"k" b!"a").1 = .ok () ∧ k (Sample.delegating.revokeKey b!"k" b!"a").2 = some true ∧
    k ((Sample.delegating.revokeKey b!"k" b!"a").2.revokeKey b!"k" b!"b").2 = some false ∧
    (Sample.delegating.addKey Sample.env0 { id := b!"l" } b!"b").1 = .ok () := by decide +kernel

end Tuf
