/-!
# Basic vocabulary of the model

Go strings and byte slices are lists of bytes. A Go call has three outcomes: a value, an error value,
or a runtime panic. Go's `int64`/`int` (64-bit platforms) are mathematical integers plus an explicit
wrap-around where the code does arithmetic.
-/

namespace Tuf

/-- Go `[]byte`. -/
abbrev Bytes := List UInt8

/-- Go `string`: an arbitrary byte sequence. -/
abbrev Str := List UInt8

open Lean in
/-- `b!"abc"` is the byte string of an (ASCII/UTF-8) literal, expanded to an explicit list of bytes. -/
macro:max "b!" s:str : term => do
  let bytes := s.getString.toUTF8.toList
  let elems : Array (TSyntax `term) :=
    (bytes.map (fun b => ⟨Syntax.mkNumLit (toString b.toNat)⟩)).toArray
  `(([$elems,*] : List UInt8))

/-- The error values that the repository can return.
`metadata/errors.go:24-170`; each struct type there is one constructor, with its fields.
`other` stands for all errors made elsewhere (`encoding/json`, `os`, `fmt.Errorf`, ...).
Messages are kept because `errors.Is` compares them (`errors.go:44-46`); their text is
abbreviated but is non-empty exactly when the Go text is. -/
inductive Err where
  | repository (msg : String)
  | unsignedMetadata (msg : String)
  | badVersionNumber (msg : String)
  | equalVersionNumber (msg : String)
  | expiredMetadata (msg : String)
  | lengthOrHashMismatch (msg : String)
  | download (msg : String)
  | downloadLengthMismatch (msg : String)
  | downloadHTTP (status : Int) (url : Str)
  | value (msg : String)
  | type (msg : String)
  | runtime (msg : String)
  | other (msg : String)
  deriving DecidableEq, Repr

/-- Outcome of a Go call: result with nil error, non-nil error, or runtime panic. -/
inductive Res (α : Type) where
  | ok (a : α)
  | err (e : Err)
  | panic
  deriving DecidableEq, Repr

namespace Res

/-- Sequencing: later code runs only after a nil error. -/
def bind {α β : Type} : Res α → (α → Res β) → Res β
  | ok a, f => f a
  | err e, _ => err e
  | panic, _ => panic

instance : Monad Res where
  pure := ok
  bind := bind

def isOk {α : Type} : Res α → Bool
  | ok _ => true
  | _ => false

def isPanic {α : Type} : Res α → Bool
  | panic => true
  | _ => false

def map {α β : Type} (f : α → β) : Res α → Res β
  | ok a => ok (f a)
  | err e => err e
  | panic => panic

@[simp] theorem bind_ok {α β : Type} (a : α) (f : α → Res β) : (ok a >>= f) = f a := rfl
@[simp] theorem bind_err {α β : Type} (e : Err) (f : α → Res β) : (err e >>= f) = err e := rfl
@[simp] theorem bind_panic {α β : Type} (f : α → Res β) : ((panic : Res α) >>= f) = panic := rfl
@[simp] theorem pure_eq {α : Type} (a : α) : (pure a : Res α) = ok a := rfl

theorem bind_eq_ok {α β : Type} {r : Res α} {f : α → Res β} {b : β} :
    (r >>= f) = ok b ↔ ∃ a, r = ok a ∧ f a = ok b := by
  cases r <;> simp

/-- Turn an absent value into an error. -/
def ofOption {α : Type} (e : Err) : Option α → Res α
  | some a => ok a
  | none => err e

/-- Dereference of a pointer: nil panics. -/
def deref {α : Type} : Option α → Res α
  | some a => ok a
  | none => panic

@[simp] theorem deref_some {α : Type} (a : α) : deref (some a) = ok a := rfl
@[simp] theorem deref_none {α : Type} : deref (none : Option α) = panic := rfl
@[simp] theorem ofOption_some {α : Type} (e : Err) (a : α) : ofOption e (some a) = ok a := rfl
@[simp] theorem ofOption_none {α : Type} (e : Err) : ofOption e (none : Option α) = err e := rfl

theorem deref_eq_ok {α : Type} {o : Option α} {a : α} : deref o = ok a ↔ o = some a := by
  cases o <;> simp
theorem ofOption_eq_ok {α : Type} {e : Err} {o : Option α} {a : α} :
    ofOption e o = ok a ↔ o = some a := by
  cases o <;> simp

end Res

/-! ## Go maps and slices -/

/-- Byte-wise lexicographic order, Go's string `<=`. -/
def strLe : Str → Str → Bool
  | [], _ => true
  | _ :: _, [] => false
  | a :: as, b :: bs => if a = b then strLe as bs else decide (a.toNat < b.toNat)

/-- Insertion into a list sorted by key. -/
def insertByKey {α : Type} (e : Str × α) : List (Str × α) → List (Str × α)
  | [] => [e]
  | x :: r => if strLe e.1 x.1 then e :: x :: r else x :: insertByKey e r

/-- `sort.Strings` of the keys, carrying the values along. -/
def sortByKey {α : Type} : List (Str × α) → List (Str × α)
  | [] => []
  | e :: r => insertByKey e (sortByKey r)

/-- Contents of a Go `map[string]α`: an association list. The list order carries no meaning in Go; theorems quantify over all lists.
`set` keeps a list sorted by key, so that maps built by the model (for example by JSON decoding) are equal if they have the same content, and `json.Marshal`
prints their members in this order (`encoding/json` sorts map keys). -/
abbrev Entries (α : Type) := List (Str × α)

namespace Entries
variable {α : Type}

/-- `m[k]` with the comma-ok form. -/
def get? : Entries α → Str → Option α
  | [], _ => none
  | (k', v) :: rest, k => if k' = k then some v else get? rest k

/-- `m[k] = v` for a key that is present. -/
def replace : Entries α → Str → α → Entries α
  | [], _, _ => []
  | (k', v') :: rest, k, v => if k' = k then (k, v) :: rest else (k', v') :: replace rest k v

/-- `m[k] = v`. -/
def set (m : Entries α) (k : Str) (v : α) : Entries α := if (m.get? k).isSome then m.replace k v else insertByKey (k, v) m

/-- `delete(m, k)`. -/
def del (m : Entries α) (k : Str) : Entries α := m.filter (fun e => decide (e.1 ≠ k))

def keys (m : Entries α) : List Str := m.map Prod.fst

end Entries

/-- A Go map value: `none` is the nil map. Reading a nil map is allowed, writing to it panics. -/
abbrev GoMap (α : Type) := Option (Entries α)

namespace GoMap
variable {α : Type}
/-- The entries of a possibly nil map. -/
def entries (m : GoMap α) : Entries α := m.getD []
/-- `m[k]` with the comma-ok form, on a possibly nil map. -/
def get? (m : GoMap α) (k : Str) : Option α := m.entries.get? k
/-- `m[k] = v`: panics on the nil map. -/
def set (m : GoMap α) (k : Str) (v : α) : Res (GoMap α) :=
  match m with
  | none => .panic
  | some es => .ok (some (es.set k v))
/-- `delete(m, k)`: no-op on the nil map. -/
def del (m : GoMap α) (k : Str) : GoMap α := m.map (fun es => Entries.del es k)
end GoMap

/-- A Go slice value: `none` is the nil slice. -/
abbrev Slice (α : Type) := Option (List α)
/-- The elements of a possibly nil slice. -/
def Slice.elems {α : Type} (s : Slice α) : List α := s.getD []

/-- A map of pointers: `m[k]` is nil if the key is absent or holds a nil pointer. -/
def GoMap.ptr {α : Type} (m : GoMap (Option α)) (k : Str) : Option α := (m.get? k).join

/-! ## 64-bit integers -/

/-- Wrap-around of Go `int64` (and `int` on 64-bit platforms) arithmetic. -/
def wrap64 (n : Int) : Int := Int.bmod n (2 ^ 64)

/-- The range of `int64`. -/
def inInt64 (n : Int) : Bool := decide (-(2 ^ 63) ≤ n) && decide (n < 2 ^ 63)

/-! ## Lemmas about maps -/

namespace Entries
variable {α : Type}

@[simp] theorem get?_nil (k : Str) : get? ([] : Entries α) k = none := rfl

theorem get?_cons (k' : Str) (v : α) (m : Entries α) (k : Str) :
    get? ((k', v) :: m) k = if k' = k then some v else get? m k := rfl

theorem get?_replace (m : Entries α) (k : Str) (v : α) (k' : Str) :
    (m.replace k v).get? k' = if k = k' then (m.get? k).map (fun _ => v) else m.get? k' := by
  induction m with
  | nil => simp [replace, get?]
  | cons e m ih =>
    obtain ⟨k0, v0⟩ := e
    by_cases h : k0 = k
    · subst h; simp [replace, get?]
      split <;> rfl
    · simp only [replace, if_neg h, get?_cons, ih]
      by_cases h1 : k0 = k'
      · subst h1; simp [Ne.symm h]
      · simp [h1]

theorem get?_insertByKey (m : Entries α) (k : Str) (v : α) (k' : Str) (h : m.get? k = none) :
    get? (insertByKey (k, v) m) k' = if k = k' then some v else m.get? k' := by
  induction m with
  | nil => simp [insertByKey, get?]
  | cons e m ih =>
    obtain ⟨k0, v0⟩ := e
    rw [get?_cons] at h
    split at h
    · cases h
    · next h0 =>
      unfold insertByKey
      split
      · rfl
      · rw [get?_cons, get?_cons, ih h]
        by_cases h1 : k0 = k'
        · subst h1; simp [Ne.symm h0]
        · simp [h1]

theorem get?_set (m : Entries α) (k : Str) (v : α) (k' : Str) :
    (m.set k v).get? k' = if k = k' then some v else m.get? k' := by
  unfold set
  split
  · next h =>
    rw [get?_replace]
    obtain ⟨x, h⟩ := Option.isSome_iff_exists.1 h
    rw [h]; rfl
  · next h =>
    rw [get?_insertByKey]
    simpa using h

@[simp] theorem get?_set_self (m : Entries α) (k : Str) (v : α) : (m.set k v).get? k = some v := by
  simp [get?_set]

theorem get?_set_ne (m : Entries α) {k k' : Str} (v : α) (h : k ≠ k') :
    (m.set k v).get? k' = m.get? k' := by
  simp [get?_set, h]

theorem get?_del (m : Entries α) (k k' : Str) :
    (m.del k).get? k' = if k = k' then none else m.get? k' := by
  induction m with
  | nil => simp [del, get?]
  | cons e m ih =>
    obtain ⟨k0, v0⟩ := e
    unfold del at ih ⊢
    by_cases h : k0 = k
    · subst h
      simp only [List.filter_cons, ne_eq, not_true, decide_false, get?_cons]
      rw [if_neg (by simp), ih]
      split <;> rfl
    · simp only [List.filter_cons, ne_eq, h, not_false_eq_true, decide_true, if_true, get?_cons]
      rw [ih]
      by_cases h1 : k0 = k'
      · subst h1; simp [Ne.symm h]
      · simp [h1]

theorem mem_of_get? {m : Entries α} {k : Str} {v : α} (h : m.get? k = some v) : (k, v) ∈ m := by
  induction m with
  | nil => simp at h
  | cons e m ih =>
    obtain ⟨k0, v0⟩ := e
    rw [get?_cons] at h
    split at h
    · next h0 => cases h; subst h0; simp
    · exact List.mem_cons_of_mem _ (ih h)

theorem get?_eq_none_iff {m : Entries α} {k : Str} : m.get? k = none ↔ k ∉ m.keys := by
  induction m with
  | nil => simp [keys]
  | cons e m ih =>
    obtain ⟨k0, v0⟩ := e
    rw [get?_cons]
    simp only [keys, List.map_cons, List.mem_cons, not_or] at ih ⊢
    split
    · next h => simp [h]
    · next h => rw [ih]; simp [Ne.symm h]

theorem get?_isSome_iff {m : Entries α} {k : Str} : (m.get? k).isSome ↔ k ∈ m.keys := by
  have := get?_eq_none_iff (m := m) (k := k)
  cases h : m.get? k with
  | none => simp [this.1 h]
  | some v => simp; exact Classical.byContradiction fun hc => by rw [this.2 hc] at h; cases h

/-- With unique keys, membership determines lookup. -/
theorem get?_of_mem {m : Entries α} (hn : m.keys.Nodup) {k : Str} {v : α} (h : (k, v) ∈ m) :
    m.get? k = some v := by
  induction m with
  | nil => simp at h
  | cons e m ih =>
    obtain ⟨k0, v0⟩ := e
    simp only [keys, List.map_cons, List.nodup_cons] at hn
    rw [get?_cons]
    rcases List.mem_cons.1 h with h | h
    · cases h; simp
    · have : k0 ≠ k := by
        rintro rfl
        exact hn.1 (List.mem_map.2 ⟨_, h, rfl⟩)
      rw [if_neg this]
      exact ih hn.2 h

theorem mem_insertByKey {e x : Str × α} {m : Entries α} : x ∈ insertByKey e m ↔ x = e ∨ x ∈ m := by
  induction m with
  | nil => simp [insertByKey]
  | cons y m ih =>
    unfold insertByKey
    split
    · simp
    · rw [List.mem_cons, ih, List.mem_cons]
      constructor
      · rintro (h | h | h) <;> simp [h]
      · rintro (h | h | h) <;> simp [h]

theorem perm_insertByKey (e : Str × α) (m : Entries α) : (insertByKey e m).Perm (e :: m) := by
  induction m with
  | nil => exact .refl _
  | cons y m ih =>
    unfold insertByKey
    split
    · exact .refl _
    · exact (List.Perm.cons y ih).trans (.swap e y m)

theorem keys_replace (m : Entries α) (k : Str) (v : α) : (m.replace k v).keys = m.keys := by
  induction m with
  | nil => rfl
  | cons e m ih =>
    obtain ⟨k0, v0⟩ := e
    unfold replace
    split
    · next h => subst h; rfl
    · exact congrArg (k0 :: ·) ih

theorem mem_replace {m : Entries α} {k : Str} {v : α} {e : Str × α} (h : e ∈ m.replace k v) : e = (k, v) ∨ e ∈ m := by
  induction m with
  | nil => cases h
  | cons e0 m ih =>
    obtain ⟨k0, v0⟩ := e0
    unfold replace at h
    split at h
    · rcases List.mem_cons.1 h with h | h
      · exact .inl h
      · exact .inr (.tail _ h)
    · rcases List.mem_cons.1 h with h | h
      · exact .inr (h ▸ .head _)
      · rcases ih h with h | h
        · exact .inl h
        · exact .inr (.tail _ h)

theorem mem_set {m : Entries α} {k : Str} {v : α} {e : Str × α} (h : e ∈ m.set k v) : e = (k, v) ∨ e ∈ m := by
  unfold set at h
  split at h
  · exact mem_replace h
  · exact mem_insertByKey.1 h

theorem nodup_set {m : Entries α} (h : m.keys.Nodup) (k : Str) (v : α) : (m.set k v).keys.Nodup := by
  unfold set
  split
  · rw [keys_replace]; exact h
  · next hk =>
    refine ((perm_insertByKey (k, v) m).map Prod.fst).nodup_iff.2 ?_
    rw [List.map_cons, List.nodup_cons]
    refine ⟨?_, h⟩
    rw [get?_isSome_iff] at hk
    exact hk

theorem nodup_del {m : Entries α} (h : m.keys.Nodup) (k : Str) : (m.del k).keys.Nodup := by
  unfold keys del at *
  exact h.sublist (List.Sublist.map _ List.filter_sublist)

end Entries

namespace GoMap
variable {α : Type}
@[simp] theorem entries_some (es : Entries α) : GoMap.entries (some es) = es := rfl
@[simp] theorem entries_none : GoMap.entries (none : GoMap α) = [] := rfl
end GoMap

end Tuf
