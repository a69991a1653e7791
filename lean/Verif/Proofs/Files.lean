import Verif.Proofs.Paths
import Verif.Proofs.Digits
import Verif.Proofs.Updater

/-! # File names and URLs -/

namespace Tuf
open Spec

/-- A plain file name: one path component. -/
structure Spec.PlainName (name : Str) : Prop where
  nonempty : name ≠ []
  noSlash : (47 : UInt8) ∉ name
  notDot : name ≠ b!"."
  notDotDot : name ≠ b!".."

theorem splitOn_append_sep (a b : Str) : splitOn 47 (a ++ 47 :: b) = splitOn 47 a ++ splitOn 47 b := by
  induction a with
  | nil => simp [splitOn]
  | cons c r ih =>
    rw [List.cons_append]
    have e1 : ∀ s, splitOn 47 (c :: s) = if c = 47 then [] :: splitOn 47 s else match splitOn 47 s with
        | [] => [[c]]
        | p :: ps => (c :: p) :: ps := fun s => rfl
    rw [e1, e1, ih]
    split
    · rfl
    · have := splitOn_ne_nil 47 r
      cases h : splitOn 47 r with
      | nil => exact absurd h this
      | cons p ps => rfl

theorem splitOn_plain {b : Str} (h : (47 : UInt8) ∉ b) : splitOn 47 b = [b] := by
  have := splitOn_intercalate (sep := 47) (ps := [b]) (by simp) (by simpa using h)
  simpa [List.intercalate] using this

theorem joinWith_append_one (l : List Str) (b : Str) (hl : l ≠ []) : joinWith 47 (l ++ [b]) = joinWith 47 l ++ 47 :: b := by
  induction l with
  | nil => exact absurd rfl hl
  | cons p ps ih =>
    cases ps with
    | nil => rfl
    | cons q qs =>
      rw [List.cons_append, List.cons_append, joinWith, ← List.cons_append, ih (by simp)]
      simp [joinWith]

theorem cleanStep_plain {rooted : Bool} {st : List Str} {b : Str} (h : PlainName b) : cleanStep rooted st b = b :: st := by
  unfold cleanStep
  rw [if_neg (by rintro (h1 | h1); exact h.nonempty h1; exact h.notDot h1), if_neg h.notDotDot]

/-- What stands before the names of the files in directory `dir`: the cleaned path of the directory and a slash; nothing for the current directory. -/
def Spec.DirPrefix (dir D : Str) : Prop :=
  (D = [] ∧ cleanPath dir = b!".") ∨ (D = b!"/" ∧ cleanPath dir = b!"/") ∨ D = cleanPath dir ++ b!"/"

/-- Joining a directory and a plain name: the name after a prefix that depends only on the directory. -/
theorem joinPath_plain (dir : Str) : ∃ D, DirPrefix dir D ∧ ∀ name, PlainName name → joinPath dir name = D ++ name := by
  cases dir with
  | nil =>
    refine ⟨[], .inl ⟨rfl, rfl⟩, ?_⟩
    intro name h
    unfold joinPath
    rw [if_neg (by simp), if_pos h.nonempty]
    unfold cleanPath
    cases name with
    | nil => exact absurd rfl h.nonempty
    | cons c r =>
      dsimp only
      have hc : c ≠ 47 := by
        intro hc; apply h.noSlash; rw [hc]; exact .head _
      rw [splitOn_plain h.noSlash]
      simp only [hc, decide_false, List.foldl_cons, List.foldl_nil, cleanStep_plain h]
      simp [joinWith]
  | cons c dir =>
    let st := (splitOn 47 (c :: dir)).foldl (cleanStep (c = 47)) []
    refine ⟨if c = 47 then (if st = [] then b!"/" else 47 :: (joinWith 47 st.reverse ++ b!"/"))
      else (if st = [] then [] else joinWith 47 st.reverse ++ b!"/"), ?_, ?_⟩
    · have e : cleanPath (c :: dir) = if c = 47 then 47 :: joinWith 47 st.reverse
          else if st.reverse = [] then b!"." else joinWith 47 st.reverse := by
        rfl
      unfold DirPrefix
      rw [e]
      split
      · split
        · rename_i hs
          exact .inr (.inl ⟨rfl, by rw [hs]; rfl⟩)
        · exact .inr (.inr (by simp))
      · by_cases hs : st = []
        · rw [if_pos hs, if_pos (by rw [hs]; rfl)]
          exact .inl ⟨rfl, rfl⟩
        · rw [if_neg hs, if_neg (by simpa using hs)]
          exact .inr (.inr rfl)
    · intro name h
      unfold joinPath
      rw [if_pos (by simp), List.cons_append]
      unfold cleanPath
      dsimp only
      rw [← List.cons_append, splitOn_append_sep, splitOn_plain h.noSlash, List.foldl_append]
      simp only [List.foldl_cons, List.foldl_nil, cleanStep_plain h, List.reverse_cons]
      by_cases hc : c = 47
      · rw [if_pos hc, if_pos hc]
        by_cases hs : st = []
        · rw [if_pos hs]
          show 47 :: joinWith 47 (st.reverse ++ [name]) = _
          rw [hs]; rfl
        · rw [if_neg hs]
          show 47 :: joinWith 47 (st.reverse ++ [name]) = _
          rw [joinWith_append_one _ _ (by simpa using hs)]
          simp
      · rw [if_neg hc, if_neg hc, if_neg (by simp)]
        by_cases hs : st = []
        · rw [if_pos hs]
          show joinWith 47 (st.reverse ++ [name]) = _
          rw [hs]; rfl
        · rw [if_neg hs]
          show joinWith 47 (st.reverse ++ [name]) = _
          rw [joinWith_append_one _ _ (by simpa using hs)]
          simp

/-! ## Escaping -/

/-- The escape of one byte. -/
def escByte (c : UInt8) : Str :=
  if unreserved c then [c] else if c = 32 then [43] else [37, upperHex (c.toNat / 16), upperHex (c.toNat % 16)]

theorem queryEscape_cons (c : UInt8) (r : Str) : queryEscape (c :: r) = escByte c ++ queryEscape r := by
  conv => lhs; unfold queryEscape
  unfold escByte
  split
  · rfl
  · split <;> rfl

theorem escByte_facts : ∀ c : Fin 256, (47 : UInt8) ∉ escByte (UInt8.ofNat c) ∧ escByte (UInt8.ofNat c) ≠ [] := by
  decide +kernel

theorem ofNat_toNat' (c : UInt8) : UInt8.ofNat (⟨c.toNat, c.toNat_lt⟩ : Fin 256).val = c := by
  show UInt8.ofNat c.toNat = c
  simp

theorem queryEscape_noSlash (s : Str) : (47 : UInt8) ∉ queryEscape s := by
  induction s with
  | nil => simp [queryEscape]
  | cons c r ih =>
    rw [queryEscape_cons]
    intro h
    rcases List.mem_append.1 h with h | h
    · have := (escByte_facts ⟨c.toNat, c.toNat_lt⟩).1
      rw [ofNat_toNat'] at this
      exact this h
    · exact ih h

/-- Inverse of `escByte`. -/
def unescByte : Str → UInt8
  | [c] => if c = 43 then 32 else c
  | [_, a, b] => UInt8.ofNat ((hexVal a).getD 0 * 16 + (hexVal b).getD 0)
  | _ => 0

theorem escByte_inverse : ∀ c : Fin 256, unescByte (escByte (UInt8.ofNat c)) = UInt8.ofNat c ∧
    (escByte (UInt8.ofNat c)).length = if (escByte (UInt8.ofNat c)).head? = some 37 then 3 else 1 := by
  decide +kernel

/-- Escapes of different bytes: neither is a prefix of the other. -/
theorem escByte_prefix {c d : UInt8} (h : escByte c <+: escByte d) : c = d := by
  have hc := escByte_inverse ⟨c.toNat, c.toNat_lt⟩
  have hd := escByte_inverse ⟨d.toNat, d.toNat_lt⟩
  have hn := (escByte_facts ⟨c.toNat, c.toNat_lt⟩).2
  rw [ofNat_toNat'] at hc hd hn
  have hh : (escByte c).head? = (escByte d).head? := by
    obtain ⟨l, hl⟩ := h
    rw [← hl]
    cases hx : escByte c with
    | nil => exact absurd hx hn
    | cons a b => rfl
  have hlen : (escByte c).length = (escByte d).length := by rw [hc.2, hd.2, hh]
  have heq : escByte c = escByte d := List.IsPrefix.eq_of_length h hlen
  rw [← hc.1, ← hd.1, heq]

theorem queryEscape_inj {a b : Str} (h : queryEscape a = queryEscape b) : a = b := by
  induction a generalizing b with
  | nil =>
    cases b with
    | nil => rfl
    | cons d s =>
      rw [queryEscape_cons] at h
      have h2 : escByte d = [] := (List.append_eq_nil_iff.1 h.symm).1
      have := (escByte_facts ⟨d.toNat, d.toNat_lt⟩).2
      rw [ofNat_toNat'] at this
      exact absurd h2 this
  | cons c r ih =>
    cases b with
    | nil =>
      rw [queryEscape_cons] at h
      have h2 : escByte c = [] := (List.append_eq_nil_iff.1 h).1
      have := (escByte_facts ⟨c.toNat, c.toNat_lt⟩).2
      rw [ofNat_toNat'] at this
      exact absurd h2 this
    | cons d s =>
      rw [queryEscape_cons, queryEscape_cons] at h
      have hcd : c = d := by
        rcases List.append_eq_append_iff.1 h with ⟨l, h1, _⟩ | ⟨l, h1, _⟩
        · exact escByte_prefix ⟨l, h1.symm⟩
        · exact (escByte_prefix ⟨l, h1.symm⟩).symm
      subst hcd
      rw [ih (List.append_cancel_left h)]

theorem queryEscape_unreserved {s : Str} (h : ∀ c ∈ s, unreserved c = true) : queryEscape s = s := by
  induction s with
  | nil => rfl
  | cons c r ih =>
    unfold queryEscape
    rw [if_pos (h c (.head _)), ih (fun d hd => h d (.tail _ hd))]

/-! ## Cache file names -/

theorem plainName_json (role : Str) : PlainName (queryEscape role ++ b!".json") where
  nonempty := by simp
  noSlash := by
    intro h
    rcases List.mem_append.1 h with h | h
    · exact queryEscape_noSlash _ h
    · exact absurd h (by decide)
  notDot := by
    intro h
    have := congrArg List.length h
    simp at this
  notDotDot := by
    intro h
    have := congrArg List.length h
    simp at this

/-- Where metadata files go: a prefix that depends only on the directory, then the escaped role name. -/
theorem persistPath_eq (cfg : Cfg) : ∃ D, DirPrefix cfg.localMetadataDir D ∧ (∀ role, persistPath cfg role = D ++ (queryEscape role ++ b!".json")) ∧
    ∀ name, PlainName name → localPath cfg name = D ++ (name ++ b!".json") := by
  obtain ⟨D, h1, h2⟩ := joinPath_plain cfg.localMetadataDir
  refine ⟨D, h1, fun role => h2 _ (plainName_json role), ?_⟩
  intro name hn
  unfold localPath
  rw [h2 name hn, List.append_assoc]

theorem persistPath_inj {cfg : Cfg} {a b : Str} (h : persistPath cfg a = persistPath cfg b) : a = b := by
  obtain ⟨D, _, h2, _⟩ := persistPath_eq cfg
  rw [h2, h2] at h
  exact queryEscape_inj (List.append_cancel_right (List.append_cancel_left h))

/-- Decimal digits do not end in `n`. -/
theorem formatNat_mem {n : Nat} {c : UInt8} (h : c ∈ formatNat 10 n) : 48 ≤ c.toNat ∧ c.toNat ≤ 57 := by
  unfold formatNat at h
  obtain ⟨d, hd, rfl⟩ := List.mem_map.1 h
  have hlt : d < 10 := (digitsAux_spec (b := 10) (by omega) (n + 1) n (by omega)).2.1 d hd
  unfold digitChar
  rw [if_pos hlt]
  have : ∀ d : Fin 10, 48 ≤ (UInt8.ofNat (48 + d.val)).toNat ∧ (UInt8.ofNat (48 + d.val)).toNat ≤ 57 := by decide
  exact this ⟨d, hlt⟩

theorem tempName_last {p : Str} (h : TempName p) : ∃ a c, p = a ++ [c] ∧ c.toNat ≤ 57 := by
  obtain ⟨dir, n, rfl⟩ := h
  rcases List.eq_nil_or_concat (formatNat 10 n) with h | ⟨l, c, h⟩
  · exact absurd h (formatNat_ne_nil _ _)
  · refine ⟨dir ++ b!"/tuf_tmp" ++ l, c, by rw [h]; simp, ?_⟩
    exact (formatNat_mem (n := n) (by rw [h]; simp)).2

/-- Names ending in `.json` are not temporary. -/
theorem json_not_temp (a : Str) : ¬ TempName (a ++ b!".json") := by
  intro h
  obtain ⟨l, c, h1, h2⟩ := tempName_last h
  have h3 : (a ++ b!".jso") ++ b!"n" = l ++ [c] := by rw [← h1]; simp
  have := (List.append_inj' h3 rfl).2
  injection this with this
  subst this
  exact absurd h2 (by decide)

theorem persistPath_not_temp (cfg : Cfg) (role : Str) : ¬ TempName (persistPath cfg role) := by
  obtain ⟨D, _, h, _⟩ := persistPath_eq cfg
  rw [h, ← List.append_assoc]
  exact json_not_temp _

theorem localPath_not_temp (cfg : Cfg) (role : Str) : ¬ TempName (localPath cfg role) := json_not_temp _

end Tuf
