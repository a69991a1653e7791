import Verif.Model.Std.Env
import Verif.Spec.Std.Url
import Verif.Proofs.Clean

/-! # `url.JoinPath` on plain directories and URLs -/

namespace Tuf
open Tuf.Spec Tuf.Std

theorem slashed_eq (ps : List Str) : slashed ps = joinWith 47 ps := by
  match ps with
  | [] => rfl
  | [p] => rfl
  | p :: q :: r => rw [slashed, joinWith, slashed_eq (q :: r)]; simp

/-! ## Bytes -/

theorem forall_byte {P : UInt8 → Prop} (h : ∀ n : Fin 256, P (UInt8.ofNat n)) (c : UInt8) : P c := by
  have := h ⟨c.toNat, c.toNat_lt⟩
  rwa [ofNat_toNat'] at this

instance (c : UInt8) : Decidable (DirByte c) := by unfold DirByte; exact inferInstance

/-- Bytes that `validEncoded` accepts in a path, but for `*` and `%`. -/
def pathValid (c : UInt8) : Bool := c == 33 || c == 39 || c == 40 || c == 41 || c == 91 || c == 93 || pathKeeps c

theorem dirByte_facts (c : UInt8) (h : DirByte c) : pathValid c = true ∧ c ≠ 37 ∧ c ≠ 47 ∧ c ≠ 58 ∧ c ≠ 35 ∧ c ≠ 63 ∧ 32 ≤ c.toNat ∧ c ≠ 127 ∧ c ≠ 42 := by
  revert h
  refine forall_byte (P := fun c => DirByte c → pathValid c = true ∧ c ≠ 37 ∧ c ≠ 47 ∧ c ≠ 58 ∧ c ≠ 35 ∧ c ≠ 63 ∧ 32 ≤ c.toNat ∧ c ≠ 127 ∧ c ≠ 42) ?_ c
  decide +kernel

theorem unreserved_facts (c : UInt8) (h : unreserved c = true) : c ≠ 37 ∧ c ≠ 47 ∧ c ≠ 58 ∧ c ≠ 35 ∧ c ≠ 63 ∧ 32 ≤ c.toNat ∧ c ≠ 127 := by
  revert h
  refine forall_byte (P := fun c => unreserved c = true → c ≠ 37 ∧ c ≠ 47 ∧ c ≠ 58 ∧ c ≠ 35 ∧ c ≠ 63 ∧ 32 ≤ c.toNat ∧ c ≠ 127) ?_ c
  decide +kernel

theorem escByte_shape (c : UInt8) : (escByte c).all (fun c => c == 37 || pathValid c) = true ∧ (58 : UInt8) ∉ escByte c ∧
    ((∃ d, escByte c = [d] ∧ d ≠ 37) ∨ ∃ a b, escByte c = [37, a, b] ∧ (unhex a).isSome ∧ (unhex b).isSome) := by
  refine forall_byte (P := fun c => (escByte c).all (fun c => c == 37 || pathValid c) = true ∧ (58 : UInt8) ∉ escByte c ∧
    ((∃ d, escByte c = [d] ∧ d ≠ 37) ∨ ∃ a b, escByte c = [37, a, b] ∧ (unhex a).isSome ∧ (unhex b).isSome)) ?_ c
  intro n
  refine ⟨by revert n; decide +kernel, by revert n; decide +kernel, ?_⟩
  have h : ∀ n : Fin 256, (match escByte (UInt8.ofNat n) with
    | [d] => d != 37
    | [p, a, b] => p == 37 && (unhex a).isSome && (unhex b).isSome
    | _ => false) = true := by decide +kernel
  have h := h n
  split at h
  · next d hd => exact .inl ⟨d, hd, by simpa using h⟩
  · next p a b hd =>
    simp only [Bool.and_eq_true, beq_iff_eq] at h
    obtain ⟨⟨rfl, h1⟩, h2⟩ := h
    exact .inr ⟨a, b, hd, h1, h2⟩
  · cases h

/-! ## Escaping -/

theorem unescapePath_cons {c : UInt8} (h : c ≠ 37) (r : Str) : unescapePath (c :: r) = (unescapePath r).map (fun t => c :: t) := by
  match r with
  | [] => simp [unescapePath, h]
  | [d] => rw [unescapePath, if_neg h]; simp
  | a :: b :: r =>
    rw [unescapePath, if_neg h]

theorem unescapePath_append {a : Str} (h : (37 : UInt8) ∉ a) (b : Str) : unescapePath (a ++ b) = (unescapePath b).map (fun t => a ++ t) := by
  induction a with
  | nil => simp
  | cons c r ih =>
    simp only [List.mem_cons, not_or] at h
    rw [List.cons_append, unescapePath_cons (Ne.symm h.1), ih h.2]
    simp [Function.comp_def]

theorem unescapePath_plain {a : Str} (h : (37 : UInt8) ∉ a) : unescapePath a = some a := by
  have := unescapePath_append h []
  simpa [unescapePath] using this

theorem escapePath_plain {a : Str} (h : ∀ c ∈ a, pathKeeps c = true) : escapePath a = a := by
  induction a with
  | nil => rfl
  | cons c r ih => rw [escapePath, if_pos (h c (.head _)), ih (fun d hd => h d (.tail _ hd))]

theorem unescape_query (t : Str) : (unescapePath (queryEscape t)).isSome := by
  induction t with
  | nil => rfl
  | cons c r ih =>
    rw [queryEscape_cons]
    obtain ⟨_, _, ⟨d, h1, h2⟩ | ⟨a, b, h1, h2, h3⟩⟩ := escByte_shape c
    · rw [h1, List.singleton_append, unescapePath_cons h2]
      simpa using ih
    · rw [h1]
      simp only [List.cons_append, List.nil_append, unescapePath, if_true]
      cases ha : unhex a with
      | none => rw [ha] at h2; cases h2
      | some x =>
        cases hb : unhex b with
        | none => rw [hb] at h3; cases h3
        | some y => simpa using ih

theorem queryEscape_bytes (t : Str) : ∀ c ∈ queryEscape t, (c = 37 ∨ pathValid c = true) ∧ c ≠ 58 := by
  induction t with
  | nil => intro c hc; cases hc
  | cons d r ih =>
    rw [queryEscape_cons]
    intro c hc
    rcases List.mem_append.1 hc with hc | hc
    · obtain ⟨h1, h2, _⟩ := escByte_shape d
      have := List.all_eq_true.1 h1 c hc
      simp only [Bool.or_eq_true, beq_iff_eq] at this
      exact ⟨this, fun h => h2 (h ▸ hc)⟩
    · exact ih c hc

/-- A URL with the given path: `EscapedPath` is the text that was set. -/
theorem escaped_set {u u' : Url} {p : Str} (h : u.setPath p = some u') (hp : ∀ c ∈ p, c = 37 ∨ pathValid c = true) (hs : p ≠ b!"%2A") :
    u'.escapedPath = p ∧ u'.scheme = u.scheme ∧ u'.host = u.host ∧ u'.opaque = u.opaque ∧ u'.omitHost = u.omitHost ∧ u'.forceQuery = u.forceQuery ∧ u'.rawQuery = u.rawQuery ∧ u'.user = u.user ∧ u'.fragment = u.fragment ∧
      (p ≠ [] → u'.path ≠ []) := by
  unfold Url.setPath at h
  cases hu : unescapePath p with
  | none => rw [hu] at h; cases h
  | some path =>
    rw [hu] at h
    cases h
    refine ⟨?_, rfl, rfl, rfl, rfl, rfl, rfl, rfl, rfl, ?_⟩
    · unfold Url.escapedPath
      dsimp only
      have hv : validEncoded p = true := by
        unfold validEncoded
        rw [List.all_eq_true]
        intro c hc
        rcases hp c hc with rfl | h
        · rfl
        · simp only [pathValid, Bool.or_eq_true] at h
          simp only [Bool.or_eq_true]
          rcases h with ((((((h | h) | h) | h) | h) | h) | h) <;> simp [h]
      by_cases he : p = escapePath path
      · simp only [if_pos he, ne_eq, not_true_eq_false, false_and, if_false]
        by_cases hstar : path = b!"*"
        · exfalso
          rw [hstar] at he
          exact hs (he.trans (by decide))
        · rw [if_neg hstar, ← he]
      · simp only [if_neg he]
        by_cases hn : p = []
        · subst hn
          simp only [unescapePath, Option.some.injEq] at hu
          subst hu
          exact absurd rfl he
        · rw [if_pos ⟨hn, hv, hu⟩]
    · intro hn hpath
      dsimp only at hpath
      subst hpath
      match p with
      | [] => exact hn rfl
      | c :: r =>
        by_cases hc : c = 37
        · subst hc
          match r with
          | [] => simp [unescapePath] at hu
          | [d] => simp [unescapePath] at hu
          | a :: b :: r =>
            rw [unescapePath, if_pos rfl] at hu
            split at hu
            · cases hr : unescapePath r <;> rw [hr] at hu <;> cases hu
            · cases hu
        · rw [unescapePath_cons hc] at hu
          cases hr : unescapePath r <;> rw [hr] at hu <;> cases hu

/-! ## Joining -/

/-- What a component does to the components before it. -/
def pushName (ps : List Str) (e : Str) : List Str :=
  if e = [] ∨ e = b!"." then ps else if e = b!".." then ps.dropLast else ps ++ [e]

theorem cleanStep_push {ps : List Str} (hp : ∀ p ∈ ps, PlainName p) (e : Str) : cleanStep true ps.reverse e = (pushName ps e).reverse := by
  unfold cleanStep pushName
  split
  · rfl
  · split
    · cases hr : ps.reverse with
      | nil => rw [List.reverse_eq_nil_iff] at hr; subst hr; rfl
      | cons q r =>
        have hq : PlainName q := hp q (by rw [← List.mem_reverse, hr]; simp)
        simp only [hq.notDotDot, if_false]
        have : ps = r.reverse ++ [q] := by rw [← List.reverse_reverse ps, hr]; simp
        rw [this, List.dropLast_concat, List.reverse_reverse]
    · simp

theorem pushName_plain {ps : List Str} (hp : ∀ p ∈ ps, PlainName p) {e : Str} (he : (47 : UInt8) ∉ e) : ∀ p ∈ pushName ps e, PlainName p := by
  unfold pushName
  split
  · exact hp
  · split
    · exact fun p h => hp p ((List.dropLast_sublist ps).subset h)
    · intro p h
      rcases List.mem_append.1 h with h | h
      · exact hp p h
      · rw [List.mem_singleton] at h
        subst h
        next h1 h2 =>
        exact ⟨fun h => h1 (.inl h), he, fun h => h1 (.inr h), h2⟩

/-- Joining to a rooted path. -/
theorem join_rooted {ps : List Str} (hp : ∀ p ∈ ps, PlainName p) {e : Str} (he : (47 : UInt8) ∉ e) :
    joinPath (b!"/" ++ joinWith 47 ps) e = b!"/" ++ joinWith 47 (pushName ps e) := by
  unfold joinPath
  rw [if_pos (by simp)]
  show cleanPath (47 :: (joinWith 47 ps ++ 47 :: e)) = 47 :: _
  unfold cleanPath
  simp only [decide_true, if_true]
  have h1 : splitOn 47 (47 :: (joinWith 47 ps ++ 47 :: e)) = [] :: splitOn 47 (joinWith 47 ps ++ 47 :: e) := rfl
  rw [h1, splitOn_append_sep, splitOn_plain he, List.foldl_cons, List.foldl_append]
  have h2 : (splitOn 47 (joinWith 47 ps)).foldl (cleanStep true) [] = ps.reverse := by
    by_cases hs : ps = []
    · subst hs; rfl
    · rw [splitOn_joinWith hs (fun p h => (hp p h).noSlash), foldl_plain ps hp]
      simp
  have h3 : cleanStep true [] [] = [] := rfl
  rw [h3, h2, List.foldl_cons, List.foldl_nil, cleanStep_push hp, List.reverse_reverse]
  rfl

instance (c : UInt8) : Decidable (EscDigit c) := by unfold EscDigit; infer_instance

theorem unhex_digit {c : UInt8} (h : EscDigit c) : (unhex c).isSome := by
  unfold unhex
  rcases h with h | h | h
  · rw [if_pos h]; rfl
  · rw [if_neg (by omega), if_neg (by omega), if_pos h]; rfl
  · rw [if_neg (by omega), if_pos h]; rfl

theorem hexDigit_dirByte {c : UInt8} (h : EscDigit c) : DirByte c := by
  rcases h with h | h | h
  · exact .inl h
  · exact .inr (.inl ⟨h.1, by omega⟩)
  · exact .inr (.inr (.inl ⟨h.1, by omega⟩))

/-- Bytes of paths. -/
def OkByte (c : UInt8) : Prop := c = 37 ∨ c = 47 ∨ DirByte c

theorem okByte_facts {c : UInt8} (h : OkByte c) : (c = 37 ∨ pathValid c = true) ∧ c ≠ 58 ∧ c ≠ 35 ∧ c ≠ 63 ∧ 32 ≤ c.toNat ∧ c ≠ 127 ∧ c ≠ 42 := by
  rcases h with rfl | rfl | h
  · decide
  · decide
  · obtain ⟨h1, _, _, h4, h5, h6, h7, h8, h9⟩ := dirByte_facts c h
    exact ⟨.inr h1, h4, h5, h6, h7, h8, h9⟩

/-- Paths of plain bytes, slashes and escapes. -/
structure OkPath (s : Str) : Prop where
  bytes : ∀ c ∈ s, OkByte c
  escapes : (unescapePath s).isSome

theorem unescapePath_join {a b : Str} (ha : (unescapePath a).isSome) (hb : (unescapePath b).isSome) : (unescapePath (a ++ b)).isSome := by
  match a with
  | [] => exact hb
  | [c] =>
    by_cases hc : c = 37
    · subst hc; cases ha
    · rw [List.cons_append, List.nil_append, unescapePath_cons hc]; simpa using hb
  | [c, d] =>
    by_cases hc : c = 37
    · subst hc; cases ha
    · rw [unescapePath_cons hc] at ha
      rw [List.cons_append, unescapePath_cons hc]
      have := unescapePath_join (a := [d]) (by simpa using ha) hb
      simpa using this
  | c :: d :: e :: r =>
    by_cases hc : c = 37
    · subst hc
      rw [unescapePath, if_pos rfl] at ha
      simp only [List.cons_append]
      rw [unescapePath, if_pos rfl]
      cases hx : unhex d with
      | none => rw [hx] at ha; cases ha
      | some x =>
        cases hy : unhex e with
        | none => rw [hx, hy] at ha; cases ha
        | some y =>
          rw [hx, hy] at ha
          have := unescapePath_join (a := r) (by simpa using ha) hb
          simpa using this
    · rw [unescapePath_cons hc] at ha
      rw [List.cons_append, unescapePath_cons hc]
      have := unescapePath_join (a := d :: e :: r) (by simpa using ha) hb
      simpa using this

theorem OkPath.append {a b : Str} (ha : OkPath a) (hb : OkPath b) : OkPath (a ++ b) :=
  ⟨fun c hc => (List.mem_append.1 hc).elim (ha.bytes c) (hb.bytes c), unescapePath_join ha.escapes hb.escapes⟩

theorem okPath_nil : OkPath [] := ⟨by simp, rfl⟩
theorem okPath_slash : OkPath b!"/" := ⟨by simp [OkByte], rfl⟩

theorem Spec.Encoded.ok {p : Str} (h : Encoded p) : (∀ c ∈ p, c = 37 ∨ DirByte c) ∧ (unescapePath p).isSome := by
  induction h with
  | nil => exact ⟨by simp, rfl⟩
  | byte hc _ ih =>
    refine ⟨by intro d hd; rcases List.mem_cons.1 hd with rfl | hd; exact .inr hc; exact ih.1 d hd, ?_⟩
    rw [unescapePath_cons (dirByte_facts _ hc).2.1]
    simpa using ih.2
  | @escape a b r ha hb _ ih =>
    refine ⟨?_, ?_⟩
    · intro d hd
      simp only [List.mem_cons] at hd
      rcases hd with rfl | rfl | rfl | hd
      · exact .inl rfl
      · exact .inr (hexDigit_dirByte ha)
      · exact .inr (hexDigit_dirByte hb)
      · exact ih.1 d hd
    · rw [unescapePath, if_pos rfl]
      obtain ⟨x, hx⟩ := Option.isSome_iff_exists.1 (unhex_digit ha)
      obtain ⟨y, hy⟩ := Option.isSome_iff_exists.1 (unhex_digit hb)
      rw [hx, hy]
      simpa using ih.2

theorem encoded_plain {p : Str} (h : ∀ c ∈ p, DirByte c) : Encoded p := by
  induction p with
  | nil => exact .nil
  | cons c r ih => exact .byte (h c (by simp)) (ih fun d hd => h d (List.mem_cons_of_mem _ hd))

theorem dirName_plain {p : Str} (h : p ∉ [[], b!".", b!"..", b!"%2A"] ∧ ∀ c ∈ p, DirByte c) : DirName p := by
  obtain ⟨h, hb⟩ := h
  simp only [List.mem_cons, List.not_mem_nil, or_false, not_or] at h
  exact ⟨h.1, h.2.1, h.2.2.1, h.2.2.2, encoded_plain hb⟩

theorem Spec.DirName.ok {p : Str} (h : DirName p) : OkPath p := ⟨fun c hc => (h.encoded.ok.1 c hc).imp id .inr, h.encoded.ok.2⟩

theorem Spec.DirName.plain {p : Str} (h : DirName p) : PlainName p :=
  ⟨h.nonempty, fun hm => by
    rcases h.encoded.ok.1 _ hm with h | h
    · cases h
    · exact (dirByte_facts _ h).2.2.1 rfl, h.notDot, h.notDotDot⟩

theorem mem_joinWith {ps : List Str} {c : UInt8} (h : c ∈ joinWith 47 ps) : c = 47 ∨ ∃ p ∈ ps, c ∈ p := by
  match ps with
  | [] => cases h
  | [p] => exact .inr ⟨p, by simp, h⟩
  | p :: q :: r =>
    rw [joinWith] at h
    rcases List.mem_append.1 h with h | h
    · exact .inr ⟨p, by simp, h⟩
    · rcases List.mem_cons.1 h with h | h
      · exact .inl h
      · rcases mem_joinWith h with h | ⟨p', h1, h2⟩
        · exact .inl h
        · exact .inr ⟨p', List.mem_cons_of_mem _ h1, h2⟩

/-- The path of a plain directory. -/
theorem dir_ok {ps : List Str} (hp : ∀ p ∈ ps, DirName p) : OkPath (joinWith 47 ps) := by
  match ps with
  | [] => exact okPath_nil
  | [p] => exact (hp p (by simp)).ok
  | p :: q :: r =>
    rw [joinWith]
    exact (hp p (by simp)).ok.append (okPath_slash.append (dir_ok (ps := q :: r) fun p h => hp p (List.mem_cons_of_mem _ h)))

theorem slash_facts : pathValid 47 = true ∧ (47 : UInt8) ≠ 37 ∧ (47 : UInt8) ≠ 58 ∧ (47 : UInt8) ≠ 35 ∧ (47 : UInt8) ≠ 63 ∧ 32 ≤ (47 : UInt8).toNat ∧ (47 : UInt8) ≠ 127 := by decide

theorem cutByte_none {b : UInt8} {s : Str} (h : b ∉ s) : cutByte b s = (s, []) := by
  induction s with
  | nil => rfl
  | cons c r ih =>
    simp only [List.mem_cons, not_or] at h
    rw [cutByte, if_neg (Ne.symm h.1), ih h.2]

theorem cutByte_fst {b c : UInt8} {s : Str} (h : c ∈ (cutByte b s).1) : c ∈ s := by
  induction s with
  | nil => cases h
  | cons d r ih =>
    rw [cutByte] at h
    split at h
    · cases h
    · rcases List.mem_cons.1 h with rfl | h
      · exact .head _
      · exact .tail _ (ih h)

theorem schemeRest_none {s : Str} (h : (58 : UInt8) ∉ s) : schemeRest s = none := by
  induction s with
  | nil => rfl
  | cons c r ih =>
    simp only [List.mem_cons, not_or] at h
    rw [schemeRest, ih h.2, if_neg (Ne.symm h.1)]
    split <;> rfl

theorem getScheme_none {s : Str} (h : (58 : UInt8) ∉ s) : getScheme s = some ([], s) := by
  cases s with
  | nil => rfl
  | cons c r =>
    simp only [List.mem_cons, not_or] at h
    unfold getScheme
    simp only [if_neg (Ne.symm h.1), schemeRest_none h.2]
    split <;> rfl

theorem parse_noFragment {s : Str} (h : (35 : UInt8) ∉ s) : parseUrl s = parseNoFragment s := by
  unfold parseUrl
  rw [cutByte_none h]
  cases hp : parseNoFragment s <;> simp [hp]

/-- A path without scheme, host, query and fragment. -/
theorem parse_path_set {s : Str} (h : OkPath s) (hh : (b!"//").isPrefixOf s = false) {u : Url} (hu : ({} : Url).setPath s = some u) : parseUrl s = some u := by
  have hb := fun c hc => okByte_facts (h.bytes c hc)
  have n : ∀ b, (∀ c ∈ s, c ≠ b) → b ∉ s := fun b hb hm => hb b hm rfl
  rw [parse_noFragment (n 35 fun c hc => (hb c hc).2.2.1)]
  unfold parseNoFragment
  rw [if_neg, if_neg, getScheme_none (n 58 fun c hc => (hb c hc).2.1)]
  · simp only [List.map_nil]
    unfold splitQuery
    rw [cutByte_none (n 63 fun c hc => (hb c hc).2.2.2.1)]
    simp only [n 63 fun c hc => (hb c hc).2.2.2.1, and_false, if_false]
    unfold parseRest
    simp only [ne_eq, not_true_eq_false, and_false, if_false, false_or, hh]
    rw [if_neg (by
      intro hc
      exact n 58 (fun c hc => (hb c hc).2.1) (cutByte_fst hc.2))]
    simp only [Bool.false_eq_true, and_false, if_false]
    rw [hu]
  · rintro rfl
    exact (hb 42 (.head _)).2.2.2.2.2.2 rfl
  · rw [Bool.not_eq_true, List.any_eq_false]
    intro c hc
    obtain ⟨_, _, _, _, h6, h7, _⟩ := hb c hc
    simp only [Bool.or_eq_true, decide_eq_true_eq, beq_iff_eq, not_or, Nat.not_lt]
    exact ⟨h6, h7⟩

theorem parse_path {s : Str} (h : OkPath s) (hh : (b!"//").isPrefixOf s = false) (hst : s ≠ b!"%2A") :
    ∃ u, parseUrl s = some u ∧ u.escapedPath = s ∧ u.scheme = [] ∧ u.host = [] ∧ u.opaque = [] ∧ u.forceQuery = false ∧ u.rawQuery = [] ∧ u.user = none ∧ u.fragment = [] := by
  have hb := fun c hc => okByte_facts (h.bytes c hc)
  have hset : ∃ u, ({} : Url).setPath s = some u := by
    obtain ⟨q, hq⟩ := Option.isSome_iff_exists.1 h.escapes
    unfold Url.setPath
    rw [hq]
    exact ⟨_, rfl⟩
  obtain ⟨u, hu⟩ := hset
  obtain ⟨e1, e2, e3, e4, _, e6, e7, e8, e9, _⟩ := escaped_set hu (fun c hc => (hb c hc).1) hst
  exact ⟨u, parse_path_set h hh hu, e1, e2, e3, e4, e6, e7, e8, e9⟩

theorem pushName_mem {ps : List Str} {e p : Str} (h : p ∈ pushName ps e) : p ∈ ps ∨ p = e := by
  unfold pushName at h
  split at h
  · exact .inl h
  · split at h
    · exact .inl ((List.dropLast_sublist ps).subset h)
    · simpa using h

theorem push_bytes {ps : List Str} (hp : ∀ p ∈ ps, DirName p) {e : Str} (hb : ∀ c ∈ e, (c = 37 ∨ pathValid c = true) ∧ c ≠ 58) :
    ∀ c ∈ joinWith 47 (pushName ps e), (c = 37 ∨ pathValid c = true) ∧ c ≠ 58 := by
  intro c hc
  rcases mem_joinWith hc with rfl | ⟨p, h1, h2⟩
  · decide
  · rcases pushName_mem h1 with h | rfl
    · have := okByte_facts ((hp p h).ok.bytes c h2)
      exact ⟨this.1, this.2.1⟩
    · exact hb c h2

/-- Escapes of a path whose last component is escaped. -/
theorem push_unescape {ps : List Str} (hp : ∀ p ∈ ps, DirName p) {e : Str} (he : (unescapePath e).isSome) : (unescapePath (joinWith 47 (pushName ps e))).isSome := by
  unfold pushName
  split
  · exact (dir_ok hp).escapes
  · split
    · exact (dir_ok fun p h => hp p ((List.dropLast_sublist ps).subset h)).escapes
    · by_cases hs : ps = []
      · subst hs; exact he
      · rw [joinWith_append_one _ _ hs]
        exact unescapePath_join (dir_ok hp).escapes (by rw [unescapePath_cons (by decide)]; simpa using he)

theorem slash_suffix {e : Str} (h : (47 : UInt8) ∉ e) : (b!"/").isSuffixOf e = false := by
  cases hs : (b!"/").isSuffixOf e with
  | false => rfl
  | true =>
    rw [List.isSuffixOf_iff_suffix] at hs
    obtain ⟨a, rfl⟩ := hs
    exact absurd (List.mem_append_right _ (by simp)) h

theorem dir_star {ps : List Str} (hp : ∀ p ∈ ps, DirName p) : joinWith 47 ps ≠ b!"%2A" := by
  match ps with
  | [] => decide
  | [p] => exact (hp p (by simp)).notStar
  | p :: q :: r =>
    intro h
    rw [joinWith] at h
    have hmem : (47 : UInt8) ∈ b!"%2A" := by rw [← h]; simp
    exact absurd hmem (by decide)

theorem pushed_star {ps : List Str} (hp : ∀ p ∈ ps, DirName p) (hne : ps ≠ []) (e : Str) : joinWith 47 (pushName ps e) ≠ b!"%2A" := by
  intro h
  unfold pushName at h
  split at h
  · exact dir_star hp h
  · split at h
    · exact dir_star (fun p h => hp p ((List.dropLast_sublist ps).subset h)) h
    · rw [joinWith_append_one _ _ hne] at h
      have hmem : (47 : UInt8) ∈ b!"%2A" := by rw [← h]; simp
      exact absurd hmem (by decide)

/-- The text of a URL without scheme, host and query. -/
theorem string_path {u : Url} {p : Str} (he : u.escapedPath = p) (h1 : u.scheme = []) (h2 : u.host = []) (h3 : u.opaque = []) (h4 : u.forceQuery = false) (h5 : u.rawQuery = [])
    (h6 : u.user = none) (h7 : u.fragment = []) (hc : (58 : UInt8) ∉ p) : u.string = p := by
  unfold Url.string Url.pathText Url.prefix
  rw [he, h1, h2, h3, h4, h5, h6, h7]
  have : (58 : UInt8) ∉ (cutByte 47 p).1 := fun h => hc (cutByte_fst h)
  simp [this]

theorem joinWith_noHead {ps : List Str} (hp : ∀ p ∈ ps, PlainName p) : (b!"/").isPrefixOf (joinWith 47 ps) = false := by
  by_cases hs : ps = []
  · subst hs; rfl
  · obtain ⟨c, r, h1, h2⟩ := joinWith_head hs (fun p h => (hp p h).nonempty) (fun p h => (hp p h).noSlash)
    rw [h1]
    simp [List.isPrefixOf, Ne.symm h2]

/-- `url.JoinPath` of a plain absolute directory. -/
theorem join_absolute {ps : List Str} (hp : ∀ p ∈ ps, DirName p) {e : Str} (hs : (47 : UInt8) ∉ e)
    (hb : ∀ c ∈ e, (c = 37 ∨ pathValid c = true) ∧ c ≠ 58) (he : (unescapePath e).isSome) :
    urlJoinPath (b!"/" ++ joinWith 47 ps) e = some (b!"/" ++ joinWith 47 (pushName ps e)) := by
  have hpl : ∀ p ∈ ps, PlainName p := fun p h => (hp p h).plain
  obtain ⟨u, hu, f1, f2, f3, f4, f5, f6, f7, f8⟩ := parse_path (okPath_slash.append (dir_ok hp)) (by
    have := joinWith_noHead hpl
    cases hj : joinWith 47 ps with
    | nil => rfl
    | cons c r => rw [hj] at this; simpa [List.isPrefixOf] using this) (by intro h; cases h)
  unfold urlJoinPath
  rw [hu]
  simp only [Option.map_some, Option.some.injEq]
  unfold Url.joinPath
  rw [f1]
  simp only [slash_suffix hs, Bool.false_eq_true, false_and, if_false]
  rw [if_pos (by simp [List.isPrefixOf]), join_rooted hpl hs]
  obtain ⟨path, hpath⟩ := Option.isSome_iff_exists.1 (push_unescape hp he)
  have hset : ∃ u', u.setPath (b!"/" ++ joinWith 47 (pushName ps e)) = some u' := by
    unfold Url.setPath
    rw [unescapePath_append (by decide), hpath]
    exact ⟨_, rfl⟩
  obtain ⟨u', hu⟩ := hset
  have hbytes := push_bytes hp hb
  obtain ⟨e1, e2, e3, e4, _, e6, e7, e8, e9, _⟩ := escaped_set hu (by
    intro c hc
    rcases List.mem_append.1 hc with h | h
    · rw [List.mem_singleton] at h
      subst h
      decide
    · exact (hbytes c h).1) (by intro h; cases h)
  rw [hu]
  refine string_path e1 (e2.trans f2) (e3.trans f3) (e4.trans f4) (e6.trans f5) (e7.trans f6) (e8.trans f7) (e9.trans f8) ?_
  intro hm
  rcases List.mem_append.1 hm with h | h
  · revert h; decide
  · exact (hbytes _ h).2 rfl

/-- `url.JoinPath` of a plain relative directory. -/
theorem join_relative {ps : List Str} (hne : ps ≠ []) (hp : ∀ p ∈ ps, DirName p) {e : Str} (hs : (47 : UInt8) ∉ e)
    (hb : ∀ c ∈ e, (c = 37 ∨ pathValid c = true) ∧ c ≠ 58) (he : (unescapePath e).isSome) :
    urlJoinPath (joinWith 47 ps) e = some (joinWith 47 (pushName ps e)) := by
  have hpl : ∀ p ∈ ps, PlainName p := fun p h => (hp p h).plain
  have hnh := joinWith_noHead hpl
  obtain ⟨u, hu, f1, f2, f3, f4, f5, f6, f7, f8⟩ := parse_path (dir_ok hp) (by
    cases hj : joinWith 47 ps with
    | nil => rfl
    | cons c r => rw [hj] at hnh; simp only [List.isPrefixOf, Bool.and_true] at hnh ⊢; simp [hnh]) (dir_star hp)
  unfold urlJoinPath
  rw [hu]
  simp only [Option.map_some, Option.some.injEq]
  unfold Url.joinPath
  rw [f1]
  simp only [slash_suffix hs, Bool.false_eq_true, false_and, if_false]
  rw [if_neg (by simp [hnh]), join_rooted hpl hs]
  have hdrop : List.drop 1 (b!"/" ++ joinWith 47 (pushName ps e)) = joinWith 47 (pushName ps e) := rfl
  rw [hdrop]
  obtain ⟨path, hpath⟩ := Option.isSome_iff_exists.1 (push_unescape hp he)
  have hset : ∃ u', u.setPath (joinWith 47 (pushName ps e)) = some u' := by
    unfold Url.setPath
    rw [hpath]
    exact ⟨_, rfl⟩
  obtain ⟨u', hu⟩ := hset
  have hbytes := push_bytes hp hb
  obtain ⟨e1, e2, e3, e4, _, e6, e7, e8, e9, _⟩ := escaped_set hu (fun c hc => (hbytes c hc).1) (pushed_star hp hne e)
  rw [hu]
  exact string_path e1 (e2.trans f2) (e3.trans f3) (e4.trans f4) (e6.trans f5) (e7.trans f6) (e8.trans f7) (e9.trans f8) (fun h => (hbytes _ h).2 rfl)

/-! ## URLs -/

/-- Joining to a rooted path with a slash at its end. -/
theorem join_rooted_slash {ps : List Str} (hp : ∀ p ∈ ps, PlainName p) {e : Str} (he : (47 : UInt8) ∉ e) :
    joinPath (b!"/" ++ joinWith 47 ps ++ b!"/") e = b!"/" ++ joinWith 47 (pushName ps e) := by
  rw [← join_rooted hp he]
  unfold joinPath
  rw [if_pos (by simp), if_pos (by simp)]
  show cleanPath (47 :: (joinWith 47 ps ++ [47] ++ 47 :: e)) = cleanPath (47 :: (joinWith 47 ps ++ 47 :: e))
  unfold cleanPath
  simp only [decide_true, if_true]
  have h1 : ∀ r : Str, splitOn 47 (47 :: r) = [] :: splitOn 47 r := fun _ => rfl
  rw [h1, h1, splitOn_append_sep, splitOn_append_sep, splitOn_append_sep]
  have h2 : splitOn 47 [] = [[]] := rfl
  rw [h2, List.foldl_cons, List.foldl_cons, List.foldl_append, List.foldl_append, List.foldl_append]
  have h3 : ∀ st, [([] : Str)].foldl (cleanStep true) st = st := fun st => by
    rw [List.foldl_cons, List.foldl_nil]
    unfold cleanStep
    rw [if_pos (.inl rfl)]
  rw [h3]

theorem takeWhile_host {p : UInt8 → Bool} {a b : Str} (ha : ∀ c ∈ a, p c = true) (hb : b = [] ∨ ∃ r, b = 47 :: r ∧ p 47 = false) :
    (a ++ b).takeWhile p = a ∧ (a ++ b).dropWhile p = b := by
  rw [List.takeWhile_append_of_pos ha, List.dropWhile_append_of_pos ha]
  rcases hb with rfl | ⟨r, rfl, h⟩
  · simp
  · simp [h]

theorem dropWhile_all {p : UInt8 → Bool} {a b : Str} (ha : ∀ c ∈ a, p c = true) : (a ++ b).dropWhile p = b.dropWhile p := List.dropWhile_append_of_pos ha

/-! ### Scheme, user, host and port -/

theorem cutLast_none {b : UInt8} {s : Str} (h : b ∉ s) : cutLast b s = none := by
  induction s with
  | nil => rfl
  | cons c r ih =>
    simp only [List.mem_cons, not_or] at h
    rw [cutLast, ih h.2]
    simp [Ne.symm h.1]

theorem cutLast_some {b : UInt8} {x y : Str} (h : b ∉ y) : cutLast b (x ++ b :: y) = some (x, y) := by
  induction x with
  | nil =>
    rw [List.nil_append, cutLast, cutLast_none h]
    simp
  | cons c x ih => rw [List.cons_append, cutLast, ih]

theorem cutZone_none {s : Str} (h : (37 : UInt8) ∉ s) : cutZone s = none := by
  induction s with
  | nil => rfl
  | cons c r ih =>
    simp only [List.mem_cons, not_or] at h
    rw [cutZone, ih h.2, if_neg]
    · rfl
    · simp [List.isPrefixOf, h.1]

theorem cutZone_some {x : Str} (h : (37 : UInt8) ∉ x) (y : Str) : cutZone (x ++ (b!"%25" ++ y)) = some (x, b!"%25" ++ y) := by
  induction x with
  | nil => rfl
  | cons c x ih =>
    simp only [List.mem_cons, not_or] at h
    rw [List.cons_append, cutZone, ih h.2, if_neg]
    · rfl
    · simp [List.isPrefixOf, h.1]

theorem cutByte_some {b : UInt8} {x : Str} (h : b ∉ x) (y : Str) : cutByte b (x ++ b :: y) = (x, y) := by
  induction x with
  | nil => simp [cutByte]
  | cons c x ih =>
    simp only [List.mem_cons, not_or] at h
    rw [List.cons_append, cutByte, ih h.2, if_neg (Ne.symm h.1)]

theorem escapeBy_kept {keeps : UInt8 → Bool} {s : Str} (h : ∀ c ∈ s, keeps c = true) : escapeBy keeps s = s := by
  induction s with
  | nil => rfl
  | cons c r ih => rw [escapeBy, if_pos (h c (.head _)), ih (fun d hd => h d (.tail _ hd))]

theorem escapeBy_nil {keeps : UInt8 → Bool} {s : Str} (h : escapeBy keeps s = []) : s = [] := by
  cases s with
  | nil => rfl
  | cons c r => rw [escapeBy] at h; split at h <;> cases h

theorem escapeBy_append (keeps : UInt8 → Bool) (a b : Str) : escapeBy keeps (a ++ b) = escapeBy keeps a ++ escapeBy keeps b := by
  induction a with
  | nil => rfl
  | cons c a ih =>
    rw [List.cons_append, escapeBy, escapeBy, ih]
    split <;> rfl

theorem unescapeHost_kept {zone : Bool} {s : Str} (h : ∀ c ∈ s, hostKeeps c = true) : unescapeHost zone s = some s := by
  induction s with
  | nil => rw [unescapeHost]
  | cons c r ih =>
    have hc := h c (.head _)
    have hne : c ≠ 37 := by rintro rfl; revert hc; decide
    have ih := ih (fun d hd => h d (.tail _ hd))
    match r, ih with
    | [], ih => rw [unescapeHost, ih] <;> simp [hne, hc]
    | [a], ih => rw [unescapeHost, ih] <;> simp [hne, hc]
    | a :: b :: r, ih => rw [unescapeHost, ih]; simp [hne, hc]

theorem nameByte_facts (c : UInt8) (h : unreserved c = true ∨ c ∈ b!"!$&'()*+,;=") : hostKeeps c = true ∧ c ≠ 58 ∧ c ≠ 64 ∧ c ≠ 91 := by
  revert h
  refine forall_byte (P := fun c => unreserved c = true ∨ c ∈ b!"!$&'()*+,;=" → hostKeeps c = true ∧ c ≠ 58 ∧ c ≠ 64 ∧ c ≠ 91) ?_ c
  decide +kernel

theorem addressByte_facts (c : UInt8) (h : EscDigit c ∨ c = 58 ∨ c = 46) : hostKeeps c = true ∧ c ≠ 64 ∧ c ≠ 93 ∧ c ≠ 37 := by
  revert h
  refine forall_byte (P := fun c => EscDigit c ∨ c = 58 ∨ c = 46 → hostKeeps c = true ∧ c ≠ 64 ∧ c ≠ 93 ∧ c ≠ 37) ?_ c
  decide +kernel

theorem zoneByte_facts (c : UInt8) (h : unreserved c = true) : hostKeeps c = true ∧ c ≠ 64 ∧ c ≠ 93 := by
  revert h
  refine forall_byte (P := fun c => unreserved c = true → hostKeeps c = true ∧ c ≠ 64 ∧ c ≠ 93) ?_ c
  decide +kernel

theorem digitByte_facts (c : UInt8) (h : 48 ≤ c.toNat ∧ c.toNat ≤ 57) : hostKeeps c = true ∧ c ≠ 64 ∧ c ≠ 93 ∧ c ≠ 58 := by
  revert h
  refine forall_byte (P := fun c => 48 ≤ c.toNat ∧ c.toNat ≤ 57 → hostKeeps c = true ∧ c ≠ 64 ∧ c ≠ 93 ∧ c ≠ 58) ?_ c
  decide +kernel

theorem userByte_facts (c : UInt8) (h : unreserved c = true ∨ c ∈ b!"$&+,;=") : userKeeps c = true ∧ c ≠ 58 ∧ c ≠ 64 ∧ c ≠ 37 ∧
    c ≠ 47 ∧ c ≠ 35 ∧ c ≠ 63 ∧ 32 ≤ c.toNat ∧ c ≠ 127 ∧ validUserinfo [c] = true := by
  revert h
  refine forall_byte (P := fun c => unreserved c = true ∨ c ∈ b!"$&+,;=" → userKeeps c = true ∧ c ≠ 58 ∧ c ≠ 64 ∧ c ≠ 37 ∧
    c ≠ 47 ∧ c ≠ 35 ∧ c ≠ 63 ∧ 32 ≤ c.toNat ∧ c ≠ 127 ∧ validUserinfo [c] = true) ?_ c
  decide +kernel

theorem hostKeeps_facts (c : UInt8) (h : hostKeeps c = true) : c ≠ 47 ∧ c ≠ 35 ∧ c ≠ 63 ∧ 32 ≤ c.toNat ∧ c ≠ 127 := by
  revert h
  refine forall_byte (P := fun c => hostKeeps c = true → c ≠ 47 ∧ c ≠ 35 ∧ c ≠ 63 ∧ 32 ≤ c.toNat ∧ c ≠ 127) ?_ c
  decide +kernel

theorem port_valid {p : Str} (hp : PortText p) : validOptionalPort p = true ∧ ∀ c ∈ p, hostKeeps c = true ∧ c ≠ 64 ∧ c ≠ 93 := by
  cases hp with
  | none => exact ⟨rfl, by simp⟩
  | @some d hd =>
    refine ⟨?_, ?_⟩
    · show validOptionalPort (58 :: d) = true
      rw [validOptionalPort]
      simp only [Bool.and_eq_true, beq_iff_eq, true_and, List.all_eq_true, decide_eq_true_eq]
      exact hd
    · intro c hc
      rcases List.mem_append.1 hc with hc | hc
      · rw [List.mem_singleton] at hc; subst hc; decide
      · obtain ⟨h1, h2, h3, _⟩ := digitByte_facts c (hd c hc)
        exact ⟨h1, h2, h3⟩

/-- A host with its port is read and written as it is. -/
theorem host_round {host port : Str} (hh : HostName host) (hp : PortText port) :
    ∃ h, parseHost (host ++ port) = some h ∧ escapeBy hostKeeps h = host ++ port ∧ h ≠ [] := by
  obtain ⟨hv, hb⟩ := port_valid hp
  cases hh with
  | name hn hu =>
    have hf := fun c hc => nameByte_facts c (hu c hc)
    have hall : ∀ c ∈ host ++ port, hostKeeps c = true := fun c hc => (List.mem_append.1 hc).elim (fun hc => (hf c hc).1) (fun hc => (hb c hc).1)
    have hbr : (b!"[").isPrefixOf (host ++ port) = false := by
      cases host with
      | nil => exact absurd rfl hn
      | cons c r => simp [List.isPrefixOf, Ne.symm (hf c (.head _)).2.2.2]
    refine ⟨host ++ port, ?_, escapeBy_kept hall, by simp [hn]⟩
    unfold parseHost
    rw [hbr]
    simp only [Bool.false_eq_true, if_false]
    cases hp with
    | none =>
      rw [List.append_nil, cutLast_none (fun hm => (hf 58 hm).2.1 rfl)]
      dsimp only
      exact unescapeHost_kept (by simpa using hall)
    | @some d hd =>
      have : (58 : UInt8) ∉ d := fun hm => (digitByte_facts 58 (hd 58 hm)).2.2.2 rfl
      rw [show host ++ (b!":" ++ d) = host ++ 58 :: d from rfl, cutLast_some this]
      dsimp only
      rw [if_pos (show validOptionalPort (58 :: d) = true from hv)]
      exact unescapeHost_kept hall
  | @address a ha =>
    have hf := fun c hc => addressByte_facts c (ha c hc)
    have hall : ∀ c ∈ b!"[" ++ a ++ b!"]" ++ port, hostKeeps c = true := by
      intro c hc
      simp only [List.mem_append, List.mem_singleton] at hc
      rcases hc with ((rfl | hc) | rfl) | hc
      · decide
      · exact (hf c hc).1
      · decide
      · exact (hb c hc).1
    refine ⟨_, ?_, escapeBy_kept hall, by simp⟩
    unfold parseHost
    rw [if_pos (by simp [List.isPrefixOf])]
    rw [show b!"[" ++ a ++ b!"]" ++ port = (91 :: a) ++ 93 :: port by simp, cutLast_some (fun hm => (hb 93 hm).2.2 rfl)]
    dsimp only
    rw [if_pos hv, cutZone_none (by
      simp only [List.mem_cons, not_or]
      exact ⟨by decide, fun hm => (hf 37 hm).2.2.2 rfl⟩)]
    dsimp only
    rw [show (91 :: a) ++ 93 :: port = b!"[" ++ a ++ b!"]" ++ port by simp]
    exact unescapeHost_kept hall
  | @zoned a z ha hz =>
    have hf := fun c hc => addressByte_facts c (ha c hc)
    have hg := fun c hc => zoneByte_facts c (hz c hc)
    have h1 : ∀ c ∈ 91 :: a, hostKeeps c = true := by
      intro c hc
      rcases List.mem_cons.1 hc with rfl | hc
      · decide
      · exact (hf c hc).1
    have h2 : ∀ c ∈ 93 :: port, hostKeeps c = true := by
      intro c hc
      rcases List.mem_cons.1 hc with rfl | hc
      · decide
      · exact (hb c hc).1
    have h3 : unescapeHost true (b!"%25" ++ z) = some (37 :: z) := by
      show unescapeHost true (37 :: 50 :: 53 :: z) = _
      rw [unescapeHost, unescapeHost_kept (fun c hc => (hg c hc).1)]
      rfl
    refine ⟨(91 :: a) ++ (37 :: z) ++ 93 :: port, ?_, ?_, by simp⟩
    · unfold parseHost
      rw [if_pos (by simp [List.isPrefixOf])]
      rw [show b!"[" ++ a ++ b!"%25" ++ z ++ b!"]" ++ port = ((91 :: a) ++ (b!"%25" ++ z)) ++ 93 :: port by simp, cutLast_some (fun hm => (hb 93 hm).2.2 rfl)]
      dsimp only
      rw [if_pos hv, cutZone_some (by
        simp only [List.mem_cons, not_or]
        exact ⟨by decide, fun hm => (hf 37 hm).2.2.2 rfl⟩)]
      dsimp only
      rw [unescapeHost_kept h1, h3, unescapeHost_kept h2]
      rfl
    · rw [escapeBy_append, escapeBy_append, escapeBy_kept h1, escapeBy_kept h2]
      have : escapeBy hostKeeps (37 :: z) = b!"%25" ++ z := by
        rw [escapeBy, escapeBy_kept (fun c hc => (hg c hc).1)]
        rfl
      rw [this]
      simp

theorem host_bytes {host port : Str} (hh : HostName host) (hp : PortText port) : ∀ c ∈ host ++ port, c ≠ 64 ∧ c ≠ 47 ∧ c ≠ 35 ∧ c ≠ 63 ∧ 32 ≤ c.toNat ∧ c ≠ 127 := by
  intro c hc
  rcases List.mem_append.1 hc with hc | hc
  · cases hh with
    | name _ hu =>
      have := nameByte_facts c (hu c hc)
      exact ⟨this.2.2.1, hostKeeps_facts c this.1⟩
    | @address a ha =>
      simp only [List.mem_append, List.mem_singleton] at hc
      rcases hc with (rfl | hc) | rfl
      · decide
      · have := addressByte_facts c (ha c hc)
        exact ⟨this.2.1, hostKeeps_facts c this.1⟩
      · decide
    | @zoned a z ha hz =>
      simp only [List.mem_append, List.mem_singleton] at hc
      rcases hc with (((rfl | hc) | hc) | hc) | rfl
      · decide
      · have := addressByte_facts c (ha c hc)
        exact ⟨this.2.1, hostKeeps_facts c this.1⟩
      · simp only [List.mem_cons, List.not_mem_nil, or_false] at hc
        rcases hc with rfl | rfl | rfl <;> decide
      · have := zoneByte_facts c (hz c hc)
        exact ⟨this.2.1, hostKeeps_facts c this.1⟩
      · decide
  · have := (port_valid hp).2 c hc
    exact ⟨this.2.1, hostKeeps_facts c this.1⟩

theorem validUserinfo_append {a b : Str} (ha : validUserinfo a = true) (hb : validUserinfo b = true) : validUserinfo (a ++ b) = true := by
  unfold validUserinfo at *
  rw [List.all_append, ha, hb]
  rfl

theorem validUserinfo_plain {u : Str} (hu : ∀ c ∈ u, unreserved c = true ∨ c ∈ b!"$&+,;=") : validUserinfo u = true := by
  unfold validUserinfo
  rw [List.all_eq_true]
  intro c hc
  have := (userByte_facts c (hu c hc)).2.2.2.2.2.2.2.2.2
  unfold validUserinfo at this
  simpa only [List.all_cons, List.all_nil, Bool.and_true] using this

/-- The part of a URL about the user as it is written. -/
def userText : Option User → Str
  | some user => user.string ++ b!"@"
  | none => []

/-- User, host and port are read and written as they are. -/
theorem authority_round {user host port : Str} (hu : UserText user) (hh : HostName host) (hp : PortText port) :
    ∃ us h, parseAuthority (user ++ host ++ port) = some (us, h) ∧ userText us ++ escapeBy hostKeeps h = user ++ host ++ port ∧ h ≠ [] := by
  obtain ⟨h, h1, h2, h3⟩ := host_round hh hp
  have h64 : (64 : UInt8) ∉ host ++ port := fun hm => (host_bytes hh hp 64 hm).1 rfl
  cases hu with
  | none =>
    refine ⟨none, h, ?_, h2, h3⟩
    unfold parseAuthority
    rw [List.nil_append, cutLast_none h64]
    dsimp only
    rw [h1]
    rfl
  | @user u hu =>
    have hf := fun c hc => userByte_facts c (hu c hc)
    refine ⟨some ⟨u, none⟩, h, ?_, ?_, h3⟩
    · unfold parseAuthority
      rw [show u ++ b!"@" ++ host ++ port = u ++ 64 :: (host ++ port) by simp, cutLast_some h64]
      dsimp only
      rw [h1]
      have : parseUser u = some ⟨u, none⟩ := by
        unfold parseUser
        rw [validUserinfo_plain hu]
        simp only [Bool.true_eq_false, if_false]
        rw [if_neg (fun hm => (hf 58 hm).2.1 rfl), unescapePath_plain (fun hm => (hf 37 hm).2.2.2.1 rfl)]
        rfl
      simp only [Option.bind_some, this, Option.map_some]
    · rw [h2]
      show escapeBy userKeeps u ++ [] ++ b!"@" ++ (host ++ port) = _
      rw [escapeBy_kept (fun c hc => (hf c hc).1)]
      simp
  | @password u p hu hpw =>
    have hf := fun c hc => userByte_facts c (hu c hc)
    have hg := fun c hc => userByte_facts c (hpw c hc)
    refine ⟨some ⟨u, some p⟩, h, ?_, ?_, h3⟩
    · unfold parseAuthority
      rw [show u ++ b!":" ++ p ++ b!"@" ++ host ++ port = (u ++ 58 :: p) ++ 64 :: (host ++ port) by simp, cutLast_some h64]
      dsimp only
      rw [h1]
      have : parseUser (u ++ 58 :: p) = some ⟨u, some p⟩ := by
        unfold parseUser
        have hv : validUserinfo (u ++ 58 :: p) = true := validUserinfo_append (validUserinfo_plain hu) (validUserinfo_append (a := b!":") (by decide) (validUserinfo_plain hpw))
        rw [hv]
        simp only [Bool.true_eq_false, if_false]
        rw [if_pos (by simp), cutByte_some (fun hm => (hf 58 hm).2.1 rfl)]
        dsimp only
        rw [unescapePath_plain (fun hm => (hf 37 hm).2.2.2.1 rfl), unescapePath_plain (fun hm => (hg 37 hm).2.2.2.1 rfl)]
      simp only [Option.bind_some, this, Option.map_some]
    · rw [h2]
      show escapeBy userKeeps u ++ (58 :: escapeBy userKeeps p) ++ b!"@" ++ (host ++ port) = _
      rw [escapeBy_kept (fun c hc => (hf c hc).1), escapeBy_kept (fun c hc => (hg c hc).1)]
      simp

theorem authority_bytes {user host port : Str} (hu : UserText user) (hh : HostName host) (hp : PortText port) :
    ∀ c ∈ user ++ host ++ port, c ≠ 47 ∧ c ≠ 35 ∧ c ≠ 63 ∧ 32 ≤ c.toNat ∧ c ≠ 127 := by
  intro c hc
  rw [List.append_assoc] at hc
  rcases List.mem_append.1 hc with hc | hc
  · have key : ∀ u : Str, (∀ c ∈ u, unreserved c = true ∨ c ∈ b!"$&+,;=") → c ∈ u → c ≠ 47 ∧ c ≠ 35 ∧ c ≠ 63 ∧ 32 ≤ c.toNat ∧ c ≠ 127 := by
      intro u hu hc
      obtain ⟨_, _, _, _, h1, h2, h3, h4, h5, _⟩ := userByte_facts c (hu c hc)
      exact ⟨h1, h2, h3, h4, h5⟩
    cases hu with
    | none => cases hc
    | user hu =>
      rcases List.mem_append.1 hc with hc | hc
      · exact key _ hu hc
      · rw [List.mem_singleton] at hc; subst hc; decide
    | password hu hpw =>
      simp only [List.mem_append, List.mem_singleton] at hc
      rcases hc with ((hc | rfl) | hc) | rfl
      · exact key _ hu hc
      · decide
      · exact key _ hpw hc
      · decide
  · exact (host_bytes hh hp c hc).2

theorem schemeByte_facts (c : UInt8) (h : (97 ≤ c.toNat ∧ c.toNat ≤ 122) ∨ (48 ≤ c.toNat ∧ c.toNat ≤ 57) ∨ c ∈ b!"+-.") :
    (isLetter c || schemeLater c) = true ∧ lowerAscii c = c ∧ c ≠ 35 ∧ c ≠ 63 ∧ 32 ≤ c.toNat ∧ c ≠ 127 := by
  revert h
  refine forall_byte (P := fun c => (97 ≤ c.toNat ∧ c.toNat ≤ 122) ∨ (48 ≤ c.toNat ∧ c.toNat ≤ 57) ∨ c ∈ b!"+-." →
    (isLetter c || schemeLater c) = true ∧ lowerAscii c = c ∧ c ≠ 35 ∧ c ≠ 63 ∧ 32 ≤ c.toNat ∧ c ≠ 127) ?_ c
  decide +kernel

theorem scheme_read {scheme : Str} (hs : SchemeText scheme) (rest : Str) : getScheme (scheme ++ 58 :: rest) = some (scheme, rest) := by
  obtain ⟨hc, hr⟩ := hs
  rename_i c r
  have key : ∀ r : Str, (∀ d ∈ r, (97 ≤ d.toNat ∧ d.toNat ≤ 122) ∨ (48 ≤ d.toNat ∧ d.toNat ≤ 57) ∨ d ∈ b!"+-.") → schemeRest (r ++ 58 :: rest) = some (r, rest) := by
    intro r
    induction r with
    | nil =>
      intro _
      rw [List.nil_append, schemeRest, if_neg (by decide), if_pos rfl]
    | cons d r ih =>
      intro hr
      rw [List.cons_append, schemeRest, if_pos (schemeByte_facts d (hr d (.head _))).1, ih (fun e he => hr e (.tail _ he))]
      rfl
  rw [List.cons_append]
  unfold getScheme
  dsimp only
  rw [if_neg (by rintro rfl; revert hc; decide), if_pos (by unfold isLetter; simp only [Bool.or_eq_true, Bool.and_eq_true, decide_eq_true_eq]; exact .inr hc), key r hr]

theorem scheme_bytes {scheme : Str} (hs : SchemeText scheme) : scheme ≠ [] ∧ scheme.map lowerAscii = scheme ∧ ∀ c ∈ scheme, c ≠ 35 ∧ c ≠ 63 ∧ 32 ≤ c.toNat ∧ c ≠ 127 := by
  obtain ⟨hc, hr⟩ := hs
  rename_i c r
  have hf : ∀ d ∈ c :: r, _ := fun d hd => schemeByte_facts d ((List.mem_cons.1 hd).elim (fun h => .inl (h ▸ hc)) (hr d))
  refine ⟨by simp, ?_, fun d hd => (hf d hd).2.2⟩
  have : ∀ l : Str, (∀ d ∈ l, lowerAscii d = d) → l.map lowerAscii = l := by
    intro l
    induction l with
    | nil => intro _; rfl
    | cons d l ih => intro h; rw [List.map_cons, h d (.head _), ih (fun e he => h e (.tail _ he))]
  exact this _ (fun d hd => (hf d hd).2.1)

/-- A URL of a server with a plain path. -/
theorem parse_url {server tail : Str} (hs : ServerText server) (ht : OkPath tail) (ht' : tail = [] ∨ ∃ r, tail = 47 :: r) :
    ∃ u, parseUrl (server ++ tail) = some u ∧ u.escapedPath = tail ∧ u.scheme ++ b!"://" ++ (userText u.user ++ escapeBy hostKeeps u.host) = server ∧ u.scheme ≠ [] ∧ u.host ≠ [] ∧
      u.opaque = [] ∧ u.forceQuery = false ∧ u.rawQuery = [] ∧ u.fragment = [] := by
  obtain ⟨hs, hu, hh, hp⟩ := hs
  rename_i scheme user host port
  obtain ⟨us, h, a1, a2, a3⟩ := authority_round hu hh hp
  have hab := authority_bytes hu hh hp
  generalize user ++ host ++ port = auth at a1 a2 hab
  obtain ⟨s1, s2, s3⟩ := scheme_bytes hs
  have hb := fun c hc => okByte_facts (ht.bytes c hc)
  have hset : ∃ u, ({ scheme := scheme, user := us, host := h } : Url).setPath tail = some u := by
    obtain ⟨q, hq⟩ := Option.isSome_iff_exists.1 ht.escapes
    unfold Url.setPath
    rw [hq]
    exact ⟨_, rfl⟩
  obtain ⟨u, hu⟩ := hset
  obtain ⟨e1, e2, e3, e4, _, e6, e7, e8, e9, _⟩ := escaped_set hu (fun c hc => (hb c hc).1) (by rcases ht' with rfl | ⟨r, rfl⟩ <;> (intro h; cases h))
  refine ⟨u, ?_, e1, by rw [e2, e3, e8, a2], by rw [e2]; exact s1, by rw [e3]; exact a3, e4, e6, e7, e9⟩
  have hall : ∀ c ∈ scheme ++ b!"://" ++ auth ++ tail, c ≠ 35 ∧ c ≠ 63 ∧ 32 ≤ c.toNat ∧ c ≠ 127 := by
    intro c hc
    rcases List.mem_append.1 hc with hc | hc
    · rcases List.mem_append.1 hc with hc | hc
      · rcases List.mem_append.1 hc with hc | hc
        · exact s3 c hc
        · simp only [List.mem_cons, List.not_mem_nil, or_false] at hc
          rcases hc with rfl | rfl | rfl <;> decide
      · exact (hab c hc).2
    · exact ⟨(hb c hc).2.2.1, (hb c hc).2.2.2.1, (hb c hc).2.2.2.2.1, (hb c hc).2.2.2.2.2.1⟩
  rw [parse_noFragment (fun hm => (hall 35 hm).1 rfl)]
  unfold parseNoFragment
  rw [if_neg, if_neg, show scheme ++ b!"://" ++ auth ++ tail = scheme ++ 58 :: (b!"//" ++ auth ++ tail) by simp, scheme_read hs]
  · simp only [s2]
    unfold splitQuery
    have hq : (63 : UInt8) ∉ b!"//" ++ auth ++ tail := by
      intro hm
      refine (hall 63 ?_).2.1 rfl
      rw [show scheme ++ b!"://" ++ auth ++ tail = scheme ++ 58 :: (b!"//" ++ auth ++ tail) by simp]
      exact List.mem_append_right _ (.tail _ hm)
    rw [cutByte_none hq]
    simp only [hq, and_false, if_false]
    unfold parseRest
    have p1 : (b!"/").isPrefixOf (b!"//" ++ auth ++ tail) = true := rfl
    have p2 : (b!"//").isPrefixOf (b!"//" ++ auth ++ tail) = true := rfl
    have p3 : (b!"//" ++ auth ++ tail).drop 2 = auth ++ tail := rfl
    have p4 := takeWhile_host (p := fun c => decide (c ≠ 47)) (a := auth) (b := tail) (fun c hc => by simpa using (hab c hc).1)
      (ht'.imp id fun ⟨r, h⟩ => ⟨r, h, by decide⟩)
    rw [p1, p2, p3, p4.1, p4.2, a1]
    simp only [Bool.true_eq_false, false_and, if_false, s1, ne_eq, not_false_eq_true, true_or, and_self, if_true]
    exact hu
  · intro he
    have := congrArg List.length he
    simp at this
    cases scheme with
    | nil => exact s1 rfl
    | cons c r => simp at this; omega
  · rw [Bool.not_eq_true, List.any_eq_false]
    intro c hc
    obtain ⟨_, _, h6, h7⟩ := hall c hc
    simp only [Bool.or_eq_true, decide_eq_true_eq, beq_iff_eq, not_or, Nat.not_lt]
    exact ⟨h6, h7⟩

/-- The text of a URL with scheme and host. -/
theorem string_url {u : Url} {p : Str} (he : u.escapedPath = p) (h1 : u.scheme ≠ []) (h2 : u.host ≠ []) (h3 : u.opaque = []) (h4 : u.forceQuery = false) (h5 : u.rawQuery = [])
    (h6 : u.fragment = []) (hp : p ≠ []) :
    u.string = u.scheme ++ b!"://" ++ (userText u.user ++ escapeBy hostKeeps u.host) ++ (if (b!"/").isPrefixOf p then p else b!"/" ++ p) := by
  unfold Url.string Url.pathText Url.prefix
  rw [he, h3, h4, h5, h6]
  cases hu : u.user <;> simp only [userText, h1, h2, hp, ne_eq, not_true_eq_false, if_false, not_false_eq_true, if_true, true_or, and_false, false_and, and_self, and_true, true_and, Bool.false_eq_true, or_self, List.append_nil]
  all_goals cases hq : (b!"/").isPrefixOf p <;> simp

/-- `url.JoinPath` of a repository URL and a plain name. -/
theorem join_url {base norm e : Str} (hr : RepoURL base norm) (he : DirName e) : urlJoinPath base e = some (norm ++ b!"/" ++ e) := by
  have hes : (47 : UInt8) ∉ e := he.plain.noSlash
  have hpush : ∀ ps, pushName ps e = ps ++ [e] := fun ps => by
    unfold pushName
    rw [if_neg (by rintro (h | h); exact he.nonempty h; exact he.notDot h), if_neg he.notDotDot]
  have key : ∀ server tail p : Str, ServerText server → (OkPath tail) → (tail = [] ∨ ∃ r, tail = 47 :: r) →
      (if (b!"/").isPrefixOf tail then joinPath tail e else (joinPath (b!"/" ++ tail) e).drop 1) = p → OkPath p → p ≠ [] → p ≠ b!"%2A" →
      urlJoinPath (server ++ tail) e = some (server ++ (if (b!"/").isPrefixOf p then p else b!"/" ++ p)) := by
    intro server tail p hs ht ht' hj hpb hpn hst
    obtain ⟨u, hu, f1, f2, f3, f4, f5, f6, f7, f8⟩ := parse_url hs ht ht'
    unfold urlJoinPath
    rw [hu]
    simp only [Option.map_some, Option.some.injEq]
    unfold Url.joinPath
    rw [f1]
    simp only [slash_suffix hes, Bool.false_eq_true, false_and, if_false]
    rw [hj]
    have hset : ∃ u', u.setPath p = some u' := by
      obtain ⟨q, hq⟩ := Option.isSome_iff_exists.1 hpb.escapes
      unfold Url.setPath
      rw [hq]
      exact ⟨_, rfl⟩
    obtain ⟨u', hu⟩ := hset
    obtain ⟨e1, e2, e3, e4, _, e6, e7, e8, e9, _⟩ := escaped_set hu (fun c hc => (okByte_facts (hpb.bytes c hc)).1) hst
    rw [hu]
    show u'.string = _
    rw [string_url e1 (by rw [e2]; exact f3) (by rw [e3]; exact f4) (e4.trans f5) (e6.trans f6) (e7.trans f7) (e9.trans f8) hpn, e2, e3, e8, f2]
  have hebytes := he.ok
  have hslash := okPath_slash
  have hst : ∀ r : Str, b!"/" ++ r ≠ b!"%2A" := fun r h => by cases h
  have hj0 := join_rooted (ps := []) (by simp) hes
  rw [hpush] at hj0
  cases hr with
  | bare hs =>
    have := key _ [] e hs okPath_nil (.inl rfl) (by
      rw [if_neg (by decide)]
      exact (congrArg (List.drop 1) hj0).trans rfl) hebytes he.nonempty he.notStar
    rw [List.append_nil] at this
    rw [this]
    have : (b!"/").isPrefixOf e = false := by
      match e, hes with
      | [], _ => rfl
      | c :: r, h =>
        simp only [List.mem_cons, not_or] at h
        simp [List.isPrefixOf, h.1]
    rw [this]
    simp
  | bareSlash hs =>
    have := key _ b!"/" (b!"/" ++ e) hs hslash (.inr ⟨[], rfl⟩) (by
      rw [if_pos (by decide)]
      exact hj0) (hslash.append hebytes) (by simp) (hst _)
    rw [this]
    simp [List.isPrefixOf]
  | @path server ps hs hne hp =>
    have hpl : ∀ p ∈ ps, PlainName p := fun p h => (hp p h).plain
    rw [slashed_eq]
    have hj := join_rooted hpl hes
    rw [hpush, joinWith_append_one _ _ hne] at hj
    have := key server (b!"/" ++ joinWith 47 ps) _ hs (hslash.append (dir_ok hp)) (.inr ⟨_, rfl⟩) (by
      rw [if_pos (by simp [List.isPrefixOf])]
      exact hj) (hslash.append ((dir_ok hp).append (hslash.append hebytes))) (by simp) (hst _)
    rw [← List.append_assoc] at this
    rw [this]
    simp [List.isPrefixOf]
  | @pathSlash server ps hs hne hp =>
    have hpl : ∀ p ∈ ps, PlainName p := fun p h => (hp p h).plain
    rw [slashed_eq]
    have hj := join_rooted_slash hpl hes
    rw [hpush, joinWith_append_one _ _ hne] at hj
    have := key server (b!"/" ++ joinWith 47 ps ++ b!"/") _ hs ((hslash.append (dir_ok hp)).append hslash) (.inr ⟨_, rfl⟩) (by
      rw [if_pos (by simp [List.isPrefixOf])]
      exact hj) (hslash.append ((dir_ok hp).append (hslash.append hebytes))) (by simp) (hst _)
    simp only [← List.append_assoc] at this ⊢
    rw [this]
    simp [List.isPrefixOf]
end Tuf
