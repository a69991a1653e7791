import Verif.Proofs.Std.Url
import Verif.Spec.Std.UrlTail

/-! # `url.JoinPath` of URLs with a query or a fragment -/

namespace Tuf.Std
open Tuf Tuf.Spec

/-- A URL with another query and fragment. -/
def Url.tail (u : Url) (force : Bool) (query fragment raw : Str) : Url :=
  { u with forceQuery := force, rawQuery := query, fragment := fragment, rawFragment := raw }

theorem setPath_tail (u : Url) (force : Bool) (q f rf p : Str) : (u.tail force q f rf).setPath p = (u.setPath p).map (fun u => u.tail force q f rf) := by
  unfold Url.setPath
  cases unescapePath p <;> rfl

theorem parseRest_tail (u : Url) (force : Bool) (q f rf rest : Str) : parseRest (u.tail force q f rf) rest = (parseRest u rest).map (fun u => u.tail force q f rf) := by
  unfold parseRest
  have hs : (u.tail force q f rf).scheme = u.scheme := rfl
  rw [hs]
  by_cases h1 : (b!"/").isPrefixOf rest = false ∧ u.scheme ≠ []
  · rw [if_pos h1, if_pos h1]; rfl
  · rw [if_neg h1, if_neg h1]
    by_cases h2 : (b!"/").isPrefixOf rest = false ∧ (58 : UInt8) ∈ (cutByte 47 rest).1
    · rw [if_pos h2, if_pos h2]; rfl
    · rw [if_neg h2, if_neg h2]
      by_cases h3 : (u.scheme ≠ [] ∨ (b!"///").isPrefixOf rest = false) ∧ (b!"//").isPrefixOf rest = true
      · rw [if_pos h3, if_pos h3]
        cases parseAuthority ((rest.drop 2).takeWhile (fun c => c ≠ 47)) with
        | none => rfl
        | some p => exact setPath_tail { u with user := p.1, host := p.2 } force q f rf _
      · rw [if_neg h3, if_neg h3]
        by_cases h4 : u.scheme ≠ []
        · rw [if_pos h4, if_pos h4]
          exact setPath_tail { u with omitHost := true } force q f rf _
        · rw [if_neg h4, if_neg h4]
          exact setPath_tail u force q f rf _

theorem joinPath_tail (u : Url) (force : Bool) (q f rf e : Str) : (u.tail force q f rf).joinPath e = (u.joinPath e).tail force q f rf := by
  unfold Url.joinPath
  show (((u.tail force q f rf).setPath _).getD (u.tail force q f rf)) = _
  rw [setPath_tail]
  have : (u.tail force q f rf).escapedPath = u.escapedPath := rfl
  rw [this]
  dsimp only
  cases u.setPath _ <;> rfl

theorem joinPath_same (u : Url) (e : Str) : (u.joinPath e).forceQuery = u.forceQuery ∧ (u.joinPath e).rawQuery = u.rawQuery ∧ (u.joinPath e).fragment = u.fragment := by
  have key : ∀ p, ((u.setPath p).getD u).forceQuery = u.forceQuery ∧ ((u.setPath p).getD u).rawQuery = u.rawQuery ∧ ((u.setPath p).getD u).fragment = u.fragment := by
    intro p
    unfold Url.setPath
    cases unescapePath p <;> exact ⟨rfl, rfl, rfl⟩
  exact key _

theorem string_tail {u : Url} (h1 : u.forceQuery = false) (h2 : u.rawQuery = []) (h3 : u.fragment = []) (force : Bool) (q f rf : Str) :
    (u.tail force q f rf).string = u.string ++ ((if force = true ∨ q ≠ [] then b!"?" ++ q else []) ++ (if f ≠ [] then b!"#" ++ (u.tail force q f rf).escapedFragment else [])) := by
  unfold Url.string
  rw [h1, h2, h3]
  show (if u.opaque ≠ [] then u.scheme ++ b!":" ++ u.opaque else u.prefix ++ u.pathText u.prefix) ++ (if force = true ∨ q ≠ [] then b!"?" ++ q else []) ++
    (if f ≠ [] then b!"#" ++ (u.tail force q f rf).escapedFragment else []) = _
  simp [List.append_assoc]

/-- Bytes before the query: no `?`, `#` or control character. -/
def Clean (s : Str) : Prop := ∀ c ∈ s, c ≠ 35 ∧ c ≠ 63 ∧ 32 ≤ c.toNat ∧ c ≠ 127

theorem clean_any {s t : Str} (h : Clean s) (ht : ∀ c ∈ t, 32 ≤ c.toNat ∧ c ≠ 127) : (s ++ t).any (fun c => c.toNat < 32 || c == 127) = false := by
  rw [List.any_eq_false]
  intro c hc
  have : 32 ≤ c.toNat ∧ c ≠ 127 := by
    rcases List.mem_append.1 hc with hc | hc
    · exact (h c hc).2.2
    · exact ht c hc
  simp only [Bool.or_eq_true, decide_eq_true_eq, beq_iff_eq, not_or, Nat.not_lt]
  exact this

theorem not_star {scheme : Str} (hs : SchemeText scheme) (rest : Str) : scheme ++ 58 :: rest ≠ b!"*" := by
  intro he
  obtain ⟨s1, _⟩ := scheme_bytes hs
  have := congrArg List.length he
  simp at this
  cases scheme with
  | nil => exact s1 rfl
  | cons c r => simp at this; omega

/-- Parsing with a query: as without, and the query is kept. -/
theorem parse_query {scheme rest q : Str} (hs : SchemeText scheme) (hc : Clean (scheme ++ 58 :: rest)) (hq : ∀ c ∈ q, 32 ≤ c.toNat ∧ c ≠ 127) :
    parseNoFragment (scheme ++ 58 :: rest ++ 63 :: q) = (parseNoFragment (scheme ++ 58 :: rest)).map (fun u => u.tail (decide (q = [])) q u.fragment u.rawFragment) ∧
    ∀ u, parseNoFragment (scheme ++ 58 :: rest) = some u → u.forceQuery = false ∧ u.rawQuery = [] ∧ u.fragment = [] ∧ u.rawFragment = [] := by
  have hr : (63 : UInt8) ∉ rest := fun hm => (hc 63 (List.mem_append_right _ (.tail _ hm))).2.1 rfl
  have hp : parseNoFragment (scheme ++ 58 :: rest) = parseRest { scheme := scheme.map lowerAscii } rest := by
    unfold parseNoFragment
    have := clean_any (t := []) hc (by simp)
    rw [List.append_nil] at this
    rw [this, if_neg (by decide), if_neg (not_star hs rest), scheme_read hs]
    dsimp only
    unfold splitQuery
    rw [cutByte_none hr]
    simp only [hr, and_false, if_false]
  have hfields : ∀ u, parseRest { scheme := scheme.map lowerAscii } rest = some u → u.forceQuery = false ∧ u.rawQuery = [] ∧ u.fragment = [] ∧ u.rawFragment = [] := by
    intro u hu
    have h1 := parseRest_tail { scheme := scheme.map lowerAscii } false [] [] [] rest
    have h2 : ({ scheme := scheme.map lowerAscii } : Url).tail false [] [] [] = { scheme := scheme.map lowerAscii } := rfl
    rw [h2, hu] at h1
    have h3 := Option.some.inj h1
    rw [h3]
    exact ⟨rfl, rfl, rfl, rfl⟩
  refine ⟨?_, fun u hu => hfields u (hp ▸ hu)⟩
  rw [hp]
  unfold parseNoFragment
  rw [clean_any hc (fun c h => by
    rcases List.mem_cons.1 h with rfl | h
    · decide
    · exact hq c h), if_neg (by decide), show scheme ++ 58 :: rest ++ 63 :: q = scheme ++ 58 :: (rest ++ 63 :: q) by simp, if_neg (not_star hs _), scheme_read hs]
  dsimp only
  unfold splitQuery
  rw [cutByte_some hr]
  have hm : (63 : UInt8) ∈ rest ++ 63 :: q := by simp
  have key : ∀ v : Url, v = ({ scheme := scheme.map lowerAscii } : Url).tail (decide (q = [])) q [] [] →
      parseRest v rest = (parseRest { scheme := scheme.map lowerAscii } rest).map (fun u => u.tail (decide (q = [])) q u.fragment u.rawFragment) := by
    rintro v rfl
    rw [parseRest_tail]
    cases h : parseRest { scheme := scheme.map lowerAscii } rest with
    | none => rfl
    | some u =>
      obtain ⟨_, _, h3, h4⟩ := hfields u h
      simp only [Option.map_some, h3, h4]
  by_cases hq0 : q = []
  · subst hq0
    simp only [hm, and_self, if_true]
    exact key _ rfl
  · simp only [hq0, false_and, if_false]
    exact (key _ (by unfold Url.tail; simp [hq0])).trans (by simp [hq0])

/-- Text of a fragment. -/
theorem fragByte_facts (c : UInt8) (h : FragByte c) : (c == 39 || c == 91 || c == 93 || c == 37 || fragmentKeeps c) = true ∧ c ≠ 37 := by
  revert h
  refine forall_byte (P := fun c => FragByte c → (c == 39 || c == 91 || c == 93 || c == 37 || fragmentKeeps c) = true ∧ c ≠ 37) ?_ c
  unfold FragByte
  decide +kernel

theorem digit_frag {c : UInt8} (h : EscDigit c) : FragByte c := by
  unfold FragByte
  refine .inl ?_
  revert h
  refine forall_byte (P := fun c => EscDigit c → unreserved c = true) ?_ c
  unfold EscDigit
  decide +kernel

theorem fragment_ok {f : Str} (h : FragmentText f) : (f.all (fun c => c == 39 || c == 91 || c == 93 || c == 37 || fragmentKeeps c) = true) ∧ ∃ d, unescapePath f = some d ∧ (f ≠ [] → d ≠ []) := by
  induction h with
  | nil => exact ⟨rfl, [], rfl, fun h => absurd rfl h⟩
  | @byte c r hc _ ih =>
    obtain ⟨h1, d, h2, _⟩ := ih
    obtain ⟨g1, g2⟩ := fragByte_facts c hc
    refine ⟨by rw [List.all_cons, g1, h1]; rfl, c :: d, ?_, fun _ => by simp⟩
    rw [unescapePath_cons g2, h2]; rfl
  | @escape a b r ha hb _ ih =>
    obtain ⟨h1, d, h2, _⟩ := ih
    obtain ⟨x, hx⟩ := Option.isSome_iff_exists.1 (unhex_digit ha)
    obtain ⟨y, hy⟩ := Option.isSome_iff_exists.1 (unhex_digit hb)
    refine ⟨?_, UInt8.ofNat (16 * x + y) :: d, ?_, fun _ => by simp⟩
    · rw [List.all_cons, List.all_cons, List.all_cons, h1, (fragByte_facts a (digit_frag ha)).1, (fragByte_facts b (digit_frag hb)).1]; rfl
    · unfold unescapePath
      rw [if_pos rfl, hx, hy, h2]; rfl

/-- `URL.setFragment` and `URL.EscapedFragment` keep the text of a fragment. -/
theorem fragment_round (u : Url) {f : Str} (h : FragmentText f) (hf : f ≠ []) : ∃ d rf, u.setFragment f = some (u.tail u.forceQuery u.rawQuery d rf) ∧ d ≠ [] ∧
    ∀ v : Url, v.fragment = d → v.rawFragment = rf → v.escapedFragment = f := by
  obtain ⟨h1, d, h2, h3⟩ := fragment_ok h
  refine ⟨d, if f = escapeBy fragmentKeeps d then [] else f, by unfold Url.setFragment; rw [h2]; rfl, h3 hf, ?_⟩
  intro v hd hr
  unfold Url.escapedFragment
  rw [hr, hd]
  by_cases he : f = escapeBy fragmentKeeps d
  · rw [if_pos he, if_neg (by simp)]
    exact he.symm
  · rw [if_neg he, if_pos ⟨hf, h1, h2⟩]

theorem join_of_parse {s base e r : Str} {u : Url} (hb : parseUrl base = some u) (h : urlJoinPath base e = some r) (h1 : u.forceQuery = false) (h2 : u.rawQuery = []) (h3 : u.fragment = [])
    {force : Bool} {q f rf : Str} (hs : parseUrl s = some (u.tail force q f rf)) {ft : Str} (hf : f ≠ [] → ∀ v : Url, v.fragment = f → v.rawFragment = rf → v.escapedFragment = ft) :
    urlJoinPath s e = some (r ++ ((if force = true ∨ q ≠ [] then b!"?" ++ q else []) ++ (if f ≠ [] then b!"#" ++ ft else []))) := by
  unfold urlJoinPath at h ⊢
  rw [hb] at h
  rw [hs]
  simp only [Option.map_some, Option.some.injEq] at h ⊢
  obtain ⟨g1, g2, g3⟩ := joinPath_same u e
  rw [joinPath_tail, string_tail (g1.trans h1) (g2.trans h2) (g3.trans h3), h]
  by_cases h0 : f = []
  · subst h0
    simp
  · have := hf h0 ((u.joinPath e).tail force q f rf) rfl rfl
    simp only [h0, ne_eq, not_false_eq_true, if_true, this]

/-- `url.JoinPath` with a query or a fragment: both stay at the end. -/
theorem join_tail {scheme rest e r t t' : Str} (hs : SchemeText scheme) (hc : Clean (scheme ++ 58 :: rest)) (h : urlJoinPath (scheme ++ 58 :: rest) e = some r) (ht : UrlTail t t') :
    urlJoinPath (scheme ++ 58 :: rest ++ t) e = some (r ++ t') := by
  have hno : ∀ {q : Str}, (∀ c ∈ q, QueryByte c) → (35 : UInt8) ∉ scheme ++ 58 :: rest ++ 63 :: q := by
    intro q hq hm
    rcases List.mem_append.1 hm with hm | hm
    · exact (hc 35 hm).1 rfl
    · rcases List.mem_cons.1 hm with hm | hm
      · cases hm
      · exact (hq 35 hm).2.2 rfl
  have hn : (35 : UInt8) ∉ scheme ++ 58 :: rest := fun hm => (hc 35 hm).1 rfl
  have hb := parse_noFragment hn
  cases hu : parseNoFragment (scheme ++ 58 :: rest) with
  | none =>
    unfold urlJoinPath at h
    rw [hb, hu] at h
    cases h
  | some u =>
    have hbu := hb.trans hu
    obtain ⟨_, w⟩ := parse_query (q := []) hs hc (by simp)
    obtain ⟨w1, w2, w3, w4⟩ := w u hu
    cases ht with
    | @query q hq =>
      have hp := (parse_query hs hc (fun c hm => ⟨(hq c hm).1, (hq c hm).2.1⟩)).1
      rw [hu] at hp
      have := join_of_parse hbu h w1 w2 w3 (s := scheme ++ 58 :: rest ++ 63 :: q) (by rw [parse_noFragment (hno hq)]; exact hp) (ft := []) (fun hf => absurd w3 hf)
      rw [if_pos (by by_cases hq0 : q = [] <;> simp [hq0]), if_neg (by simp [w3]), List.append_nil] at this
      exact this
    | @fragment f hf hne =>
      obtain ⟨d, rf, k1, k2, k3⟩ := fragment_round u hf hne
      have := join_of_parse hbu h w1 w2 w3 (s := scheme ++ 58 :: rest ++ 35 :: f) (by
        unfold parseUrl
        rw [cutByte_some hn]
        dsimp only
        rw [hu]
        dsimp only
        rw [if_neg hne]
        exact k1) (ft := f) (fun _ => k3)
      rw [if_neg (by simp [w1, w2]), if_pos k2] at this
      exact this
    | emptyFragment =>
      have := join_of_parse hbu h w1 w2 w3 (s := scheme ++ 58 :: rest ++ [35]) (force := false) (q := []) (f := []) (rf := []) (by
        unfold parseUrl
        rw [cutByte_some hn]
        dsimp only
        rw [hu]
        dsimp only
        rw [if_pos rfl, ← w1]
        unfold Url.tail
        cases u
        simp_all) (ft := []) (fun h => absurd rfl h)
      simpa using this
    | @both q f hq hf hne =>
      have hp := (parse_query hs hc (fun c hm => ⟨(hq c hm).1, (hq c hm).2.1⟩)).1
      rw [hu] at hp
      obtain ⟨d, rf, k1, k2, k3⟩ := fragment_round (u.tail (decide (q = [])) q u.fragment u.rawFragment) hf hne
      have := join_of_parse hbu h w1 w2 w3 (s := scheme ++ 58 :: rest ++ (63 :: q ++ 35 :: f)) (force := decide (q = [])) (q := q) (f := d) (rf := rf) (by
        unfold parseUrl
        rw [← List.append_assoc, cutByte_some (hno hq)]
        dsimp only
        rw [hp]
        dsimp only [Option.map_some]
        rw [if_neg hne]
        exact k1) (ft := f) (fun _ => k3)
      rw [if_pos (by by_cases hq0 : q = [] <;> simp [hq0]), if_pos k2] at this
      exact this

/-- The shape of the URL of a repository. -/
theorem repoURL_shape {base norm : Str} (h : RepoURL base norm) : ∃ scheme rest, base = scheme ++ 58 :: rest ∧ SchemeText scheme ∧ Clean base := by
  have key : ∀ server tail : Str, ServerText server → OkPath tail → ∃ scheme rest, server ++ tail = scheme ++ 58 :: rest ∧ SchemeText scheme ∧ Clean (server ++ tail) := by
    rintro _ tail ⟨hs, hu, hh, hp⟩ ht
    rename_i scheme user host port
    refine ⟨scheme, b!"//" ++ (user ++ host ++ port) ++ tail, by simp, hs, ?_⟩
    intro c hc
    rcases List.mem_append.1 hc with hc | hc
    · rcases List.mem_append.1 hc with hc | hc
      · rcases List.mem_append.1 hc with hc | hc
        · exact (scheme_bytes hs).2.2 c hc
        · simp only [List.mem_cons, List.not_mem_nil, or_false] at hc
          rcases hc with rfl | rfl | rfl <;> decide
      · exact (authority_bytes hu hh hp c hc).2
    · have hb := okByte_facts (ht.bytes c hc)
      exact ⟨hb.2.2.1, hb.2.2.2.1, hb.2.2.2.2.1, hb.2.2.2.2.2.1⟩
  cases h with
  | bare hs => have := key _ [] hs okPath_nil; rwa [List.append_nil] at this
  | bareSlash hs => exact key _ _ hs okPath_slash
  | path hs _ hp =>
    rw [slashed_eq, List.append_assoc]
    exact key _ _ hs (okPath_slash.append (dir_ok hp))
  | pathSlash hs _ hp =>
    rw [slashed_eq, List.append_assoc, List.append_assoc]
    exact key _ _ hs (okPath_slash.append ((dir_ok hp).append okPath_slash))

/-- Without the slash at its end as well. -/
theorem repoURL_shape_norm {base norm : Str} (h : RepoURL base norm) : Clean norm := by
  obtain ⟨_, _, _, _, hc⟩ := repoURL_shape h
  cases h with
  | bare => exact hc
  | bareSlash => exact fun c hm => hc c (List.mem_append_left _ hm)
  | path => exact hc
  | pathSlash => exact fun c hm => hc c (List.mem_append_left _ hm)

/-- `url.JoinPath` of a repository URL with query or fragment. -/
theorem join_url_tail {base norm e t t' : Str} (hr : RepoURL base norm) (he : DirName e) (ht : UrlTail t t') : urlJoinPath (base ++ t) e = some (norm ++ b!"/" ++ e ++ t') := by
  obtain ⟨scheme, rest, h1, h2, h3⟩ := repoURL_shape hr
  have := join_url hr he
  rw [h1] at h3 this ⊢
  exact join_tail h2 h3 this ht

end Tuf.Std
