import Verif.Proofs.Paths
import Verif.Props.Sample

/-! # Path patterns, hash prefixes, bins: properties C51 to C55 -/

namespace Tuf
open Spec

/-- **C51.** A pattern covers a path exactly if both have equally many slash-separated parts and each part matches its own
pattern part. -/
theorem C51_pattern_exact (env : Env) (path pattern : Str) :
    isTargetInPathPattern env path pattern = true ↔ PatternCovers env pattern path := inPattern_iff

theorem length_intercalate_parts {s : Str} {ps : List Str} (h : Parts s ps) : ps.length = s.count 47 + 1 := by
  rw [parts_unique h]
  clear h
  induction s with
  | nil => rfl
  | cons c r ih =>
    unfold splitOn
    split
    · next hc => subst hc; simp [ih]
    · next hc =>
      split
      · next h => exact absurd h (splitOn_ne_nil 47 r)
      · next q qs h => rw [h] at ih; rw [List.count_cons_of_ne (by exact hc)]; simpa using ih

/-- **C51.** A pattern never covers a path with another number of slashes. -/
theorem C51_same_depth (env : Env) (role : DelegatedRole) (path : Str) (hp : role.paths.elems ≠ [])
    (h : role.isDelegatedPath env path = true) :
    ∃ p ∈ role.paths.elems, PatternCovers env p path ∧ p.count 47 = path.count 47 := by
  unfold DelegatedRole.isDelegatedPath at h
  rw [if_pos (List.length_pos_iff.2 hp)] at h
  obtain ⟨p, hm, h⟩ := List.any_eq_true.1 h
  have hc := inPattern_iff.1 h
  refine ⟨p, hm, hc, ?_⟩
  obtain ⟨ps, ts, h1, h2, h3, _⟩ := hc
  have := length_intercalate_parts h1
  have := length_intercalate_parts h2
  omega

/-- **C51.** A pattern with a malformed part covers no path for which that part is reported as malformed. -/
theorem C51_malformed (env : Env) (path pattern : Str) {ps ts : List Str} (h1 : Parts pattern ps) (h2 : Parts path ts)
    {i : Nat} (hp : i < ps.length) (ht : i < ts.length) (hbad : env.glob ps[i] ts[i] = none) :
    isTargetInPathPattern env path pattern = false := by
  cases hc : isTargetInPathPattern env path pattern with
  | false => rfl
  | true =>
    exfalso
    obtain ⟨ps', ts', h1', h2', _, h⟩ := inPattern_iff.1 hc
    have e1 := (parts_unique h1').trans (parts_unique h1).symm
    have e2 := (parts_unique h2').trans (parts_unique h2).symm
    subst e1
    subst e2
    rw [h i hp ht] at hbad
    cases hbad

/-- What a role covers, in full. -/
theorem isDelegatedPath_iff (env : Env) (r : DelegatedRole) (path : Str) :
    r.isDelegatedPath env path = true ↔ RoleCovers env r path := by
  unfold DelegatedRole.isDelegatedPath RoleCovers
  split
  · next h =>
    have hne := List.length_pos_iff.1 h
    rw [List.any_eq_true]
    constructor
    · rintro ⟨p, hp, h⟩
      exact .inl ⟨p, hp, inPattern_iff.1 h⟩
    · rintro (⟨p, hp, h⟩ | ⟨h, _⟩)
      · exact ⟨p, hp, inPattern_iff.2 h⟩
      · exact absurd h hne
  · next h =>
    have he : r.paths.elems = [] := Classical.byContradiction fun hc => h (List.length_pos_iff.2 hc)
    have key : ∀ p, hasPrefix (b64Encode (env.sha256 path)) p = true ↔ ∃ t, b64Encode (env.sha256 path) = p ++ t := by
      intro p
      unfold hasPrefix
      rw [List.isPrefixOf_iff_prefix]
      exact ⟨fun ⟨t, h⟩ => ⟨t, h.symm⟩, fun ⟨t, h⟩ => ⟨t, h.symm⟩⟩
    split
    · rw [List.any_eq_true]
      constructor
      · rintro ⟨p, hp, h⟩
        exact .inr ⟨he, p, hp, (key p).1 h⟩
      · rintro (⟨p, hp, _⟩ | ⟨_, p, hp, h⟩)
        · rw [he] at hp; cases hp
        · exact ⟨p, hp, (key p).2 h⟩
    · next h2 =>
      have he2 : r.pathHashPrefixes.elems = [] := Classical.byContradiction fun hc => h2 (List.length_pos_iff.2 hc)
      rw [he, he2]
      simp

/-- A `filepath.Match` that knows exact names and a lone star, and calls `[` malformed. -/
def Sample.globEnv : Env := { Sample.env0 with
  glob := fun p t => if p = b!"[" then none else some (decide (p = t) || decide (p = b!"*")) }

example : isTargetInPathPattern Sample.globEnv b!"a/b/c" b!"a/*/c" = true ∧ isTargetInPathPattern Sample.globEnv b!"a/b/c" b!"a/*" = false ∧
    isTargetInPathPattern Sample.globEnv b!"a/b" b!"a/[" = false ∧ Parts b!"a/b" [b!"a", b!"b"] := by
  refine ⟨by decide +kernel, by decide +kernel, by decide +kernel, by decide, by decide, by decide⟩
/-- The hypotheses of `C51_same_depth` are met. -/
example : (DelegatedRole.isDelegatedPath Sample.globEnv { paths := some [b!"x", b!"a/*"] } b!"a/b") = true := by decide +kernel

/-! ## C52 -/

/-- **C52 as coded.** A role without patterns covers exactly the paths whose *base64url-encoded* digest starts with one of the
prefixes. The full property has the hex digest here; `C52_hex_prefixes_never_match` shows that it is false. -/
theorem C52_base64_rule_partial (env : Env) (r : DelegatedRole) (path : Str) (hp : r.paths.elems = []) :
    r.isDelegatedPath env path = true ↔ ∃ p ∈ r.pathHashPrefixes.elems, ∃ t, b64Encode (env.sha256 path) = p ++ t := by
  rw [isDelegatedPath_iff]
  unfold RoleCovers
  rw [hp]
  simp

theorem b64Char_ne_digitChar (c : UInt8) : b64Char (c.toNat / 4) ≠ digitChar (c.toNat / 16) := by
  have : ∀ n : Fin 256, b64Char (n.val / 4) ≠ digitChar (n.val / 16) := by decide +kernel
  exact this ⟨c.toNat, c.toNat_lt⟩

/-- **C52 is false**: a correct, non-empty hex prefix never matches, whatever the digest. A role all of whose prefixes are
correct hex prefixes of the path's digest does not cover the path. -/
theorem C52_hex_prefixes_never_match (env : Env) (r : DelegatedRole) (path : Str) (hp : r.paths.elems = [])
    (hall : ∀ p ∈ r.pathHashPrefixes.elems, p ≠ [] ∧ ∃ t, hexEncode (env.sha256 path) = p ++ t) :
    r.isDelegatedPath env path = false := by
  cases hc : r.isDelegatedPath env path with
  | false => rfl
  | true =>
    exfalso
    obtain ⟨p, hm, t, ht⟩ := (C52_base64_rule_partial env r path hp).1 hc
    obtain ⟨hne, t', ht'⟩ := hall p hm
    obtain ⟨c, q, rfl⟩ := List.exists_cons_of_ne_nil hne
    generalize env.sha256 path = d at *
    have e1 : ∃ a r, d = a :: r ∧ digitChar (a.toNat / 16) = c := by
      cases d with
      | nil => cases ht'
      | cons a r => exact ⟨a, r, rfl, by simpa [hexEncode] using (List.cons.inj ht').1⟩
    obtain ⟨a, r', rfl, hc⟩ := e1
    have e2 : b64Char (a.toNat / 4) = c := by
      match r', ht with
      | [], ht => exact (List.cons.inj ht).1
      | [_], ht => exact (List.cons.inj ht).1
      | _ :: _ :: _, ht => exact (List.cons.inj ht).1
    exact b64Char_ne_digitChar a (e2.trans hc.symm)

/-- **C52 is false**, in terms of the statement: the specification says that the role covers the path, the code says no. -/
theorem C52_false : ∃ (env : Env) (r : DelegatedRole) (path : Str), r.paths.elems = [] ∧
    HexPrefixCovers env r.pathHashPrefixes.elems path ∧ r.isDelegatedPath env path = false := by
  refine ⟨{ Sample.env0 with sha256 := fun _ => [0xAB, 0xCD, 0xEF] }, { pathHashPrefixes := some [b!"abc"] }, b!"f", rfl,
    ⟨b!"abc", by decide, b!"def", by decide⟩, by decide +kernel⟩

/-! ## C53 -/

/-- **C53.** For bit lengths 1 to 32 every path is assigned to exactly one bin: it is terminating, its number is the leftmost
bits of the digest, it is one of the roles and it is recognised. -/
theorem C53_bins (env : Env) (r : SuccinctRoles) (path : Str) (h1 : 1 ≤ r.bitLength) (h32 : r.bitLength ≤ 32)
    (hlen : 4 ≤ (env.sha256 path).length) :
    ∃ name, r.getRolesForTarget env path = .ok [(name, true)] ∧
      BinName r (leftmostBits r.bitLength.toNat (env.sha256 path)) name ∧ name ∈ r.getRoles ∧ r.isDelegatedRole name = true := by
  obtain ⟨b, hb⟩ : ∃ b : Nat, r.bitLength = b := ⟨r.bitLength.toNat, by omega⟩
  have hb1 : 1 ≤ b := by omega
  have hb32 : b ≤ 32 := by omega
  generalize hd : env.sha256 path = dg at hlen ⊢
  obtain ⟨a0, a1, a2, a3, rest, rfl⟩ : ∃ a0 a1 a2 a3 rest, dg = a0 :: a1 :: a2 :: a3 :: rest := by
    match dg, hlen with
    | a0 :: a1 :: a2 :: a3 :: rest, _ => exact ⟨_, _, _, _, _, rfl⟩
  have hleft := leftmostBits_eq a0 a1 a2 a3 rest hb32
  generalize hN : ((a0.toNat * 256 + a1.toNat) * 256 + a2.toNat) * 256 + a3.toNat = N at hleft
  have hNlt : N < 2 ^ 32 := by
    have := a0.toNat_lt; have := a1.toNat_lt; have := a2.toNat_lt; have := a3.toNat_lt
    omega
  have hbin : N / 2 ^ (32 - b) < 2 ^ b := by
    apply Nat.div_lt_of_lt_mul
    rw [← Nat.pow_add]
    rwa [show 32 - b + b = 32 by omega]
  have hshift : wrap64 (32 - r.bitLength) = ((32 - b : Nat) : Int) := by
    unfold wrap64
    rw [hb, Int.bmod_eq_of_le] <;> omega
  have hlenE : suffixLenForTarget r.bitLength = (b + 3) / 4 := by
    unfold suffixLenForTarget
    rw [if_pos (by omega), hb]
    exact suffixLen_eq hb1
  have hn : numberOfBins r.bitLength = ((2 ^ b : Nat) : Int) := by
    unfold numberOfBins
    rw [if_neg (by omega), if_pos (by omega), hb]
    simp
  have hp63 : 2 ^ b ≤ 2 ^ 32 := Nat.pow_le_pow_right (by omega) hb32
  have hp0 : 0 < 2 ^ b := Nat.pow_pos (by omega)
  have hsuf : r.getSuffixLen = ((b + 3) / 4, ((2 ^ b : Nat) : Int)) := by
    unfold SuccinctRoles.getSuffixLen
    simp only [hn]
    have : wrap64 (((2 ^ b : Nat) : Int) - 1) = (2 : Int) ^ b - 1 := by
      unfold wrap64
      rw [Int.bmod_eq_of_le]
      · simp
      · omega
      · omega
    rw [this, suffixLen_eq hb1]
  have h16 : N / 2 ^ (32 - b) < 16 ^ ((b + 3) / 4) := by
    refine Nat.lt_of_lt_of_le hbin ?_
    rw [show 16 = 2 ^ 4 from rfl, ← Nat.pow_mul]
    exact Nat.pow_le_pow_right (by omega) (by omega)
  obtain ⟨f1, f2, f3⟩ := padHex_form (by omega : 1 ≤ (b + 3) / 4) h16
  refine ⟨r.namePrefix ++ b!"-" ++ padHex ((b + 3) / 4) (N / 2 ^ (32 - b)), ?_, ?_, ?_, ?_⟩
  · unfold SuccinctRoles.getRolesForTarget
    simp only [hd, bigEndian32, Res.bind_ok, hshift, hN, hlenE]
    rw [if_neg (by omega)]
    simp
  · refine ⟨_, rfl, f1, ?_, ?_⟩
    · rw [f2, hb]; rfl
    · rw [f3, hb]; exact hleft.symm
  · unfold SuccinctRoles.getRoles
    simp only [hsuf]
    exact List.mem_map.2 ⟨N / 2 ^ (32 - b), List.mem_range.2 (by rw [Int.toNat_natCast]; exact hbin), rfl⟩
  · unfold SuccinctRoles.isDelegatedRole
    simp only [hsuf]
    rw [if_neg]
    · rw [List.drop_left' rfl, if_neg (by simp [f2])]
      have h63 : N / 2 ^ (32 - b) < 2 ^ 63 := Nat.lt_of_lt_of_le hbin (Nat.le_trans hp63 (by omega))
      rw [parseInt16_padHex h63]
      simp only [Bool.and_eq_true, decide_eq_true_eq]
      omega
    · unfold hasPrefix
      rw [Bool.not_eq_false, List.isPrefixOf_iff_prefix]
      exact List.prefix_append _ _

/-- Bit length 10: the digest 0xC1800000 gives bin 0x306 = 1100000110b. -/
example : SuccinctRoles.getRolesForTarget { Sample.env0 with sha256 := fun _ => [0xC1, 0x80, 0, 0, 7] } { bitLength := 10, namePrefix := b!"bin" } b!"x" =
    .ok [(b!"bin-306", true)] ∧ leftmostBits 10 [0xC1, 0x80, 0, 0, 7] = 0x306 := by decide +kernel
/-- Beyond the claim: bit length 33 panics (negative shift). -/
theorem C53_bit_length_33_crash : SuccinctRoles.getRolesForTarget { Sample.env0 with sha256 := fun _ => [0, 0, 0, 0] } { bitLength := 33 } b!"x" = .panic := by
  decide +kernel

/-! ## C54 -/

/-- What `GetSuffixLen` computes for the bit lengths with a representable number of bins. -/
theorem getSuffixLen_eq {r : SuccinctRoles} {b : Nat} (hb : r.bitLength = b) (h63 : b < 63) :
    r.getSuffixLen = (max 1 ((b + 3) / 4), ((2 ^ b : Nat) : Int)) := by
  have hn : numberOfBins r.bitLength = ((2 ^ b : Nat) : Int) := by
    unfold numberOfBins
    rw [if_neg (by omega), if_pos (by omega), hb]
    simp
  have hp : 2 ^ b ≤ 2 ^ 62 := Nat.pow_le_pow_right (by omega) (by omega)
  have hp0 : 0 < 2 ^ b := Nat.pow_pos (by omega)
  unfold SuccinctRoles.getSuffixLen
  simp only [hn]
  have : wrap64 (((2 ^ b : Nat) : Int) - 1) = (2 : Int) ^ b - 1 := by
    unfold wrap64
    rw [Int.bmod_eq_of_le]
    · simp
    · omega
    · omega
  rw [this]
  by_cases h1 : 1 ≤ b
  · rw [suffixLen_eq h1, Nat.max_eq_right (by omega)]
  · have : b = 0 := by omega
    subst this
    rfl

theorem two_pow_lt_16 (b : Nat) : 2 ^ b ≤ 16 ^ max 1 ((b + 3) / 4) := by
  rw [show 16 = 2 ^ 4 from rfl, ← Nat.pow_mul]
  exact Nat.pow_le_pow_right (by omega) (by omega)

/-- **C54, first part.** `GetRoles()` lists `2^BitLength` different names, for every bit length below 63. -/
theorem C54_number_of_roles (r : SuccinctRoles) (h0 : 0 ≤ r.bitLength) (h63 : r.bitLength < 63) :
    r.getRoles.length = 2 ^ r.bitLength.toNat ∧ r.getRoles.Nodup := by
  obtain ⟨b, hb⟩ : ∃ b : Nat, r.bitLength = b := ⟨r.bitLength.toNat, by omega⟩
  unfold SuccinctRoles.getRoles
  simp only [getSuffixLen_eq hb (by omega)]
  refine ⟨by rw [List.length_map, List.length_range, Int.toNat_natCast, hb]; rfl, ?_⟩
  rw [List.nodup_iff_pairwise_ne, List.pairwise_map]
  refine List.Pairwise.imp ?_ (List.nodup_iff_pairwise_ne.1 List.nodup_range)
  intro x y hne he
  exact hne (padHex_injective (List.append_cancel_left he))

theorem isDelegatedRole_iff (r : SuccinctRoles) (name : Str) : r.isDelegatedRole name = true ↔
    ∃ s v, name = r.namePrefix ++ b!"-" ++ s ∧ s.length = r.getSuffixLen.1 ∧ parseInt16 s = some v ∧ 0 ≤ v ∧ v < r.getSuffixLen.2 := by
  unfold SuccinctRoles.isDelegatedRole
  simp only
  constructor
  · intro h
    split at h
    · cases h
    · next hp =>
      unfold hasPrefix at hp
      rw [Bool.not_eq_false, List.isPrefixOf_iff_prefix] at hp
      obtain ⟨s, rfl⟩ := hp
      rw [List.drop_left' rfl] at h
      split at h
      · cases h
      · next hl =>
        split at h
        · cases h
        · next v hv =>
          simp only [Bool.and_eq_true, decide_eq_true_eq] at h
          exact ⟨s, v, rfl, Classical.byContradiction hl, hv, h.1, h.2⟩
  · rintro ⟨s, v, rfl, hl, hv, h0, hn⟩
    rw [if_neg, List.drop_left' rfl, if_neg (fun h => h hl), hv]
    · simp [h0, hn]
    · unfold hasPrefix
      rw [Bool.not_eq_false, List.isPrefixOf_iff_prefix]
      exact List.prefix_append _ _

/-- **C54, one direction, for every bit length.** Every name in `GetRoles()` is a delegated role. -/
theorem C54_roles_are_delegated (r : SuccinctRoles) (name : Str) (h : name ∈ r.getRoles) : r.isDelegatedRole name = true := by
  rw [isDelegatedRole_iff]
  unfold SuccinctRoles.getRoles at h
  obtain ⟨n, hn, rfl⟩ := List.mem_map.1 h
  have hn : n < r.getSuffixLen.2.toNat := List.mem_range.1 hn
  have hnum : r.getSuffixLen.2 = numberOfBins r.bitLength := rfl
  have h0 : 0 ≤ r.bitLength := by
    rw [hnum] at hn
    unfold numberOfBins at hn
    split at hn
    · simp at hn
    · omega
  have h63 : r.bitLength < 63 := by
    rw [hnum] at hn
    unfold numberOfBins at hn
    split at hn
    · omega
    · split at hn
      · assumption
      · simp at hn
  obtain ⟨b, hb⟩ : ∃ b : Nat, r.bitLength = b := ⟨r.bitLength.toNat, by omega⟩
  have hs := getSuffixLen_eq hb (by omega)
  have hp : 2 ^ b ≤ 2 ^ 62 := Nat.pow_le_pow_right (by omega) (by omega)
  have := two_pow_lt_16 b
  rw [hs] at hn ⊢
  simp only [Int.toNat_natCast] at hn ⊢
  refine ⟨_, (n : Int), rfl, ?_, parseInt16_padHex (by omega), by omega, by omega⟩
  show (padHex r.getSuffixLen.1 n).length = _
  rw [hs]
  exact padHex_length (by omega) (Nat.lt_of_lt_of_le hn this)

/-- **C54, other direction, partially.** A delegated role whose suffix is written in lowercase hex is in `GetRoles()`. Missing:
names with uppercase digits or a sign, which are wrongly accepted (`C54_uppercase_accepted`). -/
theorem C54_partial (r : SuccinctRoles) (s : Str) (hs : ∀ c ∈ s, LowerHex c)
    (h : r.isDelegatedRole (r.namePrefix ++ b!"-" ++ s) = true) : r.namePrefix ++ b!"-" ++ s ∈ r.getRoles := by
  obtain ⟨s', v, he, hl, hv, h0, hn⟩ := (isDelegatedRole_iff r _).1 h
  have := List.append_cancel_left he
  subst this
  have hnum : r.getSuffixLen.2 = numberOfBins r.bitLength := rfl
  have h0' : 0 ≤ r.bitLength ∧ r.bitLength < 63 := by
    rw [hnum] at hn
    unfold numberOfBins at hn
    split at hn
    · omega
    · split at hn
      · omega
      · omega
  obtain ⟨b, hb⟩ : ∃ b : Nat, r.bitLength = b := ⟨r.bitLength.toNat, by omega⟩
  have hsuf := getSuffixLen_eq hb (by omega)
  rw [hsuf] at hl hn
  simp only at hl hn
  obtain ⟨hu, hlt⟩ := padHex_unique (by omega) hs hl rfl
  generalize s.foldl (fun acc c => acc * 16 + lowerHexValue c) 0 = n at hu hlt
  have hvn : v = (n : Int) := by
    -- the parsed value is the value of the digits
    have hp : parseHexDigits 0 s = some n := by rw [hu]; exact padHex_parse _ _
    have hsign : ∀ c r, s = c :: r → c ≠ 43 ∧ c ≠ 45 := by
      rintro c r rfl
      have := hs c (by simp)
      unfold LowerHex at this
      constructor <;> rintro rfl <;> simp at this
    cases s with
    | nil => simp [parseInt16] at hv
    | cons c r =>
      obtain ⟨hc1, hc2⟩ := hsign c r rfl
      have he : parseInt16 (c :: r) = if inInt64 (n : Int) then some (n : Int) else none := by
        unfold parseInt16
        split
        · next heq => cases heq; exact absurd rfl hc1
        · next heq => cases heq; exact absurd rfl hc2
        · simp [hp]
      rw [he] at hv
      split at hv
      · exact (Option.some.inj hv).symm
      · cases hv
  have hin : n < 2 ^ b := by omega
  unfold SuccinctRoles.getRoles
  simp only [hsuf]
  exact List.mem_map.2 ⟨n, List.mem_range.2 (by rw [Int.toNat_natCast]; exact hin), by rw [← hu]⟩

/-- **C54 is false**: an uppercase digit or a sign is accepted although no such role exists. -/
theorem C54_uppercase_accepted : ∃ (r : SuccinctRoles) (n₁ n₂ : Str), r.isDelegatedRole n₁ = true ∧ n₁ ∉ r.getRoles ∧
    r.isDelegatedRole n₂ = true ∧ n₂ ∉ r.getRoles :=
  ⟨{ bitLength := 5, namePrefix := b!"x" }, b!"x-0F", b!"x-+f", by decide +kernel⟩

/-- The hypotheses of the C54 theorems are met: bit length 5 has the role `x-1f`. -/
example : b!"x-1f" ∈ SuccinctRoles.getRoles { bitLength := 5, namePrefix := b!"x" } ∧
    SuccinctRoles.isDelegatedRole { bitLength := 5, namePrefix := b!"x" } b!"x-1f" = true ∧
    SuccinctRoles.isDelegatedRole { bitLength := 5, namePrefix := b!"x" } b!"x-20" = false := by decide +kernel

/-! ## C55 -/

theorem rolesForTarget_get (env : Env) (path : Str) (rs : List DelegatedRole) (acc : Entries Bool) (name : Str) (t : Bool) :
    (rolesForTarget env path rs acc).get? name = some t ↔
      (∃ pre r post, rs = pre ++ r :: post ∧ r.name = name ∧ r.terminating = t ∧ r.isDelegatedPath env path = true ∧
        ∀ r' ∈ post, r'.name = name → r'.isDelegatedPath env path = false) ∨
      (acc.get? name = some t ∧ ∀ r' ∈ rs, r'.name = name → r'.isDelegatedPath env path = false) := by
  induction rs generalizing acc with
  | nil => simp [rolesForTarget]
  | cons r rs ih =>
    simp only [rolesForTarget]
    rw [ih]
    constructor
    · rintro (⟨pre, r0, post, rfl, h⟩ | ⟨h, hrs⟩)
      · exact .inl ⟨r :: pre, r0, post, rfl, h⟩
      · split at h
        · next hc =>
          rw [Entries.get?_set] at h
          split at h
          · next hn => exact .inl ⟨[], r, rs, rfl, hn, Option.some.inj h, hc, hrs⟩
          · next hn => exact .inr ⟨h, fun r' hr' he => by
              rcases List.mem_cons.1 hr' with rfl | hr'
              · exact absurd he hn
              · exact hrs r' hr' he⟩
        · next hc => exact .inr ⟨h, fun r' hr' he => by
            rcases List.mem_cons.1 hr' with rfl | hr'
            · simpa using hc
            · exact hrs r' hr' he⟩
    · rintro (⟨pre, r0, post, he, h1, h2, h3, h4⟩ | ⟨h, hrs⟩)
      · cases pre with
        | nil =>
          simp only [List.nil_append, List.cons.injEq] at he
          obtain ⟨rfl, rfl⟩ := he
          right
          rw [if_pos h3, Entries.get?_set, if_pos h1, h2]
          exact ⟨rfl, h4⟩
        | cons p pre =>
          simp only [List.cons_append, List.cons.injEq] at he
          obtain ⟨rfl, rfl⟩ := he
          exact .inl ⟨pre, r0, post, rfl, h1, h2, h3, h4⟩
      · right
        refine ⟨?_, fun r' hr' he => hrs r' (List.mem_cons_of_mem _ hr') he⟩
        split
        · next hc =>
          rw [Entries.get?_set]
          split
          · next hn => rw [hrs r (by simp) hn] at hc; cases hc
          · exact h
        · exact h

/-- **C55.** `GetRolesForTarget` returns a name exactly if some delegated role of that name covers the path; the flag is the
one of the last such role. The result has no repeated name. -/
theorem C55_roles_for_target (env : Env) (d : Delegations) (rs : List DelegatedRole) (path : Str) (hr : d.roles = some rs) :
    ∃ res : Entries Bool, d.getRolesForTarget env path = .ok res ∧
      (∀ name, (∃ t, (name, t) ∈ res) ↔ ∃ r ∈ rs, r.name = name ∧ RoleCovers env r path) ∧
      (∀ name t, (name, t) ∈ res ↔ ∃ pre r post, rs = pre ++ r :: post ∧ r.name = name ∧ r.terminating = t ∧ RoleCovers env r path ∧
        ∀ r' ∈ post, r'.name = name → ¬ RoleCovers env r' path) ∧
      (res.map Prod.fst).Nodup := by
  have hnd : ∀ (rs : List DelegatedRole) (acc : Entries Bool), acc.keys.Nodup → (rolesForTarget env path rs acc).keys.Nodup := by
    intro rs
    induction rs with
    | nil => exact fun acc h => h
    | cons r rs ih =>
      intro acc h
      simp only [rolesForTarget]
      apply ih
      split
      · exact Entries.nodup_set h _ _
      · exact h
  have hn := hnd rs [] (by simp [Entries.keys])
  have hmem : ∀ name t, (name, t) ∈ rolesForTarget env path rs [] ↔ ∃ pre r post, rs = pre ++ r :: post ∧ r.name = name ∧ r.terminating = t ∧
      RoleCovers env r path ∧ ∀ r' ∈ post, r'.name = name → ¬ RoleCovers env r' path := by
    intro name t
    constructor
    · intro h
      rcases (rolesForTarget_get env path rs [] name t).1 (Entries.get?_of_mem hn h) with ⟨pre, r, post, h1, h2, h3, h4, h5⟩ | ⟨h, _⟩
      · refine ⟨pre, r, post, h1, h2, h3, (isDelegatedPath_iff env r path).1 h4, fun r' hr' he hc => ?_⟩
        have := h5 r' hr' he
        rw [(isDelegatedPath_iff env r' path).2 hc] at this
        cases this
      · cases h
    · rintro ⟨pre, r, post, h1, h2, h3, h4, h5⟩
      apply Entries.mem_of_get?
      rw [rolesForTarget_get]
      refine .inl ⟨pre, r, post, h1, h2, h3, (isDelegatedPath_iff env r path).2 h4, fun r' hr' he => ?_⟩
      cases hc : r'.isDelegatedPath env path with
      | false => rfl
      | true => exact absurd ((isDelegatedPath_iff env r' path).1 hc) (h5 r' hr' he)
  refine ⟨rolesForTarget env path rs [], by unfold Delegations.getRolesForTarget; rw [hr], ?_, hmem, hn⟩
  intro name
  constructor
  · rintro ⟨t, h⟩
    obtain ⟨pre, r, post, rfl, h2, _, h4, _⟩ := (hmem name t).1 h
    exact ⟨r, by simp, h2, h4⟩
  · rintro ⟨r, hm, hname, hc⟩
    -- take the last covering role of the name
    have last : ∀ l : List DelegatedRole, (∃ r ∈ l, r.name = name ∧ RoleCovers env r path) →
        ∃ pre r post, l = pre ++ r :: post ∧ r.name = name ∧ RoleCovers env r path ∧ ∀ r' ∈ post, r'.name = name → ¬ RoleCovers env r' path := by
      intro l
      induction l with
      | nil => rintro ⟨r, h, _⟩; cases h
      | cons x l ih =>
        rintro ⟨r, hm, hname, hc⟩
        by_cases hl : ∃ r ∈ l, r.name = name ∧ RoleCovers env r path
        · obtain ⟨pre, r, post, rfl, h⟩ := ih hl
          exact ⟨x :: pre, r, post, rfl, h⟩
        · rcases List.mem_cons.1 hm with rfl | hm
          · exact ⟨[], r, l, rfl, hname, hc, fun r' hr' he hc' => hl ⟨r', hr', he, hc'⟩⟩
          · exact absurd ⟨r, hm, hname, hc⟩ hl
    obtain ⟨pre, r, post, h1, h2, h3, h4⟩ := last rs ⟨r, hm, hname, hc⟩
    exact ⟨r.terminating, (hmem name r.terminating).2 ⟨pre, r, post, h1, h2, rfl, h3, h4⟩⟩

/-- Two of three roles cover `a/b`. -/
example : Delegations.getRolesForTarget Sample.globEnv { roles := some [{ name := b!"r1", paths := some [b!"a/*"], terminating := true },
    { name := b!"r2", paths := some [b!"*"] }, { name := b!"r3", paths := some [b!"a/b"] }] } b!"a/b" = .ok [(b!"r1", true), (b!"r3", false)] := by
  decide +kernel

end Tuf
