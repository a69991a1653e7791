import Verif.Spec.Small
import Verif.Spec.Hashes
import Verif.Proofs.Hashes
import Verif.Proofs.Hex
import Verif.Props.Sample

/-! # Target infos, hex, errors, fetcher, repository store: properties C50, C60 to C63, C74 to C77 -/

namespace Tuf
open Spec

/-! ## C60 -/

theorem digestOf_some {env : Env} {alg : Str} (h : Supported alg) (data : Bytes) : ∃ d, digestOf env alg data = some d := by
  unfold digestOf
  rcases h with rfl | rfl
  · exact ⟨_, if_pos rfl⟩
  · exact ⟨_, by rw [if_neg (by decide), if_pos rfl]⟩

theorem digestOf_supported {env : Env} {alg : Str} {data d : Bytes} (h : digestOf env alg data = some d) : Supported alg := by
  unfold digestOf at h
  split at h
  · next h1 => exact .inl h1
  · split at h
    · next h1 => exact .inr h1
    · cases h

theorem hashAll_spec (env : Env) (data : Bytes) (algs : List Str) (acc : Entries Bytes) :
    ((∃ hs, hashAll env data algs acc = .ok hs) ↔ ∀ a ∈ algs, Supported a) ∧
    ∀ hs, hashAll env data algs acc = .ok hs → (acc.keys.Nodup → hs.keys.Nodup) ∧
      ∀ a, hs.get? a = if a ∈ algs then digestOf env a data else acc.get? a := by
  induction algs generalizing acc with
  | nil =>
    refine ⟨by simp [hashAll], ?_⟩
    intro hs h
    cases h
    exact ⟨id, fun a => by simp⟩
  | cons a r ih =>
    simp only [hashAll]
    cases hd : digestOf env a data with
    | none =>
      refine ⟨⟨fun ⟨_, h⟩ => by simp at h, fun h => ?_⟩, fun hs h => by simp at h⟩
      obtain ⟨d, hd'⟩ := digestOf_some (env := env) (h a (by simp)) data
      rw [hd] at hd'
      cases hd'
    | some d =>
      obtain ⟨ih1, ih2⟩ := ih (acc.set a d)
      refine ⟨?_, ?_⟩
      · simp only
        rw [ih1]
        exact ⟨fun h x hx => (List.mem_cons.1 hx).elim (fun e => e ▸ digestOf_supported hd) (h x),
          fun h x hx => h x (List.mem_cons_of_mem _ hx)⟩
      · intro hs h
        obtain ⟨h1, h2⟩ := ih2 hs h
        refine ⟨fun hn => h1 (Entries.nodup_set hn _ _), fun x => ?_⟩
        rw [h2 x]
        by_cases hx : x ∈ r
        · simp [hx]
        · by_cases hxa : a = x
          · subst hxa; rw [if_neg hx, Entries.get?_set_self, hd]; simp
          · simp [hx, Entries.get?_set_ne _ _ hxa, Ne.symm hxa]

/-- The algorithms that are used: SHA-256 if none is given. -/
def algorithms (algs : List Str) : List Str := if algs.length = 0 then [b!"sha256"] else algs

/-- **C60.** Creating a target info succeeds exactly if every given algorithm is supported. -/
theorem C60_succeeds (env : Env) (path : Str) (data : Bytes) (algs : List Str) :
    (∃ f, targetFileFromBytes env path data algs = .ok f) ↔ ∀ a ∈ algs, Supported a := by
  have h := (hashAll_spec env data (algorithms algs) []).1
  have hs : (∀ a ∈ algorithms algs, Supported a) ↔ ∀ a ∈ algs, Supported a := by
    unfold algorithms
    split
    · next h0 =>
      rw [List.length_eq_zero_iff] at h0
      subst h0
      simp [Supported]
    · rfl
  rw [← hs, ← h]
  unfold targetFileFromBytes
  constructor
  · rintro ⟨f, hf⟩
    obtain ⟨x, hx, _⟩ := Res.bind_eq_ok.1 hf
    exact ⟨x, hx⟩
  · rintro ⟨x, hx⟩
    unfold algorithms at hx
    exact ⟨_, by rw [hx]; rfl⟩

/-- **C60.** Otherwise it reports an error; it does not crash. -/
theorem C60_no_crash (env : Env) (path : Str) (data : Bytes) (algs : List Str) : targetFileFromBytes env path data algs ≠ .panic := by
  have h : ∀ (algs : List Str) acc, hashAll env data algs acc ≠ .panic := by
    intro algs
    induction algs with
    | nil => intro acc h; cases h
    | cons a r ih =>
      intro acc
      simp only [hashAll]
      cases digestOf env a data with
      | none => intro h; cases h
      | some d => exact ih _
  unfold targetFileFromBytes
  intro hp
  cases hr : hashAll env data (if algs.length = 0 then [b!"sha256"] else algs) [] with
  | ok a => rw [hr] at hp; cases hp
  | err e => rw [hr] at hp; cases hp
  | panic => exact h _ _ hr

/-- **C60.** The info then has the given path and the length of the data, and accepts exactly the byte strings of the same length
with the same digests under the given algorithms (SHA-256 if none is given); in particular the data itself. -/
theorem C60_verifies (env : Env) (path : Str) (data : Bytes) (algs : List Str) (f : TargetFiles)
    (h : targetFileFromBytes env path data algs = .ok f) :
    f.path = path ∧ f.length = (data.length : Int) ∧ f.verifyLengthHashes env data = .ok () ∧
    ∀ d, f.verifyLengthHashes env d = .ok () ↔ d.length = data.length ∧
      ∀ a ∈ (if algs = [] then [b!"sha256"] else algs), ∀ v, Digest env data a v → Digest env d a v := by
  have hal : (if algs = [] then [b!"sha256"] else algs) = algorithms algs := by
    unfold algorithms
    cases algs <;> rfl
  rw [hal]
  unfold targetFileFromBytes at h
  obtain ⟨hs, hx, h⟩ := Res.bind_eq_ok.1 h
  cases h
  obtain ⟨hsup, hspec⟩ := hashAll_spec env data (algorithms algs) []
  obtain ⟨hn, hget⟩ := hspec hs hx
  have hn := hn (by simp [Entries.keys])
  have hsup := hsup.1 ⟨hs, hx⟩
  have hmain : ∀ d, TargetFiles.verifyLengthHashes env { length := (data.length : Int), hashes := some hs, path := path } d = .ok () ↔
      d.length = data.length ∧ ∀ a ∈ algorithms algs, ∀ v, Digest env data a v → Digest env d a v := by
    intro d
    rw [targetVerify_ok]
    unfold TargetMatches HashesMatch
    simp only [GoMap.entries_some]
    constructor
    · rintro ⟨h1, h2⟩
      refine ⟨by omega, fun a ha v hv => h2 a v (Entries.mem_of_get? ?_)⟩
      rw [hget a, if_pos ha]
      exact digest_iff.1 hv
    · rintro ⟨h1, h2⟩
      refine ⟨by omega, fun a v hm => ?_⟩
      have := Entries.get?_of_mem hn hm
      rw [hget a] at this
      split at this
      · next ha => exact h2 a ha v (digest_iff.2 this)
      · cases this
  exact ⟨rfl, rfl, (hmain data).2 ⟨rfl, fun _ _ _ h => h⟩, hmain⟩

example : (targetFileFromBytes Sample.env0 b!"p" [1, 2, 3] [b!"sha256", b!"sha512"]).isOk = true ∧
    (targetFileFromBytes Sample.env0 b!"p" [1, 2, 3] [b!"md5"]).isOk = false := by decide +kernel

/-! ## C61 -/

/-- **C61.** The check of a target info accepts exactly the data of the listed length all of whose listed hashes match; otherwise it
reports a length or hash mismatch. -/
theorem C61_target_exact (env : Env) (f : TargetFiles) (data : Bytes) :
    (f.verifyLengthHashes env data = .ok () ↔ TargetMatches env f data) ∧
    (¬ TargetMatches env f data → ∃ msg, f.verifyLengthHashes env data = .err (.lengthOrHashMismatch msg)) :=
  ⟨targetVerify_ok, targetVerify_err⟩

/-- **C61.** For a meta file the length is checked unless it is 0, and every listed hash. -/
theorem C61_meta_exact (env : Env) (f : MetaFiles) (data : Bytes) :
    (f.verifyLengthHashes env data = .ok () ↔ MetaMatches env f data) ∧
    (¬ MetaMatches env f data → ∃ msg, f.verifyLengthHashes env data = .err (.lengthOrHashMismatch msg)) :=
  ⟨metaVerify_ok, metaVerify_err⟩

/-- **C61.** An unsupported algorithm among the hashes refuses all data. -/
theorem C61_unsupported (env : Env) (f : TargetFiles) (data : Bytes) (alg : Str) (v : Bytes) (hm : (alg, v) ∈ f.hashes.entries)
    (hs : ¬ Supported alg) : f.verifyLengthHashes env data ≠ .ok () := by
  intro h
  have := (targetVerify_ok.1 h).2 alg v hm
  exact hs (digestOf_supported (digest_iff.1 this))

/-- **C61.** The verdict does not depend on the order of the hashes. -/
theorem C61_order (env : Env) (f g : TargetFiles) (data : Bytes) (hl : f.length = g.length)
    (hp : f.hashes.entries.Perm g.hashes.entries) :
    f.verifyLengthHashes env data = .ok () ↔ g.verifyLengthHashes env data = .ok () := by
  rw [targetVerify_ok, targetVerify_ok]
  unfold TargetMatches HashesMatch
  rw [hl]
  exact and_congr Iff.rfl ⟨fun h a v hm => h a v (hp.mem_iff.2 hm), fun h a v hm => h a v (hp.mem_iff.1 hm)⟩

theorem C61_meta_order (env : Env) (f g : MetaFiles) (data : Bytes) (hl : f.length = g.length)
    (hp : f.hashes.entries.Perm g.hashes.entries) :
    f.verifyLengthHashes env data = .ok () ↔ g.verifyLengthHashes env data = .ok () := by
  rw [metaVerify_ok, metaVerify_ok]
  unfold MetaMatches HashesMatch
  rw [hl]
  exact and_congr Iff.rfl ⟨fun h a v hm => h a v (hp.mem_iff.2 hm), fun h a v hm => h a v (hp.mem_iff.1 hm)⟩

/-- Both verdicts occur. -/
example : TargetMatches Sample.env0 { length := 2, hashes := some [(b!"sha256", Sample.env0.sha256 [5, 6])] } [5, 6] ∧
    ¬ TargetMatches Sample.env0 { length := 2, hashes := some [(b!"md5", [])] } [5, 6] := by
  refine ⟨⟨rfl, ?_⟩, fun h => ?_⟩
  · intro a v hm
    simp at hm
    obtain ⟨rfl, rfl⟩ := hm
    exact .sha256
  · have := h.2 b!"md5" [] (by simp)
    exact absurd (digestOf_supported (digest_iff.1 this)) (by unfold Supported; decide)

/-! ## C62 -/

theorem hashesEqualLoop_iff (source : Hashes) (es : Entries Bytes) (c : Bool) :
    hashesEqualLoop source es c = true ↔ (∀ alg y, (alg, y) ∈ es → ∀ x, source.get? alg = some x → x = y) ∧
      (c = true ∨ ∃ e ∈ es, (source.get? e.1).isSome = true) := by
  induction es generalizing c with
  | nil => simp [hashesEqualLoop]
  | cons e r ih =>
    obtain ⟨a, y⟩ := e
    simp only [hashesEqualLoop]
    cases hg : source.get? a with
    | none =>
      simp only
      rw [ih]
      constructor
      · rintro ⟨h1, h2⟩
        refine ⟨fun alg y' hm x hx => ?_, h2.imp id (fun ⟨e, he, h⟩ => ⟨e, List.mem_cons_of_mem _ he, h⟩)⟩
        rcases List.mem_cons.1 hm with hm | hm
        · cases hm; rw [hg] at hx; cases hx
        · exact h1 alg y' hm x hx
      · rintro ⟨h1, h2⟩
        refine ⟨fun alg y' hm => h1 alg y' (List.mem_cons_of_mem _ hm), h2.imp id ?_⟩
        rintro ⟨e, he, h⟩
        rcases List.mem_cons.1 he with rfl | he
        · rw [hg] at h; cases h
        · exact ⟨e, he, h⟩
    | some h0 =>
      simp only
      by_cases hh : h0 = y
      · subst hh
        rw [if_pos (by simp [hmacEqual]), ih]
        constructor
        · rintro ⟨h1, _⟩
          refine ⟨fun alg y' hm x hx => ?_, .inr ⟨(a, h0), by simp, by simp [hg]⟩⟩
          rcases List.mem_cons.1 hm with hm | hm
          · cases hm; rw [hg] at hx; exact (Option.some.inj hx).symm
          · exact h1 alg y' hm x hx
        · rintro ⟨h1, _⟩
          exact ⟨fun alg y' hm => h1 alg y' (List.mem_cons_of_mem _ hm), .inl rfl⟩
      · rw [if_neg (by simp [hmacEqual, hh])]
        constructor
        · intro h; cases h
        · rintro ⟨h1, _⟩
          exact absurd (h1 a y (by simp) h0 hg) hh

theorem hashesEqual_iff {a b : Hashes} (hb : UniqueKeys b) : hashesEqual a b = true ↔ SameHashes a b := by
  unfold hashesEqual SameHashes
  rw [hashesEqualLoop_iff]
  simp only [Bool.false_eq_true, false_or]
  constructor
  · rintro ⟨h1, ⟨alg, y⟩, hm, h2⟩
    exact ⟨⟨alg, h2, by rw [show b.get? alg = some y from Entries.get?_of_mem hb hm]; rfl⟩,
      fun alg x y hx hy => h1 alg y (Entries.mem_of_get? hy) x hx⟩
  · rintro ⟨⟨alg, h1, h2⟩, h3⟩
    obtain ⟨y, hy⟩ := Option.isSome_iff_exists.1 h2
    exact ⟨fun alg y hm x hx => h3 alg x y hx (Entries.get?_of_mem hb hm), (alg, y), Entries.mem_of_get? hy, h1⟩

/-- What `Equal` decides: equal length, a common algorithm, and agreement on all common algorithms. -/
theorem C62_equal_exact_partial (a b : TargetFiles) (hb : UniqueKeys b.hashes) :
    a.equal b = true ↔ a.length = b.length ∧ SameHashes a.hashes b.hashes := by
  unfold TargetFiles.equal
  rw [Bool.and_eq_true, decide_eq_true_eq, hashesEqual_iff hb]

/-- **C62, symmetric.** -/
theorem C62_symmetric_partial (a b : TargetFiles) (ha : UniqueKeys a.hashes) (hb : UniqueKeys b.hashes) (h : a.equal b = true) :
    b.equal a = true := by
  rw [C62_equal_exact_partial _ _ hb] at h
  rw [C62_equal_exact_partial _ _ ha]
  obtain ⟨h1, ⟨alg, h2, h3⟩, h4⟩ := h
  exact ⟨h1.symm, ⟨alg, h3, h2⟩, fun alg x y hx hy => (h4 alg y x hy hx).symm⟩

/-- **C62, reflexive** for infos with at least one hash. Missing: infos without hashes, for which it is false. -/
theorem C62_reflexive_partial (a : TargetFiles) (ha : UniqueKeys a.hashes) (hne : a.hashes.entries ≠ []) : a.equal a = true := by
  rw [C62_equal_exact_partial _ _ ha]
  refine ⟨rfl, ?_, fun alg x y hx hy => by rw [hx] at hy; exact Option.some.inj hy⟩
  obtain ⟨⟨alg, v⟩, r, hr⟩ := List.exists_cons_of_ne_nil hne
  have : a.hashes.get? alg = some v := Entries.get?_of_mem ha (by rw [hr]; simp)
  exact ⟨alg, by rw [this]; rfl, by rw [this]; rfl⟩

/-- **C62, transitive** if all three list the same algorithms. Missing: different algorithms, for which it is false. -/
theorem C62_transitive_partial (a b c : TargetFiles) (hb : UniqueKeys b.hashes) (hc : UniqueKeys c.hashes)
    (hab : ∀ alg, (a.hashes.get? alg).isSome = (b.hashes.get? alg).isSome)
    (hbc : ∀ alg, (b.hashes.get? alg).isSome = (c.hashes.get? alg).isSome)
    (h1 : a.equal b = true) (h2 : b.equal c = true) : a.equal c = true := by
  rw [C62_equal_exact_partial _ _ hb] at h1
  rw [C62_equal_exact_partial _ _ hc] at h2 ⊢
  obtain ⟨l1, ⟨alg, s1, s2⟩, e1⟩ := h1
  obtain ⟨l2, _, e2⟩ := h2
  refine ⟨l1.trans l2, ⟨alg, s1, by rw [← hbc]; exact s2⟩, fun alg x z hx hz => ?_⟩
  have : (b.hashes.get? alg).isSome = true := by rw [← hab, hx]; rfl
  obtain ⟨y, hy⟩ := Option.isSome_iff_exists.1 this
  exact (e1 alg x y hx hy).trans (e2 alg y z hy hz)

/-- **C62 is false**: without hashes `Equal` is not reflexive; with different algorithms it is not transitive. -/
theorem C62_not_equivalence : (∃ a : TargetFiles, a.equal a = false) ∧
    ∃ a b c : TargetFiles, a.equal b = true ∧ b.equal c = true ∧ a.equal c = false := by
  refine ⟨⟨{ length := 1, hashes := some [] }, by decide⟩,
    { hashes := some [(b!"sha256", [1])] }, { hashes := some [(b!"sha256", [1]), (b!"sha512", [2])] },
    { hashes := some [(b!"sha512", [2])] }, by decide, by decide, by decide⟩

example : TargetFiles.equal { length := 3, hashes := some [(b!"sha256", [1]), (b!"sha512", [2])] } { length := 3, hashes := some [(b!"sha256", [1])] } = true := by
  decide

/-! ## C63 -/

theorem hexVal_iff (c : UInt8) (v : Nat) : hexVal c = some v ↔ HexDigit c v := by
  unfold hexVal HexDigit
  constructor
  · intro h
    split at h
    · cases h; omega
    · split at h
      · cases h; omega
      · split at h
        · cases h; omega
        · cases h
  · rintro (⟨h1, h2, rfl⟩ | ⟨h1, h2, rfl⟩ | ⟨h1, h2, rfl⟩)
    · rw [if_pos ⟨h1, h2⟩]
    · rw [if_neg (by omega), if_pos ⟨h1, h2⟩]
    · rw [if_neg (by omega), if_neg (by omega), if_pos ⟨h1, h2⟩]

theorem hexDigit_lt {c : UInt8} {v : Nat} (h : HexDigit c v) : v < 16 := by unfold HexDigit at h; omega

theorem hexDecode_pairs : ∀ (s : Str) (b : Bytes), hexDecode s = some b → HexPairs s b
  | [], b, h => by simp [hexDecode] at h; subst h; exact .nil
  | [_], b, h => by simp [hexDecode] at h
  | x :: y :: r, b, h => by
    simp only [hexDecode] at h
    split at h
    · next a c z h1 h2 h3 =>
      cases h
      have ha := (hexVal_iff _ _).1 h1
      have hc := (hexVal_iff _ _).1 h2
      have := hexDigit_lt ha
      have := hexDigit_lt hc
      refine .cons ha hc ?_ (hexDecode_pairs r z h3)
      rw [UInt8.toNat_ofNat']
      omega
    · cases h

theorem hexDecode_iff (s : Str) (b : Bytes) : hexDecode s = some b ↔ HexPairs s b := by
  refine ⟨hexDecode_pairs s b, fun h => ?_⟩
  induction h with
  | nil => rfl
  | cons ha hb hc _ ih =>
    simp only [hexDecode, (hexVal_iff _ _).2 ha, (hexVal_iff _ _).2 hb, ih]
    rw [← hc, UInt8.ofNat_toNat]

/-- **C63.** Unmarshalling a marshalled value gives the same bytes. -/
theorem C63_round_trip (b : Bytes) : decHex (encHex b) = .ok b := by
  simp [encHex, decHex, hexDecode_hexEncode]

/-- **C63.** Exactly the strings of pairs of hex digits (of either case) are accepted, with the value they stand for. -/
theorem C63_accepts (j : Json) (b : Bytes) : decHex j = .ok b ↔ ∃ s, j = .str s ∧ HexPairs s b := by
  unfold decHex
  split
  · next s =>
    rw [Res.ofOption_eq_ok, hexDecode_iff]
    exact ⟨fun h => ⟨s, rfl, h⟩, fun ⟨s', hs, h⟩ => by cases hs; exact h⟩
  · next hne =>
    constructor
    · intro h; cases h
    · rintro ⟨s, rfl, _⟩; exact absurd rfl (hne s)

/-- **C63.** Marshalled values are strings of two lowercase hex digits per byte. -/
theorem C63_lowercase (b : Bytes) : ∃ s, encHex b = .str s ∧ s.length = 2 * b.length ∧ HexPairs s b ∧
    ∀ c ∈ s, (48 ≤ c.toNat ∧ c.toNat ≤ 57) ∨ (97 ≤ c.toNat ∧ c.toNat ≤ 102) := by
  refine ⟨_, rfl, hexEncode_length b, (hexDecode_iff _ _).1 (hexDecode_hexEncode b), ?_⟩
  have hd : ∀ d : Fin 16, (48 ≤ (digitChar d.val).toNat ∧ (digitChar d.val).toNat ≤ 57) ∨ (97 ≤ (digitChar d.val).toNat ∧ (digitChar d.val).toNat ≤ 102) := by
    decide
  induction b with
  | nil => simp [hexEncode]
  | cons x r ih =>
    intro c hc
    have hx := x.toNat_lt
    simp only [hexEncode, List.mem_cons] at hc
    rcases hc with rfl | rfl | hc
    · exact hd ⟨x.toNat / 16, by omega⟩
    · exact hd ⟨x.toNat % 16, by omega⟩
    · exact ih c hc

example : decHex (.str b!"aF0") = .err jsonErr ∧ decHex (.str b!"aF01") = .ok [0xAF, 1] ∧ decHex .null = .err jsonErr := by decide

/-! ## C50 -/

theorem subKind_repository (k : Kind) : SubKind k .repository ↔
    k = .repository ∨ k = .unsignedMetadata ∨ k = .badVersionNumber ∨ k = .equalVersionNumber ∨ k = .expiredMetadata ∨ k = .lengthOrHashMismatch := by
  constructor
  · intro h
    cases h with
    | refl => simp
    | step h r => cases h <;> first | (simp; done) | (cases r; rename_i h' _; cases h')
  · rintro (rfl | rfl | rfl | rfl | rfl | rfl)
    · exact .refl _
    · exact .step .unsigned (.refl _)
    · exact .step .badVersion (.refl _)
    · exact .step .equalVersion (.step .badVersion (.refl _))
    · exact .step .expired (.refl _)
    · exact .step .mismatch (.refl _)

theorem subKind_base {k t : Kind} (hb : ∀ p, ¬ DirectSubset k p) : SubKind k t ↔ k = t := by
  constructor
  · intro h
    cases h with
    | refl => rfl
    | step h _ => exact absurd h (hb _)
  · rintro rfl; exact .refl _

theorem subKind_one {k p t : Kind} (hp : DirectSubset k p) (hu : ∀ q, DirectSubset k q → q = p) (hb : ∀ q, ¬ DirectSubset p q) :
    SubKind k t ↔ k = t ∨ t = p := by
  constructor
  · intro h
    cases h with
    | refl => exact .inl rfl
    | step h r => cases hu _ h; exact .inr ((subKind_base hb).1 r).symm
  · rintro (rfl | rfl)
    · exact .refl _
    · exact .step hp (.refl _)

/-- **C50, partially.** For an error of a type with a parent in the documented hierarchy, `errors.Is` with the empty value of a type holds
exactly for the type itself and its ancestors. Missing: the types at the top of the hierarchy, where it is false
(`C50_repository_error_not_recognised`). -/
theorem C50_hierarchy_partial (e : Err) (k t : Kind) (hk : kindOf e = some k) (hp : ∃ p, DirectSubset k p) :
    e.is t.empty = true ↔ SubKind k t := by
  have norepo : ∀ q, ¬ DirectSubset .repository q := by intro q h; cases h
  have nodl : ∀ q, ¬ DirectSubset .download q := by intro q h; cases h
  have heq : SubKind .equalVersionNumber t ↔ t = .equalVersionNumber ∨ t = .badVersionNumber ∨ t = .repository := by
    constructor
    · intro h
      cases h with
      | refl => simp
      | step h r =>
        cases h
        cases r with
        | refl => simp
        | step h r => cases h; exact .inr (.inr ((subKind_base norepo).1 r).symm)
    · rintro (rfl | rfl | rfl)
      · exact .refl _
      · exact .step .equalVersion (.refl _)
      · exact .step .equalVersion (.step .badVersion (.refl _))
  cases e <;> simp only [kindOf, Option.some.injEq, reduceCtorEq] at hk <;> subst hk
  case repository => obtain ⟨p, h⟩ := hp; cases h
  case download => obtain ⟨p, h⟩ := hp; cases h
  case value => obtain ⟨p, h⟩ := hp; cases h
  case type => obtain ⟨p, h⟩ := hp; cases h
  case runtime => obtain ⟨p, h⟩ := hp; cases h
  case equalVersionNumber m => rw [heq]; cases t <;> simp [Err.is, Err.isMethod, Kind.empty]
  case unsignedMetadata m =>
    rw [subKind_one .unsigned (by intro q h; cases h; rfl) norepo]; cases t <;> simp [Err.is, Err.isMethod, Kind.empty]
  case badVersionNumber m =>
    rw [subKind_one .badVersion (by intro q h; cases h; rfl) norepo]; cases t <;> simp [Err.is, Err.isMethod, Kind.empty]
  case expiredMetadata m =>
    rw [subKind_one .expired (by intro q h; cases h; rfl) norepo]; cases t <;> simp [Err.is, Err.isMethod, Kind.empty]
  case lengthOrHashMismatch m =>
    rw [subKind_one .mismatch (by intro q h; cases h; rfl) norepo]; cases t <;> simp [Err.is, Err.isMethod, Kind.empty]
  case downloadLengthMismatch m =>
    rw [subKind_one .downloadLength (by intro q h; cases h; rfl) nodl]; cases t <;> simp [Err.is, Err.isMethod, Kind.empty]
  case downloadHTTP s u =>
    rw [subKind_one .http (by intro q h; cases h; rfl) nodl]; cases t <;> simp [Err.is, Err.isMethod, Kind.empty]

/-- **C50 is false**: an `ErrRepository` with a message, which is what the library returns, is not recognised as repository error,
nor is any other error of a type without parent recognised as of its type. -/
theorem C50_repository_error_not_recognised (e : Err) (k t : Kind) (hk : kindOf e = some k) (hp : ∀ p, ¬ DirectSubset k p)
    (hne : e ≠ k.empty) : e.is t.empty = false := by
  cases e <;> simp only [kindOf, Option.some.injEq, reduceCtorEq] at hk <;> subst hk
  case unsignedMetadata => exact absurd .unsigned (hp _)
  case badVersionNumber => exact absurd .badVersion (hp _)
  case equalVersionNumber => exact absurd .equalVersion (hp _)
  case expiredMetadata => exact absurd .expired (hp _)
  case lengthOrHashMismatch => exact absurd .mismatch (hp _)
  case downloadLengthMismatch => exact absurd .downloadLength (hp _)
  case downloadHTTP => exact absurd .http (hp _)
  all_goals
    simp only [Kind.empty] at hne
    cases t <;> simp [Err.is, Err.isMethod, Kind.empty, beq_eq_false_iff_ne] <;> simpa using hne

/-- **C50 is false**, concretely: `errors.Is(ErrRepository{"..."}, ErrRepository{})` is false. -/
theorem C50_false : (Err.repository "new root version is not trusted version + 1").is (Kind.repository).empty = false := by decide

/-- An error that is recognised through two levels. -/
example : (Err.equalVersionNumber "v").is (Kind.repository).empty = true ∧ (Err.equalVersionNumber "v").is (Kind.download).empty = false := by decide

/-! ## C74 to C76 -/

theorem wrap64_id {n : Int} (h1 : -(2 ^ 63) ≤ n) (h2 : n < 2 ^ 63) : wrap64 n = n := by
  unfold wrap64
  rw [Int.bmod_eq_of_le] <;> omega

theorem wrap64_succ {n : Int} (h1 : -(2 ^ 63) ≤ n) (h2 : n < 2 ^ 63) : wrap64 (n + 1) = n + 1 ∨ (n = 2 ^ 63 - 1 ∧ wrap64 (n + 1) = -(2 ^ 63)) := by
  by_cases h : n + 1 < 2 ^ 63
  · exact .inl (wrap64_id (by omega) h)
  · have : n = 2 ^ 63 - 1 := by omega
    subst this
    exact .inr ⟨rfl, by decide⟩

theorem readLimited_read (r : Response) (n : Int) : (readLimited r n).2 ≤ n.toNat := by
  unfold readLimited
  simp only
  split
  · split
    · next h => exact Nat.le_of_lt h.1
    · exact Nat.min_le_left _ _
  · exact Nat.min_le_left _ _

theorem readLimited_data {r : Response} {n : Int} {data : Bytes} (h : (readLimited r n).1 = some data) :
    data = r.body.take n.toNat ∧ ∀ k, r.failAt = some k → k ≤ r.body.length → n.toNat ≤ k := by
  unfold readLimited at h
  simp only at h
  split at h
  · next k hk =>
    split at h
    · cases h
    · next hn =>
      refine ⟨(Option.some.inj h).symm, fun k' hk' hle => ?_⟩
      rw [hk] at hk'
      cases hk'
      omega
  · next hk =>
    refine ⟨(Option.some.inj h).symm, fun k' hk' => ?_⟩
    rw [hk] at hk'
    cases hk'

/-- The end of `DownloadFile`: what follows reading the body. -/
def afterRead (maxLength : Int) (x : Option Bytes × Nat) : Res Bytes × Nat :=
  match x with
  | (none, k) => (.err (.other "read"), k)
  | (some data, k) => if (data.length : Int) > maxLength then (.err (.downloadLengthMismatch "too long"), k) else (.ok data, k)

theorem downloadFile_200 (url : Str) (maxLength : Int) (r : Response) (hs : r.status = 200) :
    downloadFile url maxLength (some r) =
      if r.contentLength = [] then afterRead maxLength (readLimited r (wrap64 (maxLength + 1)))
      else match parseInt10 r.contentLength with
        | none => (.err (.other "strconv"), 0)
        | some length => if length > maxLength then (.err (.downloadLengthMismatch "too long"), 0)
          else afterRead maxLength (readLimited r (wrap64 (maxLength + 1))) := by
  unfold downloadFile
  simp only [hs, ne_eq, not_true, if_false]
  rfl

theorem afterRead_cases (maxLength : Int) (x : Option Bytes × Nat) :
    (∃ e, afterRead maxLength x = (.err e, x.2)) ∨
    (∃ data, afterRead maxLength x = (.ok data, x.2) ∧ x.1 = some data ∧ (data.length : Int) ≤ maxLength) := by
  obtain ⟨o, k⟩ := x
  unfold afterRead
  cases o with
  | none => exact .inl ⟨_, rfl⟩
  | some data =>
    by_cases hl : (data.length : Int) > maxLength
    · exact .inl ⟨.downloadLengthMismatch "too long", by simp only [if_pos hl]⟩
    · exact .inr ⟨data, by simp only [if_neg hl], rfl, by omega⟩

/-- The ways to return from `DownloadFile` after a response of status 200. -/
theorem downloadFile_cases (url : Str) (maxLength : Int) (r : Response) (hs : r.status = 200) :
    (∃ e, downloadFile url maxLength (some r) = (.err e, 0)) ∨
    (∃ e, downloadFile url maxLength (some r) = (.err e, (readLimited r (wrap64 (maxLength + 1))).2)) ∨
    (∃ data, downloadFile url maxLength (some r) = (.ok data, (readLimited r (wrap64 (maxLength + 1))).2) ∧
      (readLimited r (wrap64 (maxLength + 1))).1 = some data ∧ (data.length : Int) ≤ maxLength) := by
  rw [downloadFile_200 url maxLength r hs]
  split
  · exact .inr (afterRead_cases _ _)
  · split
    · exact .inl ⟨_, rfl⟩
    · split
      · exact .inl ⟨_, rfl⟩
      · exact .inr (afterRead_cases _ _)

/-- **C74.** No more than `maxLength` bytes are returned and no more than `maxLength + 1` are read, for every response and every
int64 limit. -/
theorem C74_bounded (url : Str) (maxLength : Int) (res : Option Response) (h1 : -(2 ^ 63) ≤ maxLength) (h2 : maxLength < 2 ^ 63) :
    (∀ data n, downloadFile url maxLength res = (.ok data, n) → (data.length : Int) ≤ maxLength) ∧
    ((downloadFile url maxLength res).2 : Int) ≤ max 0 (maxLength + 1) := by
  cases res with
  | none => exact ⟨fun data n h => (by simp [downloadFile] at h), by simp [downloadFile]; omega⟩
  | some r =>
    by_cases hs : r.status = 200
    · have hrd := readLimited_read r (wrap64 (maxLength + 1))
      have hw := wrap64_succ h1 h2
      rcases downloadFile_cases url maxLength r hs with ⟨e, h⟩ | ⟨e, h⟩ | ⟨data, h, _, hl⟩
      · rw [h]
        exact ⟨fun data n h' => (by cases h'), by simp; omega⟩
      · rw [h]
        exact ⟨fun data n h' => (by cases h'), by simp only; omega⟩
      · rw [h]
        refine ⟨fun data' n h' => (by cases h'; exact hl), by simp only; omega⟩
    · have : downloadFile url maxLength (some r) = (.err (.downloadHTTP r.status url), 0) := by
        unfold downloadFile
        simp only [ne_eq, hs, not_false_eq_true, if_true]
      rw [this]
      exact ⟨fun data n h' => (by cases h'), by simp; omega⟩

/-- **C75, for limits below 2^63-1.** Returned data is the complete body of a response of status 200 whose body was read without failure.
Missing: the limit 2^63-1, where it is false (`C75_empty_at_max_limit`). -/
theorem C75_complete_partial (url : Str) (maxLength : Int) (res : Option Response) (h1 : -(2 ^ 63) ≤ maxLength) (h2 : maxLength < 2 ^ 63 - 1)
    (data : Bytes) (n : Nat) (h : downloadFile url maxLength res = (.ok data, n)) :
    ∃ r, res = some r ∧ r.status = 200 ∧ data = r.body ∧ ¬ Response.Broken r := by
  cases res with
  | none => simp [downloadFile] at h
  | some r =>
    by_cases hs : r.status = 200
    · rcases downloadFile_cases url maxLength r hs with ⟨e, h'⟩ | ⟨e, h'⟩ | ⟨data', h', hd, hl⟩
      · rw [h] at h'; cases h'
      · rw [h] at h'; cases h'
      · rw [h] at h'
        cases h'
        obtain ⟨he, hf⟩ := readLimited_data hd
        rw [wrap64_id (by omega) (by omega)] at he hf
        have hlen : r.body.length ≤ (maxLength + 1).toNat := by
          have : data.length = min (maxLength + 1).toNat r.body.length := by rw [he, List.length_take]
          omega
        have hdb : data = r.body := by rw [he, List.take_of_length_le hlen]
        refine ⟨r, rfl, hs, hdb, ?_⟩
        rintro ⟨k, hk, hle⟩
        have := hf k hk hle
        rw [hdb] at hl
        omega
    · have : downloadFile url maxLength (some r) = (.err (.downloadHTTP r.status url), 0) := by
        unfold downloadFile
        simp only [ne_eq, hs, not_false_eq_true, if_true]
      rw [this] at h
      cases h

theorem parseDec_numeral {s : Str} {n : Nat} (h : Numeral s n) : s ≠ [] ∧ ∀ acc rest, parseDecDigits acc (s ++ rest) = parseDecDigits (acc * 10 ^ s.length + n) rest := by
  have hd : ∀ d : Nat, d < 10 → ∀ acc rest, parseDecDigits acc (UInt8.ofNat (48 + d) :: rest) = parseDecDigits (acc * 10 + d) rest := by
    intro d hd acc rest
    have ht : (UInt8.ofNat (48 + d)).toNat = 48 + d := by rw [UInt8.toNat_ofNat']; omega
    show (if 48 ≤ (UInt8.ofNat (48 + d)).toNat ∧ (UInt8.ofNat (48 + d)).toNat ≤ 57 then _ else _) = _
    rw [ht, if_pos (by omega), Nat.add_sub_cancel_left]
  induction h with
  | digit d h => exact ⟨by simp, fun acc rest => by simpa using hd d h acc rest⟩
  | @snoc s n d h1 h2 ih =>
    refine ⟨by simp, fun acc rest => ?_⟩
    rw [List.append_assoc, ih.2, List.singleton_append, hd d h2, List.length_append, List.length_singleton, Nat.pow_succ]
    congr 1
    rw [Nat.add_mul, Nat.mul_assoc]
    omega

theorem numeral_parseDec {s t : Str} {acc n : Nat} (ht : Numeral t acc) (h : parseDecDigits acc s = some n) : Numeral (t ++ s) n := by
  induction s generalizing t acc with
  | nil => cases h; simpa using ht
  | cons c r ih =>
    unfold parseDecDigits at h
    split at h
    · next hc =>
      have hcc : c = UInt8.ofNat (48 + (c.toNat - 48)) := by
        rw [show 48 + (c.toNat - 48) = c.toNat by omega]; simp
      have := ih (t := t ++ [c]) (acc := acc * 10 + (c.toNat - 48)) (by
        have := Numeral.snoc (c.toNat - 48) ht (by omega)
        rw [← hcc, Nat.mul_comm] at this
        exact this) h
      simpa using this
    · cases h

theorem numeral_parseDec0 {s : Str} {n : Nat} (hne : s ≠ []) (h : parseDecDigits 0 s = some n) : Numeral s n := by
  cases s with
  | nil => exact absurd rfl hne
  | cons c r =>
    unfold parseDecDigits at h
    split at h
    · next hc =>
      have hcc : c = UInt8.ofNat (48 + (c.toNat - 48)) := by
        rw [show 48 + (c.toNat - 48) = c.toNat by omega]; simp
      have := numeral_parseDec (t := [c]) (by
        have := Numeral.digit (c.toNat - 48) (by omega)
        rw [← hcc] at this
        rw [Nat.zero_mul, Nat.zero_add]
        exact this) h
      simpa using this
    · cases h

theorem numeral_head {s : Str} {n : Nat} (h : Numeral s n) : ∃ c r, s = c :: r ∧ 48 ≤ c.toNat := by
  induction h with
  | digit d h => exact ⟨_, _, rfl, by rw [UInt8.toNat_ofNat']; omega⟩
  | snoc d h1 h2 ih => obtain ⟨c, r, rfl, hc⟩ := ih; exact ⟨c, _, rfl, hc⟩

/-- Reading a number reads exactly the declared lengths that fit into 64 bits. -/
theorem parseInt10_iff {s : Str} {v : Int} : parseInt10 s = some v ↔ DeclaresLength s v ∧ -(2 ^ 63) ≤ v ∧ v < 2 ^ 63 := by
  have hint : ∀ v : Int, inInt64 v = true ↔ -(2 ^ 63) ≤ v ∧ v < 2 ^ 63 := by intro v; simp [inInt64]
  have body : ∀ (neg : Bool) (r : Str) (v : Int), (if r = [] then none else match parseDecDigits 0 r with
      | none => none
      | some n => if inInt64 (if neg then -(n : Int) else (n : Int)) then some (if neg then -(n : Int) else (n : Int)) else none) = some v ↔
      ∃ n : Nat, Numeral r n ∧ v = (if neg then -(n : Int) else (n : Int)) ∧ -(2 ^ 63) ≤ v ∧ v < 2 ^ 63 := by
    intro neg r v
    constructor
    · intro h
      split at h
      · cases h
      · next hne =>
        split at h
        · cases h
        · next n hn =>
          generalize hw : (if neg = true then -(n : Int) else (n : Int)) = w at h
          by_cases hi : inInt64 w = true
          · rw [if_pos hi] at h
            have := Option.some.inj h
            subst this
            exact ⟨n, numeral_parseDec0 hne hn, hw.symm, (hint _).1 hi⟩
          · rw [if_neg hi] at h
            exact absurd h (by simp)
    · rintro ⟨n, hn, rfl, hb⟩
      have := (parseDec_numeral hn).2 0 []
      rw [List.append_nil, Nat.zero_mul, Nat.zero_add] at this
      rw [if_neg (parseDec_numeral hn).1, this]
      dsimp only [parseDecDigits]
      rw [if_pos ((hint _).2 hb)]
  unfold parseInt10
  dsimp only
  split
  · next r =>
    refine Iff.trans (body false r v) ?_
    constructor
    · rintro ⟨n, hn, rfl, hb⟩; exact ⟨.plus hn, hb⟩
    · rintro ⟨h, hb⟩
      cases h with
      | plain h => obtain ⟨c, r, he, hc⟩ := numeral_head h; cases he; exact absurd hc (by decide)
      | plus h => exact ⟨_, h, rfl, hb⟩
  · next r =>
    refine Iff.trans (body true r v) ?_
    constructor
    · rintro ⟨n, hn, rfl, hb⟩; exact ⟨.minus hn, hb⟩
    · rintro ⟨h, hb⟩
      cases h with
      | plain h => obtain ⟨c, r, he, hc⟩ := numeral_head h; cases he; exact absurd hc (by decide)
      | minus h => exact ⟨_, h, rfl, hb⟩
  · next hp hm =>
    refine Iff.trans (body false s v) ?_
    constructor
    · rintro ⟨n, hn, rfl, hb⟩; exact ⟨.plain hn, hb⟩
    · rintro ⟨h, hb⟩
      cases h with
      | plain h => exact ⟨_, h, rfl, hb⟩
      | plus h => exact absurd rfl (hp _)
      | minus h => exact absurd rfl (hm _)

/-- **C75, converse.** A response of status 200 within the limit and without failure is returned completely, if its `Content-Length` is absent or
a number within the limit, with or without a sign. -/
theorem C75_delivers (url : Str) (maxLength : Int) (r : Response) (h1 : -(2 ^ 63) ≤ maxLength) (h2 : maxLength < 2 ^ 63 - 1) (hs : r.status = 200)
    (hl : (r.body.length : Int) ≤ maxLength) (hb : r.failAt = none)
    (hc : r.contentLength = [] ∨ ∃ n, DeclaresLength r.contentLength n ∧ -(2 ^ 63) ≤ n ∧ n ≤ maxLength) :
    ∃ n, downloadFile url maxLength (some r) = (.ok r.body, n) := by
  have hread : readLimited r (wrap64 (maxLength + 1)) = (some r.body, r.body.length) := by
    unfold readLimited
    simp only [hb, wrap64_id (show -(2 ^ 63) ≤ maxLength + 1 by omega) (by omega)]
    rw [List.take_of_length_le (by omega), Nat.min_eq_right (by omega)]
  refine ⟨r.body.length, ?_⟩
  have ha : afterRead maxLength (some r.body, r.body.length) = (.ok r.body, r.body.length) := by
    unfold afterRead
    simp only
    rw [if_neg (by omega)]
  rw [downloadFile_200 url maxLength r hs, hread, ha]
  rcases hc with hc | ⟨n, hc, hn', hn⟩
  · rw [if_pos hc]
  · rw [parseInt10_iff.2 ⟨hc, hn', by omega⟩]
    simp only
    rw [if_neg (show ¬ n > maxLength by omega)]
    split <;> rfl

/-- **C75, declared lengths.** With a header that is not empty, data is returned only if it declares a length within the limit; otherwise nothing of the body is read. -/
theorem C75_declared (url : Str) (maxLength : Int) (r : Response) (hs : r.status = 200) (hc : r.contentLength ≠ []) (h2 : maxLength < 2 ^ 63)
    (hbad : ∀ n, DeclaresLength r.contentLength n → n < -(2 ^ 63) ∨ maxLength < n) : ∃ e, downloadFile url maxLength (some r) = (.err e, 0) := by
  rw [downloadFile_200 url maxLength r hs, if_neg hc]
  cases hp : parseInt10 r.contentLength with
  | none => exact ⟨_, rfl⟩
  | some n =>
    obtain ⟨h3, h4, h5⟩ := parseInt10_iff.1 hp
    have := hbad n h3
    exact ⟨.downloadLengthMismatch "too long", by simp only; rw [if_pos (by omega)]⟩

/-- Cases of `DeclaresLength`. -/
example : DeclaresLength b!"+12" 12 ∧ DeclaresLength b!"-0" (-0) := ⟨.plus (.snoc 2 (.digit 1 (by decide)) (by decide)), .minus (.digit 0 (by decide))⟩

/-- **C75 is false at the largest limit**: `maxLength + 1` wraps around, nothing is read, and empty data is returned without error. -/
theorem C75_empty_at_max_limit : ∃ r : Response, r.status = 200 ∧ r.body ≠ [] ∧ downloadFile b!"u" (2 ^ 63 - 1) (some r) = (.ok [], 0) :=
  ⟨{ status := 200, body := [1, 2, 3] }, rfl, by decide, by decide⟩

/-- **C76.** Every status other than 200 is reported with that status, and nothing of the body is read. -/
theorem C76_status (url : Str) (maxLength : Int) (r : Response) (hs : r.status ≠ 200) :
    downloadFile url maxLength (some r) = (.err (.downloadHTTP r.status url), 0) := by
  unfold downloadFile
  simp only [ne_eq, hs, not_false_eq_true, if_true]

example : downloadFile b!"u" 3 (some { status := 200, body := [1, 2, 3], contentLength := b!"3" }) = (.ok [1, 2, 3], 3) ∧
    downloadFile b!"u" 2 (some { status := 200, body := [1, 2, 3] }) = (.err (.downloadLengthMismatch "too long"), 3) ∧
    downloadFile b!"u" 2 (some { status := 404 }) = (.err (.downloadHTTP 404 b!"u"), 0) := by decide

/-! ## C77 -/

theorem getLast?_join_concat {α : Type} (l : List (Option α)) (x : Option α) : (l ++ [x]).getLast?.join = x := by simp

/-- **C77.** After any history of setter calls every getter returns what was last set for its role, nil if nothing was. -/
theorem C77_map_semantics (cs : List SetCall) (name : Str) :
    let r := cs.foldl SetCall.run Repository.new
    r.root = lastRoot cs ∧ r.snapshot = lastSnapshot cs ∧ r.timestamp = lastTimestamp cs ∧ r.getTargets name = lastTargets name cs := by
  have key : ∀ rev : List SetCall, let cs := rev.reverse
      let r := cs.foldl SetCall.run Repository.new
      r.root = lastRoot cs ∧ r.snapshot = lastSnapshot cs ∧ r.timestamp = lastTimestamp cs ∧ r.getTargets name = lastTargets name cs := by
    intro rev
    induction rev with
    | nil => exact ⟨rfl, rfl, rfl, rfl⟩
    | cons c rev ih =>
      obtain ⟨h1, h2, h3, h4⟩ := ih
      simp only [List.reverse_cons, List.foldl_append, List.foldl_cons, List.foldl_nil]
      generalize hr : List.foldl SetCall.run Repository.new rev.reverse = r at h1 h2 h3 h4 ⊢
      unfold lastRoot lastSnapshot lastTimestamp lastTargets at *
      simp only [List.filterMap_append]
      cases c with
      | root m => refine ⟨?_, ?_, ?_, ?_⟩ <;> simp_all [SetCall.run, Repository.setRoot, Repository.getTargets]
      | snapshot m => refine ⟨?_, ?_, ?_, ?_⟩ <;> simp_all [SetCall.run, Repository.setSnapshot, Repository.getTargets]
      | timestamp m => refine ⟨?_, ?_, ?_, ?_⟩ <;> simp_all [SetCall.run, Repository.setTimestamp, Repository.getTargets]
      | targets n m =>
        refine ⟨by simp_all [SetCall.run, Repository.setTargets], by simp_all [SetCall.run, Repository.setTargets], by simp_all [SetCall.run, Repository.setTargets], ?_⟩
        by_cases hn : n = name
        · subst hn
          simp [SetCall.run, Repository.setTargets, Repository.getTargets]
        · simp only [SetCall.run, Repository.setTargets, Repository.getTargets, Entries.get?_set_ne _ _ hn] at h4 ⊢
          simpa [hn] using h4
  have := key cs.reverse
  rwa [List.reverse_reverse] at this

/-- A history that sets two targets roles and overwrites one. -/
example : ((([SetCall.targets b!"a" (some (newTargets Time.zero)), .targets b!"b" none, .targets b!"a" none].foldl SetCall.run Repository.new).getTargets b!"a").isSome) = false ∧
    ((([SetCall.targets b!"a" (some (newTargets Time.zero)), .targets b!"b" none].foldl SetCall.run Repository.new).getTargets b!"a").isSome) = true := by decide +kernel

end Tuf
