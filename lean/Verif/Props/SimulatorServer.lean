import Verif.Props.SimulatorSettled
import Verif.Proofs.Std.Url

/-! # The repository simulator: what it answers -/

namespace Tuf
open Tuf.Spec Tuf.Std

section
variable {env : Env} {q : SimEnv} {mat : Nat → Bytes} {e : Time} {N : Int}

/-- Letters, digits, `-`, `_`, `.`, `~`. -/
def NameByte (c : UInt8) : Prop := (48 ≤ c.toNat ∧ c.toNat ≤ 57) ∨ (65 ≤ c.toNat ∧ c.toNat ≤ 90) ∨ (97 ≤ c.toNat ∧ c.toNat ≤ 122) ∨ c = 45 ∨ c = 95 ∨ c = 46 ∨ c = 126

theorem nameByte_dir {c : UInt8} (h : NameByte c) : DirByte c := by
  rcases h with h | h | h | rfl | rfl | rfl | rfl
  · exact .inl h
  · exact .inr (.inl h)
  · exact .inr (.inr (.inl h))
  all_goals exact .inr (.inr (.inr (by decide)))

theorem nameByte_ne {c : UInt8} (h : NameByte c) : c ≠ 47 ∧ c ≠ 37 := by
  constructor
  all_goals
    rintro rfl
    rcases h with h | h | h | h | h | h | h
    all_goals first | (exact absurd h (by decide))

theorem isPrefixOf_append (a b : Str) : List.isPrefixOf a (a ++ b) = true := List.isPrefixOf_iff_prefix.2 (List.prefix_append a b)
theorem isSuffixOf_append (a b : Str) : List.isSuffixOf b (a ++ b) = true := List.isSuffixOf_iff_suffix.2 (List.suffix_append a b)

theorem parse_dir {d m : Str} {c0 : UInt8} {r0 : Str} (hd : SimDir d) (hm : m = 47 :: c0 :: r0) (h0 : c0 ≠ 47) (hr : ∀ c ∈ m, c = 47 ∨ NameByte c) :
    ∃ u, Std.parseUrl (d ++ m) = some u ∧ u.path = d ++ m := by
  obtain ⟨ps, hps, rfl⟩ := hd
  have hb : ∀ c ∈ ps.flatMap (fun p => b!"/" ++ p) ++ m, c = 47 ∨ NameByte c := by
    intro c hc
    rw [List.mem_append] at hc
    rcases hc with hc | hc
    · obtain ⟨p, hp, hc⟩ := List.mem_flatMap.1 hc
      rcases List.mem_cons.1 hc with rfl | hc
      · exact .inl rfl
      · exact .inr ((hps p hp).chars c hc)
    · exact hr c hc
  have h37 : (37 : UInt8) ∉ ps.flatMap (fun p => b!"/" ++ p) ++ m := by
    intro h
    rcases hb _ h with h | h
    · cases h
    · exact (nameByte_ne h).2 rfl
  obtain ⟨u, hset, hpath⟩ : ∃ u, ({} : Url).setPath (ps.flatMap (fun p => b!"/" ++ p) ++ m) = some u ∧ u.path = ps.flatMap (fun p => b!"/" ++ p) ++ m := by
    unfold Url.setPath
    rw [unescapePath_plain h37]
    exact ⟨_, rfl, rfl⟩
  refine ⟨u, parse_path_set ⟨fun c hc => ?_, by rw [unescapePath_plain h37]; rfl⟩ ?_ hset, hpath⟩
  · rcases hb c hc with rfl | h
    · exact .inr (.inl rfl)
    · exact .inr (.inr (nameByte_dir h))
  · cases ps with
    | nil =>
      subst hm
      have hcc : ((47 : UInt8) == c0) = false := beq_eq_false_iff_ne.2 (Ne.symm h0)
      show ((47 : UInt8) == 47 && ((47 : UInt8) == c0 && _)) = false
      rw [hcc]
      rfl
    | cons p ps =>
      obtain ⟨c, r, hp⟩ : ∃ c r, p = c :: r := by
        cases p with
        | nil => exact absurd rfl (hps [] (by simp)).nonempty
        | cons c r => exact ⟨c, r, rfl⟩
      have hc := (nameByte_ne ((hps p (by simp)).chars c (by rw [hp]; simp))).1
      rw [hp]
      have hcc : ((47 : UInt8) == c) = false := beq_eq_false_iff_ne.2 (Ne.symm hc)
      show ((47 : UInt8) == 47 && ((47 : UInt8) == c && _)) = false
      rw [hcc]
      rfl

theorem parse_sim {d rest : Str} (hd : SimDir d) (hr : ∀ c ∈ rest, c = 47 ∨ NameByte c) : ∃ u, Std.parseUrl (d ++ b!"/metadata/" ++ rest) = some u ∧ u.path = d ++ b!"/metadata/" ++ rest := by
  rw [List.append_assoc]
  refine parse_dir hd (m := b!"/metadata/" ++ rest) rfl (by decide) (fun c hc => ?_)
  rcases List.mem_append.1 hc with hc | hc
  · simp only [List.mem_cons, List.not_mem_nil, or_false] at hc
    rcases hc with rfl | rfl | rfl | rfl | rfl | rfl | rfl | rfl | rfl | rfl
    · exact .inl rfl
    all_goals first | exact .inl rfl | exact .inr (.inr (.inr (.inl (by decide))))
  · exact hr c hc

theorem fetch_url {s : Sim} (hd : SimDir s.localDir) (hc : s.root.signed.consistentSnapshot = true) {name : Str} (hn : ∀ c ∈ name, NameByte c) :
    Sim.fetch q (s.localDir ++ b!"/metadata/" ++ name ++ b!".json") s =
      if (Sim.partition name 46).2 = ROOT ∨ name ≠ TIMESTAMP then Sim.fetchMetadata q (Sim.partition name 46).2 (Sim.atoi (Sim.partition name 46).1) s else Sim.fetchMetadata q name (-1) s := by
  obtain ⟨u, h1, h2⟩ := parse_sim (rest := name ++ b!".json") hd (by
    intro c hc
    rcases List.mem_append.1 hc with hc | hc
    · exact .inr (hn c hc)
    · simp only [List.mem_cons, List.not_mem_nil, or_false] at hc
      rcases hc with rfl | rfl | rfl | rfl | rfl
      · exact .inr (.inr (.inr (.inr (.inr (.inr (.inl rfl))))))
      all_goals exact .inr (.inr (.inr (.inl (by decide)))))
  unfold Sim.fetch
  rw [show s.localDir ++ b!"/metadata/" ++ name ++ b!".json" = s.localDir ++ b!"/metadata/" ++ (name ++ b!".json") by simp only [List.append_assoc], h1]
  dsimp only
  have ht : Sim.trimPrefix u.path s.localDir = b!"/metadata/" ++ (name ++ b!".json") := by
    unfold Sim.trimPrefix hasPrefix
    rw [h2, List.append_assoc, isPrefixOf_append, if_pos rfl, List.drop_left]
  rw [ht]
  have hp : hasPrefix (b!"/metadata/" ++ (name ++ b!".json")) b!"/metadata/" = true := isPrefixOf_append _ _
  have hsf : hasSuffix (b!"/metadata/" ++ (name ++ b!".json")) b!".json" = true := by
    rw [← List.append_assoc]
    exact isSuffixOf_append _ _
  rw [hp, hsf]
  have hv : ((b!"/metadata/" ++ (name ++ b!".json")).drop 10).take ((b!"/metadata/" ++ (name ++ b!".json")).length - 10 - 5) = name := by
    rw [show (10 : Nat) = (b!"/metadata/").length from rfl, List.drop_left]
    rw [show (b!"/metadata/" ++ (name ++ b!".json")).length - (b!"/metadata/").length - 5 = name.length by simp]
    exact List.take_left
  rw [hv]
  simp only [hc, Bool.and_self, true_and, if_true]

theorem formatInt_nat {v : Int} (h : 0 ≤ v) : formatInt 10 v = formatNat 10 v.natAbs := by
  unfold formatInt
  rw [if_neg (by omega)]

theorem decimal_digits : ∀ (ds : List Nat) (acc : Nat), (∀ d ∈ ds, d < 10) → Sim.decimal acc (ds.map digitChar) = some (ds.foldl (fun acc d => acc * 10 + d) acc)
  | [], acc, _ => rfl
  | d :: ds, acc, h => by
    have hd := h d (by simp)
    have hc : (digitChar d).toNat = 48 + d := by
      unfold digitChar
      rw [if_pos hd, UInt8.toNat_ofNat']
      omega
    rw [List.map_cons, Sim.decimal, hc, if_pos (by omega), List.foldl_cons, show 48 + d - 48 = d by omega]
    exact decimal_digits ds _ (fun x hx => h x (by simp [hx]))

theorem atoi_format {v : Int} (h : 0 ≤ v) (h' : v < 2 ^ 63) : Sim.atoi (formatInt 10 v) = v := by
  rw [formatInt_nat h]
  have hval : Sim.decimal 0 (formatNat 10 v.natAbs) = some v.natAbs := by
    unfold formatNat
    rw [decimal_digits _ _ (digits_lt (by omega) _)]
    exact congrArg some (digits_value (by omega) _)
  have hne : formatNat 10 v.natAbs ≠ [] := by
    have := formatInt_ne_nil 10 v
    rw [formatInt_nat h] at this
    exact this
  obtain ⟨c, r, hcr⟩ : ∃ c r, formatNat 10 v.natAbs = c :: r := by
    cases hf : formatNat 10 v.natAbs with
    | nil => exact absurd hf hne
    | cons c r => exact ⟨c, r, rfl⟩
  have hc := formatNat_mem (n := v.natAbs) (c := c) (by rw [hcr]; simp)
  unfold Sim.atoi
  dsimp only
  split
  · next r' he => rw [he] at hcr; cases hcr; exact absurd hc.1 (by decide)
  · next r' he => rw [he] at hcr; cases hcr; exact absurd hc.1 (by decide)
  · rw [if_neg hne, hval]
    dsimp only
    rw [if_neg (by decide)]
    omega

theorem partition_version {v : Int} (h : 0 ≤ v) {role : Str} (hr : (46 : UInt8) ∉ role) : Sim.partition (formatInt 10 v ++ b!"." ++ role) 46 = (formatInt 10 v, role) := by
  have h46 : (46 : UInt8) ∉ formatInt 10 v := by
    intro hm
    rw [formatInt_nat h] at hm
    exact absurd (formatNat_mem hm).1 (by decide)
  have : splitOn 46 (formatInt 10 v ++ b!"." ++ role) = [formatInt 10 v, role] := by
    have := splitOn_intercalate (sep := 46) (ps := [formatInt 10 v, role]) (by simp) (by
      intro p hp
      simp only [List.mem_cons, List.not_mem_nil, or_false] at hp
      rcases hp with rfl | rfl
      · exact h46
      · exact hr)
    simpa [List.intercalate] using this
  unfold Sim.partition
  rw [this]

theorem fetch_timestamp_url {s : Sim} (hd : SimDir s.localDir) (hc : s.root.signed.consistentSnapshot = true) :
    Sim.fetch q (s.localDir ++ b!"/metadata/" ++ b!"timestamp" ++ b!".json") s = Sim.fetchMetadata q TIMESTAMP (-1) s := by
  rw [fetch_url hd hc (by
    intro c hc
    simp only [List.mem_cons, List.not_mem_nil, or_false] at hc
    rcases hc with rfl | rfl | rfl | rfl | rfl | rfl | rfl | rfl | rfl
    all_goals exact .inr (.inr (.inl (by decide))))]
  rw [if_neg (by decide)]
  rfl

theorem fetch_versioned_url {s : Sim} (hd : SimDir s.localDir) (hc : s.root.signed.consistentSnapshot = true) {v : Int} (h : 0 ≤ v) (h' : v < 2 ^ 63) {role : Str}
    (hr : role ∈ [b!"root", b!"snapshot", b!"targets"]) :
    Sim.fetch q (s.localDir ++ b!"/metadata/" ++ (formatInt 10 v ++ b!"." ++ role) ++ b!".json") s = Sim.fetchMetadata q role v s := by
  have hb : ∀ c ∈ role, 97 ≤ c.toNat ∧ c.toNat ≤ 122 := by
    intro c hc
    simp only [List.mem_cons, List.not_mem_nil, or_false] at hr
    rcases hr with rfl | rfl | rfl <;> simp only [List.mem_cons, List.not_mem_nil, or_false] at hc
    · rcases hc with rfl | rfl | rfl | rfl <;> decide
    · rcases hc with rfl | rfl | rfl | rfl | rfl | rfl | rfl | rfl <;> decide
    · rcases hc with rfl | rfl | rfl | rfl | rfl | rfl | rfl <;> decide
  have h46 : (46 : UInt8) ∉ role := fun hm => absurd (hb _ hm).1 (by decide)
  have hn : formatInt 10 v ++ b!"." ++ role ≠ TIMESTAMP := by
    intro he
    have : (46 : UInt8) ∈ TIMESTAMP := by rw [← he]; simp
    exact absurd this (by decide)
  rw [fetch_url hd hc (by
    intro c hc
    rw [List.mem_append, List.mem_append] at hc
    rcases hc with (hc | hc) | hc
    · rw [formatInt_nat h] at hc
      exact .inl (formatNat_mem hc)
    · rw [List.mem_singleton.1 hc]
      exact .inr (.inr (.inr (.inr (.inr (.inl rfl)))))
    · exact .inr (.inr (.inl (hb c hc))))]
  rw [if_pos (.inr hn), partition_version h h46, atoi_format h h']

theorem download_eq {s : Sim} {url : Str} {n : Int} {data : Bytes} (h : (Sim.fetch q url s).1 = .ok data) (hn : (data.length : Int) ≤ n) : (Sim.downloadFile q url n s).1 = .ok data := by
  unfold Sim.downloadFile
  cases hf : Sim.fetch q url s with
  | mk r s' =>
    rw [hf] at h
    cases h
    rw [SM.bind_ok hf, if_neg (by omega)]
    rfl

theorem download_err {s : Sim} {url : Str} {n : Int} {e : Err} (h : (Sim.fetch q url s).1 = .err e) : (Sim.downloadFile q url n s).1 = .err e := by
  unfold Sim.downloadFile
  cases hf : Sim.fetch q url s with
  | mk r s' =>
    rw [hf] at h
    cases h
    rw [SM.bind_err hf]

theorem fetch_root {s : Sim} {i : Nat} {d : Bytes} (h : s.signedRoots[i]? = some d) : (Sim.fetchMetadata q ROOT ((i : Int) + 1) s).1 = .ok d := by
  have hi : i < s.signedRoots.length := by
    rcases List.getElem?_eq_some_iff.1 h with ⟨hi, _⟩
    exact hi
  unfold Sim.fetchMetadata
  rw [modify_bind, if_pos rfl]
  dsimp only
  rw [if_neg (by omega), if_neg (by omega), show ((i : Int) + 1 - 1).toNat = i by omega, h]

theorem fetch_root_none {s : Sim} : (Sim.fetchMetadata q ROOT ((s.signedRoots.length : Int) + 1) s).1 = .err (.downloadHTTP 404 []) := by
  unfold Sim.fetchMetadata
  rw [modify_bind, if_pos rfl]
  dsimp only
  rw [if_pos (by omega)]
  rfl

end

end Tuf
