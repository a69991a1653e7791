import Verif.Props.Simulator
import Verif.Props.ExampleCase

/-! # C132, C133: target files and delegations of the repository simulator -/

namespace Tuf
open Tuf.Spec Tuf.Std

variable {q : SimEnv}

/-! ## Target files -/

theorem splitAfterN_first {sep : UInt8} {n : Nat} {p : Str} {ps : List Str} {a b : Str} {rest : List Str} (h : Sim.splitAfterN sep n (p :: ps) = a :: b :: rest) : a = p ++ [sep] := by
  match n, ps with
  | 0, _ => simp [Sim.splitAfterN] at h
  | 1, _ => simp [Sim.splitAfterN] at h
  | _ + 2, [] => simp [Sim.splitAfterN] at h
  | n + 2, r :: ps =>
    simp only [Sim.splitAfterN, List.cons.injEq] at h
    exact h.1.symm

theorem lastIndex_first {s a b : Str} {sep : UInt8} (h : Sim.lastIndex s sep = .ok (a, b)) : ∃ p, sep ∉ p ∧ a = p ++ [sep] := by
  unfold Sim.lastIndex at h
  cases hs : splitOn sep s with
  | nil => exact absurd hs (splitOn_ne_nil _ _)
  | cons p ps =>
    rw [hs] at h
    split at h
    · next h1 =>
      cases h
      exact ⟨p, splitOn_no_sep sep s p (by rw [hs]; simp), splitAfterN_first h1⟩
    · cases h

theorem lastIndex_crash {s : Str} {sep : UInt8} (h : (splitOn sep s).length < 3) : Sim.lastIndex s sep = .panic := by
  unfold Sim.lastIndex
  match splitOn sep s, h with
  | [], _ => rfl
  | [_], _ => rfl
  | [_, _], _ => rfl

theorem splitOn_count (sep : UInt8) (s : Str) : (splitOn sep s).length = s.count sep + 1 := by
  induction s with
  | nil => rfl
  | cons c r ih =>
    rw [splitOn]
    by_cases hc : c = sep
    · rw [if_pos hc, List.length_cons, ih, hc, List.count_cons_self]
    · rw [if_neg hc, List.count_cons_of_ne hc]
      cases hs : splitOn sep r with
      | nil => exact absurd hs (splitOn_ne_nil _ _)
      | cons p ps => rw [hs] at ih; simpa using ih

/-- The bytes of the URL of a target file. -/
theorem target_bytes {path : Str} (h : ∀ c ∈ path, c = 47 ∨ NameByte c) : ∀ c ∈ b!"/targets/" ++ path, c = 47 ∨ NameByte c := by
  intro c hc
  rcases List.mem_append.1 hc with hc | hc
  · simp only [List.mem_cons, List.not_mem_nil, or_false] at hc
    rcases hc with rfl | rfl | rfl | rfl | rfl | rfl | rfl | rfl | rfl
    · exact .inl rfl
    all_goals first | exact .inl rfl | exact .inr (.inr (.inr (.inl (by decide))))
  · exact h c hc

theorem fetch_target_url {s : Sim} (hd : SimDir s.localDir) {path : Str} (hp : ∀ c ∈ path, c = 47 ∨ NameByte c) :
    Sim.fetch q (s.localDir ++ b!"/targets/" ++ path) s = match Sim.lastIndex path 47 with
      | .ok (dir, name) =>
        if s.root.signed.consistentSnapshot && s.prefixTargets then Sim.fetchTarget (dir ++ b!"/" ++ (Sim.partition name 46).2) (Sim.partition name 46).1 s
        else Sim.fetchTarget (dir ++ b!"/" ++ name) [] s
      | _ => (.panic, s) := by
  obtain ⟨u, h1, h2⟩ := parse_dir hd (m := b!"/targets/" ++ path) rfl (by decide) (target_bytes hp)
  unfold Sim.fetch
  rw [List.append_assoc, h1]
  dsimp only
  have ht : Sim.trimPrefix u.path s.localDir = b!"/targets/" ++ path := by
    unfold Sim.trimPrefix hasPrefix
    rw [h2, isPrefixOf_append, if_pos rfl, List.drop_left]
  rw [ht, if_neg (by
    rw [show hasPrefix (b!"/targets/" ++ path) b!"/metadata/" = false from rfl]
    simp), if_pos (show hasPrefix (b!"/targets/" ++ path) b!"/targets/" = true from isPrefixOf_append _ _), show (9 : Nat) = (b!"/targets/").length from rfl, List.drop_left]
  cases Sim.lastIndex path 47 <;> rfl

theorem download_ok {s : Sim} {url : Str} {n : Int} {data : Bytes} (h : (Sim.downloadFile q url n s).1 = .ok data) : (Sim.fetch q url s).1 = .ok data ∧ (data.length : Int) ≤ n := by
  unfold Sim.downloadFile at h
  cases hf : Sim.fetch q url s with
  | mk r s' =>
    cases r with
    | err e => rw [SM.bind_err hf] at h; cases h
    | panic => rw [SM.bind_panic hf] at h; cases h
    | ok d =>
      rw [SM.bind_ok hf] at h
      by_cases hn : (d.length : Int) > n
      · rw [if_pos hn] at h; cases h
      · rw [if_neg hn] at h
        cases h
        exact ⟨rfl, by omega⟩

theorem fetchTarget_ok {path hash : Str} {s : Sim} {data : Bytes} (h : (Sim.fetchTarget path hash s).1 = .ok data) :
    ∃ f, s.files.get? path = some (data, f) ∧ (hash ≠ [] → ∃ e ∈ f.hashes.entries, e.2 = hash) := by
  unfold Sim.fetchTarget at h
  dsimp only at h
  split at h
  · cases h
  · next d f hf =>
    split at h
    · cases h
    · next hc =>
      cases h
      refine ⟨f, hf, fun hne => ?_⟩
      simp only [ne_eq, hne, not_false_eq_true, decide_true, Bool.true_and, Bool.not_eq_true', Bool.not_eq_false, List.any_eq_true, beq_iff_eq] at hc
      exact hc

/-- C132: what the simulator returns for the URL of a target file is a file that was added under another path, one with an empty part after the first. -/
theorem C132_wrong_path {s : Sim} (hd : SimDir s.localDir) {path : Str} (hp : ∀ c ∈ path, c = 47 ∨ NameByte c) {n : Int} {data : Bytes}
    (h : (Sim.downloadFile q (s.localDir ++ b!"/targets/" ++ path) n s).1 = .ok data) : ∃ a b f, (47 : UInt8) ∉ a ∧ s.files.get? (a ++ b!"//" ++ b) = some (data, f) := by
  have h := (download_ok h).1
  rw [fetch_target_url hd hp] at h
  split at h
  · next dir name hl =>
    obtain ⟨p, h1, h2⟩ := lastIndex_first hl
    subst h2
    split at h
    · obtain ⟨f, h3, _⟩ := fetchTarget_ok h
      exact ⟨p, _, f, h1, by simpa using h3⟩
    · obtain ⟨f, h3, _⟩ := fetchTarget_ok h
      exact ⟨p, _, f, h1, by simpa using h3⟩
  · cases h

/-- C132: no target file can be downloaded from a simulator whose files have ordinary paths. -/
theorem C132_never {s : Sim} (hd : SimDir s.localDir) (hs : ∀ e ∈ s.files, ¬ b!"//" <:+: e.1) {path : Str} (hp : ∀ c ∈ path, c = 47 ∨ NameByte c) {n : Int} {data : Bytes} :
    (Sim.downloadFile q (s.localDir ++ b!"/targets/" ++ path) n s).1 ≠ .ok data := by
  intro h
  obtain ⟨a, b, f, _, h1⟩ := C132_wrong_path hd hp h
  exact hs _ (Entries.mem_of_get? h1) ⟨a, b, rfl⟩

/-- C132: with fewer than two slashes in the path, the simulator crashes. -/
theorem C132_crash {s : Sim} (hd : SimDir s.localDir) {path : Str} (hp : ∀ c ∈ path, c = 47 ∨ NameByte c) (hn : path.count 47 < 2) (n : Int) :
    (Sim.downloadFile q (s.localDir ++ b!"/targets/" ++ path) n s).1 = .panic := by
  have h : Sim.fetch q (s.localDir ++ b!"/targets/" ++ path) s = (.panic, s) := by
    rw [fetch_target_url hd hp, lastIndex_crash (by rw [splitOn_count]; omega)]
  unfold Sim.downloadFile
  rw [SM.bind_panic h]

/-- C132: hash prefixes, which are hexadecimal, are compared with the bytes of the hashes: a file with 32-byte hashes is never found by a prefix of 64 digits. -/
theorem C132_hash_prefix {s : Sim} {path hash : Str} {data : Bytes} {f : TargetFiles} (hf : s.files.get? path = some (data, f)) (hlen : ∀ e ∈ f.hashes.entries, hash.length = 2 * e.2.length)
    (hne : hash ≠ []) : (Sim.fetchTarget path hash s).1 = .err (.other "hash mismatch") := by
  unfold Sim.fetchTarget
  dsimp only
  rw [hf]
  dsimp only
  rw [if_pos]
  simp only [ne_eq, hne, not_false_eq_true, decide_true, Bool.true_and, Bool.not_eq_true', List.any_eq_false, beq_iff_eq]
  intro e he h
  have h2 := hlen e he
  rw [h] at h2
  have : hash.length ≠ 0 := by simpa using hne
  omega

/-! ## Other downloads -/

/-- C132: version 0 or less of root crashes the simulator. -/
theorem C132_root_crash {s : Sim} {v : Int} (hv : v ≤ 0) : (Sim.fetchMetadata q ROOT v s).1 = .panic := by
  unfold Sim.fetchMetadata
  rw [modify_bind, if_pos rfl]
  dsimp only
  rw [if_neg (by omega), if_pos hv]

/-- C132: other URLs give no data and no error. -/
theorem C132_other {s : Sim} (hd : SimDir s.localDir) {path : Str} {c0 : UInt8} {r0 : Str} (hm : path = 47 :: c0 :: r0) (h0 : c0 ≠ 47) (hp : ∀ c ∈ path, c = 47 ∨ NameByte c)
    (h1 : ¬ b!"/metadata/" <+: path ∨ ¬ b!".json" <:+ path) (h2 : ¬ b!"/targets/" <+: path) {n : Int} (hn : 0 ≤ n) : (Sim.downloadFile q (s.localDir ++ path) n s).1 = .ok [] := by
  refine download_eq ?_ (by simpa using hn)
  obtain ⟨u, e1, e2⟩ := parse_dir hd hm h0 hp
  unfold Sim.fetch
  rw [e1]
  dsimp only
  have ht : Sim.trimPrefix u.path s.localDir = path := by
    unfold Sim.trimPrefix hasPrefix
    rw [e2, isPrefixOf_append, if_pos rfl, List.drop_left]
  rw [ht, if_neg, if_neg]
  · exact fun h => h2 (List.isPrefixOf_iff_prefix.1 h)
  · rw [Bool.and_eq_true]
    rintro ⟨h3, h4⟩
    rcases h1 with h1 | h1
    · exact h1 (List.isPrefixOf_iff_prefix.1 h3)
    · exact h1 (List.isSuffixOf_iff_suffix.1 h4)

/-! ## Delegations -/

theorem createKey_snd {s s' : Sim} {k : Key × Signer} (h : Sim.createKey q s = (.ok k, s')) : s' = { s with created := s.created + 1 } := by
  unfold Sim.createKey at h
  dsimp only at h
  split at h
  · split at h
    · cases h; rfl
    · cases h
  · cases h

/-- C133: a delegation from a delegated role that has none yet is lost: the delegating role stays as it is. -/
theorem C133_lost {s s' : Sim} {name : Str} (hn : name ≠ TARGETS) {md : Metadata TargetsType} (hmd : s.delegates.get? name = some md) (hnone : md.signed.delegations = none) {role : DelegatedRole}
    {t : TargetsType} (h : Sim.addDelegation q name role t s = (.ok (), s')) : s'.delegates.get? name = some md := by
  unfold Sim.addDelegation at h
  dsimp only at h
  split at h
  · cases h
  · split at h
    · next k s1 hk =>
      have hs1 := createKey_snd hk
      have key : ∀ d, Sim.storeDelegations s1 name d = s1 := by
        intro d
        unfold Sim.storeDelegations
        rw [if_neg hn, hs1]
        dsimp only
        rw [hmd]
        dsimp only
        rw [hnone]
        rfl
      have fin : ∀ {s2 : Sim}, s2.delegates.get? name = some md → (if (s2.delegates.get? role.name).isSome then s2 else { s2 with delegates := s2.delegates.set role.name { signed := t } } : Sim).delegates.get? name = some md := by
        intro s2 h2
        split
        · exact h2
        · next hnn =>
          have hne : role.name ≠ name := by
            intro he
            rw [he, h2] at hnn
            exact hnn rfl
          exact (Entries.get?_set_ne _ _ hne).trans h2
      split at h
      · rw [key] at h
        cases h
        refine fin (s2 := (Sim.addSigner _ _ _ s1).2) ?_
        show s1.delegates.get? name = some md
        rw [hs1]
        exact hmd
      · rw [key] at h
        cases h
        refine fin (s2 := (Sim.addSigner _ _ _ s1).2) ?_
        show s1.delegates.get? name = some md
        rw [hs1]
        exact hmd
      · cases h
    · cases h

/-- C133: a delegation from the top level: the role is appended, with a new key, whose signer the simulator has; the metadata of the role is the given one, unless there was some already. -/
theorem C133_added {env : Env} (he : q.env = std env) (hq : FreshKeys q) (s : Sim) {d : Delegations} {rs : List DelegatedRole} {ks : Entries (Option Key)}
    (hd : s.targets.signed.delegations = some d ∨ (s.targets.signed.delegations = none ∧ d = { keys := some [], roles := some [] })) (hr : d.roles = some rs) (hks : d.keys = some ks)
    (hsr : d.succinctRoles = none) {role : DelegatedRole} (hn : ∀ r ∈ rs, r.name ≠ role.name) (t : TargetsType) :
    ∃ s' d' id, Sim.addDelegation q TARGETS role t s = (.ok (), s') ∧ SignerID q.env (q.fresh s.created) id ∧ s'.targets.signed = { s.targets.signed with delegations := some d' } ∧
      (∃ r, d'.roles = some (rs ++ [r]) ∧ (r = role ∧ id ∈ role.keyIDs.elems ∨ r = { role with keyIDs := some (role.keyIDs.elems ++ [id]) })) ∧ (∃ k, d'.keys.get? id = some (some k)) ∧
      ((s'.signers.get? role.name).getD []).get? id = some (q.fresh s.created) ∧
      s'.delegates.get? role.name = some ((s.delegates.get? role.name).getD { signed := t }) := by
  obtain ⟨mat, hk⟩ := simKeys he hq
  have hid : (edPlain (mat s.created)).ID (std env) = .ok (sid env mat s.created, edFiled (std env) (mat s.created)) := edPlain_id
  obtain ⟨rs', ks', ha, ⟨r0, hr0, hr0'⟩, hrs', hk', _⟩ := C59_add_to_role (std env) { s.targets.signed with delegations := some { d with roles := some (rs ++ [role]) } } _ _ ks _ _ role.name _ rfl rfl hks hid
    ⟨role, by simp, rfl⟩
  have hget : s.targets.signed.delegations.getD { keys := some [], roles := some [] } = d := by
    rcases hd with hd | ⟨hd, rfl⟩
    · rw [hd]; rfl
    · rw [hd]; rfl
  have hany : (Sim.delegator s TARGETS).delegations.any (fun d => d.succinctRoles.isSome) = false := by
    show s.targets.signed.delegations.any _ = false
    rcases hd with hd | ⟨hd, _⟩
    · rw [hd]; show d.succinctRoles.isSome = false; rw [hsr]; rfl
    · rw [hd]; rfl
  let s1 : Sim := { s with
    created := s.created + 1
    targets := { s.targets with signed := { s.targets.signed with delegations := some { d with roles := some rs', keys := some ks' } } }
    signers := s.signers.set role.name (((s.signers.get? role.name).getD []).set (sid env mat s.created) (q.fresh s.created)) }
  have hrun : Sim.addDelegation q TARGETS role t s = (.ok (), if (s1.delegates.get? role.name).isSome then s1 else { s1 with delegates := s1.delegates.set role.name { signed := t } }) := by
    unfold Sim.addDelegation
    dsimp only
    rw [hany, if_neg (by decide), createKey_eq hk s]
    dsimp only
    rw [hk.same, hid, show (Sim.delegator s TARGETS).delegations = s.targets.signed.delegations from rfl, hget, hr]
    have : ({ Sim.delegator s TARGETS with delegations := some { d with roles := some (Slice.elems (some rs) ++ [role]) } } : TargetsType) =
      { s.targets.signed with delegations := some { d with roles := some (rs ++ [role]) } } := rfl
    rw [this, ha]
    rfl
  have hshape : ∃ r, rs' = rs ++ [r] ∧ (r = role ∧ sid env mat s.created ∈ role.keyIDs.elems ∨ r = { role with keyIDs := some (role.keyIDs.elems ++ [sid env mat s.created]) }) := by
    rcases hrs' with h | ⟨pre, r, post, h1, h2, h3, h4⟩
    · refine ⟨role, h, .inl ⟨rfl, ?_⟩⟩
      have hmem : r0 ∈ rs ++ [role] := by
        rw [← h]
        obtain ⟨pre, post, h1, h2, h3⟩ := hr0
        rw [h1]; simp
      have hname : r0.name = role.name := by
        obtain ⟨pre, post, h1, h2, h3⟩ := hr0
        exact h3
      rcases List.mem_append.1 hmem with hm | hm
      · exact absurd hname (hn r0 hm)
      · rw [List.mem_singleton] at hm
        rw [← hm]; exact hr0'
    · rcases List.append_eq_append_iff.1 h1 with ⟨as, e1, e2⟩ | ⟨bs, e1, e2⟩
      · cases as with
        | nil =>
          simp only [List.nil_append, List.cons.injEq] at e2
          obtain ⟨rfl, rfl⟩ := e2
          refine ⟨_, h4.trans ?_, .inr rfl⟩
          rw [e1]; simp
        | cons a as => simp at e2
      · cases bs with
        | nil =>
          simp only [List.nil_append, List.cons.injEq] at e2
          obtain ⟨rfl, rfl⟩ := e2
          refine ⟨_, h4.trans ?_, .inr rfl⟩
          rw [e1]; simp
        | cons b bs =>
          simp only [List.cons_append, List.cons.injEq] at e2
          exact absurd h2 (hn r (by rw [e1, e2.1]; simp))
  obtain ⟨r, hr1, hr2⟩ := hshape
  refine ⟨_, { d with roles := some rs', keys := some ks' }, sid env mat s.created, hrun, ?_, ?_, ⟨r, by rw [hr1], hr2⟩, ⟨_, hk'⟩, ?_, ?_⟩
  · rw [he]
    exact (ed_id (hk.ed s.created)).2 rfl
  · split <;> rfl
  · have : ((s1.signers.get? role.name).getD []).get? (sid env mat s.created) = some (q.fresh s.created) := by
      show (((Entries.set s.signers role.name _).get? role.name).getD []).get? _ = _
      rw [Entries.get?_set_self]
      exact Entries.get?_set_self _ _ _
    split
    · exact this
    · exact this
  · have h1 : s1.delegates = s.delegates := rfl
    cases hg : s.delegates.get? role.name with
    | none =>
      rw [if_neg (by simp)]
      exact Entries.get?_set_self _ _ _
    | some md =>
      rw [if_pos (by rfl)]
      exact hg

theorem addBins_ok (e : Time) (id : Str) (signer : Signer) : ∀ (names : List Str) (s : Sim), ∃ s', Sim.addBins e id signer names s = (.ok (), s')
  | [], s => ⟨s, rfl⟩
  | name :: names, s => addBins_ok e id signer names _

/-- C133: hash bins cannot be added: the call always crashes. -/
theorem C133_succinct (s : Sim) (name : Str) (bits : Int) (namePrefix : Str) : (Sim.addSuccinctRoles q name bits namePrefix s).1 = .panic := by
  unfold Sim.addSuccinctRoles
  dsimp only
  split
  · rfl
  · split
    · next k s1 hk =>
      cases hid : k.1.ID q.env with
      | err e => rfl
      | panic => rfl
      | ok id =>
        dsimp only
        obtain ⟨s2, h2⟩ := addBins_ok s1.safeExpiry id.1 k.2 (SuccinctRoles.getRoles { keyIDs := some [], threshold := 1, bitLength := bits, namePrefix := namePrefix })
          (Sim.replaceDelegations s1 name (some { keys := none, roles := none, succinctRoles := some { keyIDs := some [], threshold := 1, bitLength := bits, namePrefix := namePrefix } }))
        rw [h2]
        dsimp only
        unfold TargetsType.addKey
        dsimp only
        rw [hid]
        rfl
    · rfl

end Tuf
