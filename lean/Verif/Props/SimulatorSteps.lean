import Verif.Props.SimulatorRuns

/-! # The repository simulator: an invariant of what tests do with it -/

namespace Tuf
open Tuf.Spec Tuf.Std

/-! ## Keys -/

/-- The material of the keys. -/
structure SimKeys (env : Env) (q : SimEnv) (mat : Nat → Bytes) : Prop where
  same : q.env = std env
  ed : ∀ n, EdSigner (std env) (q.fresh n) (mat n)
  inj : ∀ a b, edID (std env) (mat a) = edID (std env) (mat b) → q.fresh a = q.fresh b ∧ mat a = mat b

theorem simKeys {env : Env} {q : SimEnv} (he : q.env = std env) (hq : FreshKeys q) : ∃ mat, SimKeys env q mat := by
  obtain ⟨mat, h⟩ := Classical.axiomOfChoice hq.work
  rw [he] at h
  refine ⟨mat, he, h, fun a b hab => ?_⟩
  have h1 := hq.distinct a b _ (by rw [he]; exact (ed_id (h a)).2 rfl) (by rw [he]; exact (ed_id (h b)).2 hab)
  have h2 := (h a).public
  rw [h1, (h b).public] at h2
  exact ⟨h1, by simpa using h2.symm⟩

section
variable {env : Env} {q : SimEnv} {mat : Nat → Bytes}

/-- The key ID of the n-th key. -/
def sid (env : Env) (mat : Nat → Bytes) (n : Nat) : Str := edID (std env) (mat n)

theorem simKeys_works (hk : SimKeys env q mat) (n : Nat) : Works q.env (q.fresh n) := by
  rw [hk.same]
  exact ed_works (hk.ed n)

/-- Role and key in a root. -/
structure HasKey (env : Env) (mat : Nat → Bytes) (r : RootType) (role : Str) (n : Nat) : Prop where
  role : r.roles.get? role = some (some (oneKey (sid env mat n)))
  key : r.keys.get? (sid env mat n) = some (some (edFiled (std env) (mat n)))

theorem suffice_key (hk : SimKeys env q mat) {r : RootType} {role : Str} {n : Nat} (h : HasKey env mat r role n) {ss : List Signer} (hn : q.fresh n ∈ ss) (hss : ∀ s ∈ ss, ∃ k, s = q.fresh k)
    {m : Metadata RootType} (hm : m.signed = r) : Suffice (std env) (.root m) role ss := by
  subst hm
  refine ⟨_, _, _, Delegates.root h.role, by simp [oneKey], ⟨[sid env mat n], by simp, by simp [oneKey], ?_⟩, ?_⟩
  · intro id hid
    rw [List.mem_singleton] at hid
    subst hid
    exact ⟨List.mem_singleton.2 rfl, _, hn, (ed_id (hk.ed n)).2 rfl⟩
  · intro id hid
    have hid' : id = sid env mat n := List.mem_singleton.1 hid
    subst hid'
    refine ⟨_, _, _, h.key, ed_verifier (hk.ed n), (hk.ed n).total, ?_⟩
    intro s' hs' hid p sig hsig
    obtain ⟨k, rfl⟩ := hss s' hs'
    rw [← (hk.inj _ _ ((ed_id (hk.ed k)).1 hid)).1] at hsig
    obtain ⟨sig', h1, h2⟩ := (hk.ed n).signs p
    rw [h1] at hsig
    cases hsig
    exact h2

theorem createKey_eq (hk : SimKeys env q mat) (s : Sim) : Sim.createKey q s = (.ok (edPlain (mat s.created), q.fresh s.created), { s with created := s.created + 1 }) := by
  unfold Sim.createKey
  dsimp only
  rw [(hk.ed s.created).public]
  rfl

/-- The role after a key was added. -/
def addID (id : Str) (r : Role) : Role := if id ∈ r.keyIDs.elems then r else { r with keyIDs := some (r.keyIDs.elems ++ [id]) }

theorem newKeyFor_eq (hk : SimKeys env q mat) {s : Sim} {role : Str} {r : Role} {es : Entries (Option Role)} {ks : Entries (Option Key)}
    (hr : s.root.signed.roles = some es) (hg : es.get? role = some (some r)) (hks : s.root.signed.keys = some ks) :
    Sim.newKeyFor q role s = (.ok (), { s with
      created := s.created + 1
      root := { s.root with signed := { s.root.signed with
        roles := some (es.set role (some (addID (sid env mat s.created) r)))
        keys := some (ks.set (sid env mat s.created) (some (edFiled (std env) (mat s.created)))) } }
      signers := s.signers.set role (((s.signers.get? role).getD []).set (sid env mat s.created) (q.fresh s.created)) }) := by
  unfold Sim.newKeyFor
  rw [SM.bind_ok (createKey_eq hk s)]
  have hid : (edPlain (mat s.created)).ID q.env = .ok (sid env mat s.created, edFiled (std env) (mat s.created)) := by
    rw [hk.same]
    exact edPlain_id
  dsimp only
  rw [addKey_eq hr hg hks hid, hid]
  rfl

theorem fineKey_ed (m : Bytes) (d : Nat) : FineKey (std env) d (edPlain m) :=
  ⟨⟨goodFields_nil _, goodFields_nil _⟩, ⟨wholeNil, wholeNil⟩, ⟨utf8_name (by rfl), utf8_name (by rfl), ⟨hexEncode_utf8 _, fieldsText_nil⟩, fieldsText_nil⟩, utf8_name (by rfl)⟩

/-! ## Chains of roots -/

structure PubRoot where
  root : RootType
  signers : List Signer
  data : Bytes

/-- Published roots, each signed for itself and for the one before it. -/
structure Chain (env : Env) (l : List PubRoot) : Prop where
  each : ∀ (i : Nat) (p : PubRoot), l[i]? = some p → GoodRoot (std env) p.root ∧ Publishes (std env) p.root p.signers p.data ∧ Suffice (std env) (.root { signed := p.root }) ROOT p.signers ∧ p.root.version = (i : Int) + 1
  next : ∀ (i : Nat) (p p' : PubRoot), l[i]? = some p → l[i + 1]? = some p' → Suffice (std env) (.root { signed := p.root }) ROOT p'.signers

theorem Chain.snoc {l : List PubRoot} (h : Chain env l) {p : PubRoot} (h1 : GoodRoot (std env) p.root) (h2 : Publishes (std env) p.root p.signers p.data)
    (h3 : Suffice (std env) (.root { signed := p.root }) ROOT p.signers) (h4 : p.root.version = (l.length : Int) + 1)
    (h5 : ∀ p', l.getLast? = some p' → Suffice (std env) (.root { signed := p'.root }) ROOT p.signers) : Chain env (l ++ [p]) := by
  refine ⟨?_, ?_⟩
  · intro i p' hi
    rcases Nat.lt_trichotomy i l.length with hlt | rfl | hgt
    · rw [List.getElem?_append_left hlt] at hi
      exact h.each i p' hi
    · rw [List.getElem?_concat_length] at hi
      cases hi
      exact ⟨h1, h2, h3, h4⟩
    · rw [List.getElem?_eq_none (by simp; omega)] at hi
      cases hi
  · intro i p1 p2 hi hi2
    rcases Nat.lt_trichotomy (i + 1) l.length with hlt | heq | hgt
    · rw [List.getElem?_append_left hlt] at hi2
      rw [List.getElem?_append_left (by omega)] at hi
      exact h.next i p1 p2 hi hi2
    · rw [heq, List.getElem?_concat_length] at hi2
      cases hi2
      rw [List.getElem?_append_left (by omega)] at hi
      refine h5 p1 ?_
      rw [List.getLast?_eq_getElem?, ← hi]
      congr 1
      omega
    · rw [List.getElem?_eq_none (by simp; omega)] at hi2
      cases hi2

theorem chain_leads {x : Ctx} {srv : Str → Int → Except Err Bytes} {b u : Str} {l : List PubRoot} (hx : x.env = std env) (hc : Chain env l) (hb : SlashBase x.cfg.remoteMetadataURL b)
    (hserve : ∀ (i : Nat) (p : PubRoot), l[i]? = some p → srv (b ++ formatInt 10 ((i : Int) + 1) ++ b!".root.json") x.cfg.rootMaxLength = .ok p.data)
    (hend : srv (b ++ formatInt 10 ((l.length : Int) + 1) ++ b!".root.json") x.cfg.rootMaxLength = .error (.downloadHTTP 404 u)) (hlen : l.length < 2 ^ 62) {last : PubRoot}
    (hlast : l.getLast? = some last) (k : Nat) : ∀ (i : Nat) (p : PubRoot), l.length = i + 1 + k → l[i]? = some p → ∀ n, k ≤ n → ∀ t : Trusted, t.timestamp = none → t.root.signed = readRoot p.root →
      ∃ t', RootsLeadTo x srv n t t' ∧ t'.root.signed = readRoot last.root := by
  have wr : ∀ i : Nat, i < 2 ^ 62 → wrap64 ((i : Int) + 1 + 1) = (i : Int) + 1 + 1 := fun i hi => wrap64_of_range (by
    unfold inInt64
    simp only [Bool.and_eq_true, decide_eq_true_eq]
    omega)
  induction k with
  | zero =>
    intro i p hl hi n _ t _ ht
    have hp : p = last := by
      rw [List.getLast?_eq_getElem?, show l.length - 1 = i by omega, hi] at hlast
      cases hlast
      rfl
    subst hp
    refine ⟨t, ?_, ht⟩
    match n with
    | 0 => exact .limit
    | n + 1 =>
      refine .newest ⟨b, hb, rfl⟩ (status := 404) (u := u) ?_ (.inr rfl)
      have hv := (hc.each i p hi).2.2.2
      rw [ht, readRoot_version, hv, wr i (by omega)]
      have : ((l.length : Nat) : Int) = (i : Int) + 1 := by omega
      rw [this] at hend
      simp only [List.append_assoc] at hend ⊢
      exact hend
  | succ k ih =>
    intro i p hl hi n hn t htt ht
    obtain ⟨p', hp'⟩ : ∃ p', l[i + 1]? = some p' := ⟨_, List.getElem?_eq_getElem (by omega)⟩
    obtain ⟨g1, g2, g3, g4⟩ := hc.each _ _ hp'
    have hv := (hc.each i p hi).2.2.2
    have hvt : t.root.signed.version = (i : Int) + 1 := by rw [ht, readRoot_version, hv]
    obtain ⟨m, hm, hlead⟩ := basic_step (srv := srv) hx g1 g2 (t := t) htt (suffice_root (m := { signed := p.root }) (by rw [ht]) (hc.next i p p' hi hp')) g3
      (by rw [g4, hvt]; omega) hb (by
        rw [hvt, wr i (by omega)]
        have := hserve _ _ hp'
        rw [show ((i + 1 : Nat) : Int) = (i : Int) + 1 by omega] at this
        exact this)
    match n, hn with
    | n + 1, hn =>
      obtain ⟨t', h1, h2⟩ := ih (i + 1) p' (by omega) hp' n (by omega) { t with root := m } htt (by exact hm)
      exact ⟨t', hlead n t' h1, h2⟩

/-! ## The invariant -/

/-- An entry of snapshot or timestamp; its length may be too large for an int64. -/
structure LooseMeta (a : MetaFiles) : Prop where
  fields : a.unrec = []
  nonneg : 0 ≤ a.length
  version : inInt64 a.version = true
  sorted : Entries.Sorted a.hashes.entries
  text : ∀ e ∈ a.hashes.entries, Utf8 e.1

theorem loose_stored {a : MetaFiles} (h : LooseMeta a) (hl : a.length < 2 ^ 63) : StoredMeta (std env) a := by
  refine ⟨⟨by rw [h.fields]; exact goodFields_nil _, ?_, h.version, h.sorted⟩, ?_, ⟨fun e he => ⟨h.text e he, trivial⟩, ?_⟩⟩
  · have := h.nonneg
    unfold inInt64
    simp only [Bool.and_eq_true, decide_eq_true_eq]
    omega
  · unfold WholeMeta
    rw [h.fields]
    exact wholeNil
  · rw [h.fields]
    exact fieldsText_nil

theorem loose_one : LooseMeta { version := 1 } := ⟨rfl, Int.le_refl _, rfl, List.Pairwise.nil, fun e he => by cases he⟩

/-- The name is listed for a role that exists, with its version or an older one. -/
def Listed (s : Sim) (name : Str) (f : MetaFiles) : Prop :=
  (name = TARGETS ++ b!".json" ∧ f.version ≤ s.targets.signed.version) ∨ ∃ role md, name = role ++ b!".json" ∧ s.delegates.get? role = some md ∧ f.version = md.signed.version

structure Base (env : Env) (q : SimEnv) (mat : Nat → Bytes) (e : Time) (s : Sim) : Prop where
  safe : s.safeExpiry = e
  root : RootInv env s.root.signed
  rootFields : s.root.unrec = []
  consistent : s.root.signed.consistentSnapshot = true
  rootExpires : s.root.signed.expires = e
  rootKey : ∃ n es, n < s.created ∧ HasKey env mat s.root.signed ROOT n ∧ s.signers.get? ROOT = some es ∧ (sid env mat n, q.fresh n) ∈ es
  roleKey : ∀ role ∈ [TIMESTAMP, SNAPSHOT, TARGETS], ∃ n, n < s.created ∧ HasKey env mat s.root.signed role n ∧ s.signers.get? role = some [(sid env mat n, q.fresh n)]
  signers : ∀ role es, s.signers.get? role = some es → Entries.Sorted es ∧ ∀ x ∈ es, ∃ n, n < s.created ∧ x = (sid env mat n, q.fresh n)
  targets : TargetsInv env s.targets.signed
  targetsFields : s.targets.unrec = []
  targetsExpires : s.targets.signed.expires = e
  targetsMap : ∃ es, s.targets.signed.targets = some es
  delegations : ∀ d, s.targets.signed.delegations = some d → d.succinctRoles = none ∧ (∃ ks, d.keys = some ks) ∧ ∃ rs, d.roles = some rs
  snapshot : SnapshotInv env { s.snapshot.signed with metas := some [] }
  snapshotMetas : FineMap LooseMeta s.snapshot.signed.metas
  snapshotMap : ∃ es, s.snapshot.signed.metas = some es
  snapshotFields : s.snapshot.unrec = []
  snapshotExpires : s.snapshot.signed.expires = e
  timestamp : TimestampInv env { s.timestamp.signed with metas := some [] }
  timestampMetas : FineMap LooseMeta s.timestamp.signed.metas
  timestampMap : ∃ es, s.timestamp.signed.metas = some es
  timestampFields : s.timestamp.unrec = []
  timestampExpires : s.timestamp.signed.expires = e
  delegates : ∀ role md, s.delegates.get? role = some md → role ∉ [ROOT, TIMESTAMP, SNAPSHOT, TARGETS] ∧ Utf8 role ∧ inInt64 md.signed.version = true
  listed : ∀ name f, s.snapshot.signed.metas.get? name = some (some f) → Listed s name f
  delegatesSorted : Entries.Sorted s.delegates

theorem Base.same {e : Time} {s s' : Sim} (h : Base env q mat e s) (hs : Same s s') : Base env q mat e s' := by
  obtain ⟨h1, h2, h3, h4, h5, h6, h7, h8, ⟨h9, h9'⟩, ⟨h10, h10'⟩, ⟨h11, h11'⟩, h12⟩ := hs
  obtain ⟨a1, a2, a3, a4, a5, a6, a7, a8, a9, a10, a11, a12, a13, a14, a15, a16, a17, a18, a19, a20, a21, a22, a23, a24, a25, a26⟩ := h
  unfold Listed at a25
  refine ⟨by rw [h6]; exact a1, by rw [h12]; exact a2, by rw [h12]; exact a3, by rw [h12]; exact a4, by rw [h12]; exact a5, by rw [h12, h3, h8]; exact a6, by rw [h12, h3, h8]; exact a7,
    by rw [h3, h8]; exact a8, by rw [h9]; exact a9, by rw [h9']; exact a10, by rw [h9]; exact a11, by rw [h9]; exact a12, by rw [h9]; exact a13, by rw [h10]; exact a14, by rw [h10]; exact a15,
    by rw [h10]; exact a16, by rw [h10']; exact a17, by rw [h10]; exact a18, by rw [h11]; exact a19, by rw [h11]; exact a20, by rw [h11]; exact a21, by rw [h11']; exact a22, by rw [h11]; exact a23,
    by rw [h1]; exact a24, ?_, by rw [h1]; exact a26⟩
  unfold Listed
  rw [h10, h9, h1]
  exact a25

/-! ## Rotating keys -/

structure Rotated (env : Env) (q : SimEnv) (mat : Nat → Bytes) (s : Sim) (role : Str) (s' : Sim) : Prop where
  created : s'.created = s.created + 1
  others : s' = { s with root := s'.root, signers := s'.signers, created := s'.created }
  root : s'.root = { s.root with signed := { s.root.signed with roles := s'.root.signed.roles, keys := s'.root.signed.keys } }
  inv : RootInv env s'.root.signed
  new : HasKey env mat s'.root.signed role s.created
  old : ∀ r n, r ≠ role → n < s.created → HasKey env mat s.root.signed r n → HasKey env mat s'.root.signed r n
  signers : s'.signers.get? role = some [(sid env mat s.created, q.fresh s.created)]
  otherSigners : ∀ r, r ≠ role → s'.signers.get? r = s.signers.get? r

/-- The state after the keys of a role were removed. -/
def cleared (s : Sim) (role : Str) (r : Role) : Sim :=
  { s with
    root := { s.root with signed := { s.root.signed with roles := s.root.signed.roles.map (fun es => es.set role (some { r with keyIDs := some [] })) } }
    signers := if (s.signers.get? role).isSome then s.signers.set role [] else s.signers }

theorem rotateKeys_cleared {s : Sim} {role : Str} {r : Role} (h : s.root.signed.roles.get? role = some (some r)) :
    Sim.rotateKeys q role s = Sim.newKeys q (List.replicate r.threshold.toNat role) (cleared s role r) := by
  unfold Sim.rotateKeys
  rw [h]
  rfl

theorem rotate_eq (hk : SimKeys env q mat) {s : Sim} {role : Str} {n : Nat} (hi : RootInv env s.root.signed) (h : HasKey env mat s.root.signed role n) (hu : Utf8 role) :
    ∃ s', Sim.rotateKeys q role s = (.ok (), s') ∧ Rotated env q mat s role s' := by
  obtain ⟨es, hes⟩ : ∃ es, s.root.signed.roles = some es := by
    cases hr : s.root.signed.roles with
    | none => have := h.role; rw [hr] at this; cases this
    | some es => exact ⟨es, rfl⟩
  obtain ⟨ks, hks⟩ : ∃ ks, s.root.signed.keys = some ks := by
    cases hr : s.root.signed.keys with
    | none => have := h.key; rw [hr] at this; cases this
    | some ks => exact ⟨ks, rfl⟩
  have hrun := newKeyFor_eq (q := q) hk (role := role) (r := { oneKey (sid env mat n) with keyIDs := some [] }) (es := es.set role (some { oneKey (sid env mat n) with keyIDs := some [] })) (ks := ks)
    (s := cleared s role (oneKey (sid env mat n)))
    (by unfold cleared; dsimp only; rw [hes]; rfl) (Entries.get?_set_self _ _ _) hks
  have hrot := (rotateKeys_cleared (q := q) h.role).trans ((SM.bind_ok hrun).trans rfl)
  refine ⟨_, hrot, ?_⟩
  · have hget : ((if (s.signers.get? role).isSome then s.signers.set role [] else s.signers : Entries (Entries Signer)).get? role).getD [] = [] := by
      split
      · rw [Entries.get?_set_self]; rfl
      · next hn => rw [Option.not_isSome_iff_eq_none.1 hn]; rfl
    have hadd : addID (sid env mat s.created) { oneKey (sid env mat n) with keyIDs := some [] } = oneKey (sid env mat s.created) := by
      unfold addID
      rw [if_neg (by simp [Slice.elems])]
      rfl
    have hid := fineKey_ID (fineKey_ed (env := env) (mat s.created) 9995) edPlain_id
    refine ⟨rfl, rfl, rfl, ?_, ?_, ?_, ?_, ?_⟩
    · have h1 := hi.roles
      have h2 := hi.keys
      rw [hes] at h1
      rw [hks] at h2
      have hst : ∀ ids : List Str, (∀ i ∈ ids, Utf8 i) → StoredRole (std env) 9995 { keyIDs := some ids, threshold := 1 } := fun ids hids =>
        ⟨⟨goodFields_nil _, rfl⟩, wholeNil, ⟨hids, fieldsText_nil⟩⟩
      refine ⟨hi.fields, hi.type, hi.spec, hi.version, hi.expires, h2.set hid.1 hid.2, (h1.set hu (hst [] (by simp))).set hu ?_⟩
      show StoredRole (std env) 9995 (addID (sid env mat s.created) { oneKey (sid env mat n) with keyIDs := some [] })
      rw [hadd]
      exact hst _ (fun i hi => by rw [List.mem_singleton] at hi; subst hi; exact hid.1)
    · refine ⟨?_, Entries.get?_set_self _ _ _⟩
      show Entries.get? (Entries.set _ role (some (addID (sid env mat s.created) { oneKey (sid env mat n) with keyIDs := some [] }))) role = _
      rw [hadd]
      exact Entries.get?_set_self _ _ _
    · intro r n' hr hn' ho
      refine ⟨?_, ?_⟩
      · have := ho.role
        rw [hes] at this
        show Entries.get? (Entries.set (Entries.set es role _) role _) r = _
        rw [Entries.get?_set_ne _ _ (Ne.symm hr), Entries.get?_set_ne _ _ (Ne.symm hr)]
        exact this
      · have := ho.key
        rw [hks] at this
        show Entries.get? (Entries.set ks (sid env mat s.created) _) (sid env mat n') = _
        by_cases he : sid env mat s.created = sid env mat n'
        · rw [← he, Entries.get?_set_self, ← (hk.inj _ _ he).2]
          rfl
        · rw [Entries.get?_set_ne _ _ he]
          exact this
    · show Entries.get? (Entries.set _ role (Entries.set (((if (s.signers.get? role).isSome then s.signers.set role [] else s.signers : Entries (Entries Signer)).get? role).getD []) _ _)) role = _
      rw [Entries.get?_set_self, hget]
      rfl
    · intro r hr
      show Entries.get? (Entries.set (if (s.signers.get? role).isSome then s.signers.set role [] else s.signers : Entries (Entries Signer)) role _) r = _
      rw [Entries.get?_set_ne _ _ (Ne.symm hr)]
      split
      · rw [Entries.get?_set_ne _ _ (Ne.symm hr)]
      · rfl

variable {e : Time}

theorem top_utf8 {role : Str} (h : role ∈ [ROOT, TIMESTAMP, SNAPSHOT, TARGETS]) : Utf8 role := by
  simp only [List.mem_cons, List.not_mem_nil, or_false] at h
  rcases h with rfl | rfl | rfl | rfl <;> exact utf8_name (by rfl)

/-- The base after the keys of a role were rotated. -/
theorem base_rotated (hk : SimKeys env q mat) {s s' : Sim} {role : Str} (h : Base env q mat e s) (hr : role ∈ [ROOT, TIMESTAMP, SNAPSHOT, TARGETS]) (hs : Rotated env q mat s role s') :
    Base env q mat e s' := by
  obtain ⟨c1, c2, c3, c4, c5, c6, c7, c8⟩ := hs
  have hsig : ∀ r es, s'.signers.get? r = some es → Entries.Sorted es ∧ ∀ x ∈ es, ∃ n, n < s'.created ∧ x = (sid env mat n, q.fresh n) := by
    intro r es hg
    by_cases hrr : r = role
    · subst hrr
      rw [c7] at hg
      cases hg
      refine ⟨List.pairwise_singleton _ _, fun x hx => ?_⟩
      rw [List.mem_singleton] at hx
      exact ⟨s.created, by omega, hx⟩
    · rw [c8 r hrr] at hg
      obtain ⟨h1, h2⟩ := h.signers r es hg
      refine ⟨h1, fun x hx => ?_⟩
      obtain ⟨n, hn, hx⟩ := h2 x hx
      exact ⟨n, by omega, hx⟩
  have hroot : ∃ n es, n < s'.created ∧ HasKey env mat s'.root.signed ROOT n ∧ s'.signers.get? ROOT = some es ∧ (sid env mat n, q.fresh n) ∈ es := by
    by_cases hrr : ROOT = role
    · subst hrr
      exact ⟨s.created, _, by omega, c5, c7, by simp⟩
    · obtain ⟨n, es, h1, h2, h3, h4⟩ := h.rootKey
      exact ⟨n, es, by omega, c6 _ n hrr h1 h2, by rw [c8 _ hrr]; exact h3, h4⟩
  have hrole : ∀ r ∈ [TIMESTAMP, SNAPSHOT, TARGETS], ∃ n, n < s'.created ∧ HasKey env mat s'.root.signed r n ∧ s'.signers.get? r = some [(sid env mat n, q.fresh n)] := by
    intro r hr
    by_cases hrr : r = role
    · subst hrr
      exact ⟨s.created, by omega, c5, c7⟩
    · obtain ⟨n, h1, h2, h3⟩ := h.roleKey r hr
      exact ⟨n, by omega, c6 _ n hrr h1 h2, by rw [c8 _ hrr]; exact h3⟩
  have e1 : s'.root.unrec = [] := by rw [c3]; exact h.rootFields
  have e2 : s'.root.signed.consistentSnapshot = true := by rw [c3]; exact h.consistent
  have e3 : s'.root.signed.expires = e := by rw [c3]; exact h.rootExpires
  clear c3 c5 c6 c7 c8
  rw [c2]
  exact { h with root := c4, rootFields := e1, consistent := e2, rootExpires := e3, rootKey := hroot, roleKey := hrole, signers := hsig }

/-- Rotating the keys of some roles other than root. -/
theorem rotate_all (hk : SimKeys env q mat) {s : Sim} {roles : List Str} (h : Base env q mat e s) (hr : ∀ role ∈ roles, role ∈ [TIMESTAMP, SNAPSHOT, TARGETS]) :
    ∃ s', inTurn (Sim.rotateKeys q) roles s = (.ok (), s') ∧ Base env q mat e s' ∧ s' = { s with root := s'.root, signers := s'.signers, created := s'.created } ∧
      s'.root.signed.version = s.root.signed.version ∧ (∀ n, n < s.created → HasKey env mat s.root.signed ROOT n → HasKey env mat s'.root.signed ROOT n) ∧
      s'.signers.get? ROOT = s.signers.get? ROOT ∧ s.created ≤ s'.created ∧ (roles = [] → s' = s) := by
  induction roles generalizing s with
  | nil => exact ⟨s, rfl, h, rfl, rfl, fun _ _ h => h, rfl, Nat.le_refl _, fun _ => rfl⟩
  | cons role roles ih =>
    have hm := hr role (by simp)
    have hne : ROOT ≠ role := by
      rintro rfl
      exact absurd hm (by decide)
    obtain ⟨n, h1, h2, h3⟩ := h.roleKey role hm
    obtain ⟨s1, r1, r2⟩ := rotate_eq hk h.root h2 (top_utf8 (List.mem_cons_of_mem _ hm))
    obtain ⟨s', k1, k2, k3, k4, k5, k6, k7, _⟩ := ih (base_rotated hk h (List.mem_cons_of_mem _ hm) r2) (fun r hr' => hr r (by simp [hr']))
    refine ⟨s', ?_, k2, ?_, ?_, ?_, ?_, ?_, fun h => by cases h⟩
    · rw [inTurn, SM.bind_ok r1]
      exact k1
    · rw [k3, r2.others]
    · rw [k4, r2.root]
    · intro n hn hh
      exact k5 n (by rw [r2.created]; omega) (r2.old _ n hne hn hh)
    · rw [k6, r2.otherSigners _ hne]
    · have := r2.created
      omega

/-! ## Signers of root -/

theorem mem_set_of {α : Type} {es : Entries α} (hs : Entries.Sorted es) {k : Str} {v : α} {x : Str × α} (hx : x ∈ es) (hne : x.1 = k → x = (k, v)) : x ∈ es.set k v := by
  by_cases hk : x.1 = k
  · rw [hne hk]
    exact Entries.mem_of_get? (Entries.get?_set_self _ _ _)
  · have := Entries.get?_of_mem hs.nodup hx
    rw [← Entries.get?_set_ne es v (Ne.symm hk)] at this
    exact Entries.mem_of_get? this

theorem addSigners (hk : SimKeys env q mat) {old : List (Str × Signer)} (ho : ∀ x ∈ old, ∃ n, x = (sid env mat n, q.fresh n)) :
    ∀ {s : Sim} {es : Entries Signer}, s.signers.get? ROOT = some es → Entries.Sorted es → (∀ x ∈ es, ∃ n, x = (sid env mat n, q.fresh n)) →
      ∃ s' es', inTurn (fun e => Sim.addSigner ROOT e.1 e.2) old s = (.ok (), s') ∧ s' = { s with signers := s'.signers } ∧ s'.signers.get? ROOT = some es' ∧ Entries.Sorted es' ∧
        (∀ x, x ∈ es' ↔ x ∈ es ∨ x ∈ old) ∧ ∀ r, r ≠ ROOT → s'.signers.get? r = s.signers.get? r := by
  induction old with
  | nil => intro s es h1 h2 h3; exact ⟨s, es, rfl, rfl, h1, h2, fun x => by simp, fun _ _ => rfl⟩
  | cons y old ih =>
    intro s es h1 h2 h3
    obtain ⟨n, hn⟩ := ho y (by simp)
    have same : ∀ x ∈ es, x.1 = y.1 → x = (y.1, y.2) := by
      intro x hx he
      obtain ⟨k, rfl⟩ := h3 x hx
      rw [hn] at he
      rw [hn]
      exact Prod.ext he (hk.inj _ _ he).1
    obtain ⟨s', es', k1, k2, k3, k4, k5, k6⟩ := ih (fun x hx => ho x (by simp [hx])) (s := { s with signers := s.signers.set ROOT (((s.signers.get? ROOT).getD []).set y.1 y.2) })
      (es := es.set y.1 y.2) (by dsimp only; rw [Entries.get?_set_self, h1]; rfl) (h2.set _ _) (by
        intro x hx
        rcases Entries.mem_set hx with hx | hx
        · exact ⟨n, by rw [hx, ← hn]⟩
        · exact h3 x hx)
    refine ⟨s', es', ?_, ?_, k3, k4, ?_, ?_⟩
    · rw [inTurn]
      have h0 : Sim.addSigner ROOT y.1 y.2 s = (.ok (), { s with signers := s.signers.set ROOT (((s.signers.get? ROOT).getD []).set y.1 y.2) }) := rfl
      rw [SM.bind_ok h0]
      exact k1
    · rw [k2]
    · intro x
      rw [k5]
      constructor
      · rintro (hx | hx)
        · rcases Entries.mem_set hx with hx | hx
          · exact .inr (by simp [hx])
          · exact .inl hx
        · exact .inr (by simp [hx])
      · rintro (hx | hx)
        · exact .inl (mem_set_of h2 hx (same x hx))
        · rcases List.mem_cons.1 hx with rfl | hx
          · exact .inl (Entries.mem_of_get? (Entries.get?_set_self _ _ _))
          · exact .inr hx
    · intro r hr
      rw [k6 r hr]
      exact Entries.get?_set_ne _ _ (Ne.symm hr)

/-! ## Publishing a root -/

theorem publish_root (hk : SimKeys env q mat) {s : Sim} (h : Base env q mat e s) :
    ∃ ss m d, Sim.publishRoot q s = (.ok (), { s with root := m, signedRoots := s.signedRoots ++ [d], iterations := s.iterations + 1 }) ∧ m.signed = s.root.signed ∧ m.unrec = [] ∧
      Publishes (std env) s.root.signed ss d ∧ (∀ n es, s.signers.get? ROOT = some es → (sid env mat n, q.fresh n) ∈ es → q.fresh n ∈ ss) ∧ ∀ y ∈ ss, ∃ n, y = q.fresh n := by
  obtain ⟨n, es, _, _, he, _⟩ := h.rootKey
  obtain ⟨hsort, hform⟩ := h.signers ROOT es he
  obtain ⟨ss, h1, h2⟩ := signFor_eq q ROOT s.root s
  rw [he] at h1
  have hss : ∀ y ∈ ss, ∃ n, y = q.fresh n := by
    intro y hy
    obtain ⟨x, hx, rfl⟩ := List.mem_map.1 (h1.mem_iff.1 hy)
    obtain ⟨n, _, rfl⟩ := hform x hx
    exact ⟨n, rfl⟩
  have hp := (root_payload (rootInv_good h.root)).2 (rootInv_whole h.root)
  obtain ⟨m, l1, l2⟩ := signLoop_signs (env := q.env) (ss := ss) (fun y hy => by obtain ⟨n, rfl⟩ := hss y hy; exact simKeys_works hk n)
    (m := { s.root with signatures := some [] }) hp .nil
  rw [List.nil_append] at l2
  have hsg := signedBy_signed l2
  obtain ⟨d, hd⟩ := toBytes_ok (env := q.env) (m := m) (by rw [hsg]; exact hp) false
  have hd' : ss.Pairwise (fun s s' => ∀ id, SignerID (std env) s id → ¬ SignerID (std env) s' id) := by
    refine (h1.pairwise_iff ?_).2 ?_
    · intro x y hxy id hy hx
      exact hxy id hx hy
    · refine List.pairwise_map.2 (hsort.imp_of_mem ?_)
      intro x y hx hy hlt id i1 i2
      obtain ⟨a, _, rfl⟩ := hform x hx
      obtain ⟨b, _, rfl⟩ := hform y hy
      have e1 := (ed_id (hk.ed a)).1 i1
      have e2 := (ed_id (hk.ed b)).1 i2
      exact hlt.2 (e1.symm.trans e2)
  refine ⟨ss, m, d, ?_, hsg, ?_, ?_, ?_, hss⟩
  · unfold Sim.publishRoot
    rw [get_bind, SM.bind_ok (h2.trans (by rw [l1]; rfl))]
    dsimp only
    rw [hd]
    rfl
  · rw [signedBy_unrec l2]
    exact h.rootFields
  · rw [hk.same] at l2 hd
    exact C99_publish_root (m0 := { s.root with signatures := some [] }) hd' rfl rfl h.rootFields (rootInv_text h.root) l2 hd
  · intro n es' he' hn
    rw [he] at he'
    cases he'
    exact h1.mem_iff.2 (List.mem_map.2 ⟨_, hn, rfl⟩)

end

end Tuf
