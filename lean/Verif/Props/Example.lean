import Verif.Spec.Example
import Verif.Props.Signable
import Verif.Props.Follow
import Verif.Props.TopLevel
import Verif.Props.Std.Text
import Verif.Props.Std.Time

/-! # C110: the example repository works -/

namespace Tuf
open Tuf.Spec Tuf.Std

/-! ## Keys -/

def edPlain (m : Bytes) : Key := { type := KeyTypeEd25519, scheme := KeySchemeEd25519, value := { publicKey := hexEncode m } }
def edID (env : Env) (m : Bytes) : Str := hexEncode (env.sha256 (keyText b!"ed25519" b!"ed25519" (hexEncode m)))
def edFiled (env : Env) (m : Bytes) : Key := { edPlain m with id := edID env m }

section
variable {env : Env} {s : Signer} {m : Bytes}

theorem edPlain_id : (edPlain m).ID env = .ok (edID env m, edFiled env m) := C103_text (env := env) (k := edPlain m) rfl rfl rfl

theorem ed_works (h : EdSigner env s m) : Works env s :=
  ⟨fun p => (h.signs p).elim fun sig e => ⟨sig, e.1⟩, _, _, h.public, rfl⟩

theorem ed_id (h : EdSigner env s m) {id : Str} : SignerID env s id ↔ id = edID env m := by
  constructor
  · rintro ⟨pk, key, key', h1, h2, h3⟩
    rw [h.public] at h1
    cases h1
    cases h2
    have := edPlain_id (env := env) (m := m)
    unfold edPlain at this
    rw [this] at h3
    cases h3
    rfl
  · rintro rfl
    exact ⟨_, _, _, h.public, rfl, edPlain_id⟩

theorem ed_verifier (h : EdSigner env s m) : VerifierOf env (edFiled env m) (.ed25519 m) .none :=
  .ed25519 rfl (hexDecode_hexEncode m) h.usable.1 h.usable.2

/-- The key map after adding the keys. -/
def keysOf (env : Env) (ms : List Bytes) : Entries (Option Key) := ms.foldl (fun es m => es.set (edID env m) (some (edFiled env m))) []

theorem keysOf_snoc (ms : List Bytes) : keysOf env (ms ++ [m]) = (keysOf env ms).set (edID env m) (some (edFiled env m)) := by
  unfold keysOf
  rw [List.foldl_append]
  rfl

end

section
variable {env : Env}

theorem keysOf_sorted (ms : List Bytes) : (keysOf env ms).Sorted := by
  induction ms using snoc_induction with
  | h0 => exact Entries.sorted_nil
  | hs ms m ih => rw [keysOf_snoc]; exact ih.set _ _

theorem keysOf_mem {ms : List Bytes} {e : Str × Option Key} (h : e ∈ keysOf env ms) : ∃ m ∈ ms, e = (edID env m, some (edFiled env m)) := by
  induction ms using snoc_induction with
  | h0 => cases h
  | hs ms m ih =>
    rw [keysOf_snoc] at h
    rcases Entries.mem_set h with h | h
    · exact ⟨m, by simp, h⟩
    · obtain ⟨m', h1, h2⟩ := ih h
      exact ⟨m', by simp [h1], h2⟩

theorem keysOf_get {ms : List Bytes} (hd : ∀ a ∈ ms, ∀ b ∈ ms, edID env a = edID env b → a = b) {m : Bytes} (hm : m ∈ ms) :
    (keysOf env ms).get? (edID env m) = some (some (edFiled env m)) := by
  induction ms using snoc_induction with
  | h0 => cases hm
  | hs ms a ih =>
    rw [keysOf_snoc]
    by_cases he : edID env a = edID env m
    · obtain rfl := hd a (by simp) m hm he
      exact Entries.get?_set_self _ _ _
    · rw [Entries.get?_set_ne _ _ he]
      refine ih (fun a ha b hb => hd a (by simp [ha]) b (by simp [hb])) ?_
      rcases List.mem_append.1 hm with h | h
      · exact h
      · rw [List.mem_singleton] at h
        subst h
        exact absurd rfl he

/-! ## Root -/

def oneKey (id : Str) : Role := { keyIDs := some [id], threshold := 1 }

/-- The root of the example. -/
def exampleRoot (env : Env) (e : Time) (mt ms mi mr : Bytes) : RootType :=
  { (newRoot e).signed with
    keys := some (keysOf env [mt, ms, mi, mr])
    roles := some [(ROOT, some (oneKey (edID env mr))), (SNAPSHOT, some (oneKey (edID env ms))), (TARGETS, some (oneKey (edID env mt))), (TIMESTAMP, some (oneKey (edID env mi)))] }

theorem genKeys_step {s : Signer} {m : Bytes} (h : EdSigner env s m) {name : Str} {rest : List (Str × Signer)} {r : RootType} {es : Entries (Option Role)}
    {ks : Entries (Option Key)} (hr : r.roles = some es) (hg : es.get? name = some (some newRole)) (hk : r.keys = some ks) :
    genKeys env ((name, s) :: rest) r =
      genKeys env rest { r with roles := some (es.set name (some (oneKey (edID env m)))), keys := some (ks.set (edID env m) (some (edFiled env m))) } := by
  rw [genKeys, h.public]
  have hk' : keyFromPublicKey env (.ed25519 m) = .ok (edPlain m) := rfl
  show (Res.ok _ >>= _) = _
  rw [Res.bind_ok, hk', Res.bind_ok]
  dsimp only
  rw [addKey_eq hr hg hk edPlain_id]
  rfl

theorem genKeys_example {k : RoleSigners} {mt ms mi mr : Bytes} (ht : EdSigner env k.targets mt) (hs : EdSigner env k.snapshot ms) (hi : EdSigner env k.timestamp mi)
    (hr : EdSigner env k.root mr) (e : Time) :
    genKeys env [(TARGETS, k.targets), (SNAPSHOT, k.snapshot), (TIMESTAMP, k.timestamp), (ROOT, k.root)] (newRoot e).signed = .ok (exampleRoot env e mt ms mi mr) := by
  rw [genKeys_step ht rfl rfl rfl, genKeys_step hs rfl rfl rfl, genKeys_step hi rfl rfl rfl, genKeys_step hr rfl rfl rfl, genKeys]
  rfl

/-! ## Targets -/

def exampleFile (env : Env) (path : Str) (data : Bytes) : TargetFiles :=
  { length := (data.length : Int), hashes := some [(b!"sha256", env.sha256 data)], path := b!"targets/" ++ path }

def targetsOf (env : Env) (files : List (Str × Bytes)) : Entries (Option TargetFiles) :=
  files.foldl (fun es f => es.set f.1 (some (exampleFile env f.1 f.2))) []

theorem targetsOf_snoc (files : List (Str × Bytes)) (f : Str × Bytes) : targetsOf env (files ++ [f]) = (targetsOf env files).set f.1 (some (exampleFile env f.1 f.2)) := by
  unfold targetsOf
  rw [List.foldl_append]
  rfl

theorem targetsOf_sorted (files : List (Str × Bytes)) : (targetsOf env files).Sorted := by
  induction files using snoc_induction with
  | h0 => exact Entries.sorted_nil
  | hs fs f ih => rw [targetsOf_snoc]; exact ih.set _ _

theorem targetsOf_mem {files : List (Str × Bytes)} {e : Str × Option TargetFiles} (h : e ∈ targetsOf env files) : ∃ f ∈ files, e = (f.1, some (exampleFile env f.1 f.2)) := by
  induction files using snoc_induction with
  | h0 => cases h
  | hs fs f ih =>
    rw [targetsOf_snoc] at h
    rcases Entries.mem_set h with h | h
    · exact ⟨f, by simp, h⟩
    · obtain ⟨f', h1, h2⟩ := ih h
      exact ⟨f', by simp [h1], h2⟩

theorem targetsOf_get {files : List (Str × Bytes)} (hd : (files.map Prod.fst).Nodup) {f : Str × Bytes} (hf : f ∈ files) :
    (targetsOf env files).get? f.1 = some (some (exampleFile env f.1 f.2)) := by
  induction files using snoc_induction with
  | h0 => cases hf
  | hs fs a ih =>
    rw [List.map_append, List.nodup_append] at hd
    rw [targetsOf_snoc]
    rcases List.mem_append.1 hf with h | h
    · rw [Entries.get?_set_ne _ _ (fun he => hd.2.2 f.1 (List.mem_map_of_mem h) a.1 (by simp) he.symm)]
      exact ih hd.1 h
    · rw [List.mem_singleton] at h
      subst h
      exact Entries.get?_set_self _ _ _

theorem targetsOf_none {files : List (Str × Bytes)} {path : Str} (h : path ∉ files.map Prod.fst) : (targetsOf env files).get? path = none := by
  cases hg : (targetsOf env files).get? path with
  | none => rfl
  | some v =>
    obtain ⟨f, h1, h2⟩ := targetsOf_mem (Entries.mem_of_get? hg)
    cases h2
    exact absurd (List.mem_map_of_mem h1) h

/-- The files that the loop leaves in the folder `targets`. -/
def folderOf (env : Env) (files : List (Str × Bytes)) : List (Str × Bytes) :=
  files.flatMap fun f => [(f.1, f.2), (copyName f.1 (hexEncode (env.sha256 f.2)), f.2)]

theorem genTargets_eq (files : List (Str × Bytes)) (t : TargetsType) (es : Entries (Option TargetFiles)) (ht : t.targets = some es) (out : List (Str × Bytes)) :
    genTargets env files t out =
      .ok ({ t with targets := some (files.foldl (fun es f => es.set f.1 (some (exampleFile env f.1 f.2))) es) }, out ++ folderOf env files) := by
  induction files generalizing t es out with
  | nil =>
    rw [genTargets]
    obtain ⟨_, _, _, _, _, _, _⟩ := t
    cases ht
    simp [folderOf]
  | cons f files ih =>
    obtain ⟨path, data⟩ := f
    rw [genTargets]
    have h1 : targetFileFromBytes env (b!"targets/" ++ path) data [b!"sha256"] = .ok (exampleFile env path data) := rfl
    rw [h1, Res.bind_ok, ht]
    show genTargets env files _ _ = _
    rw [ih _ _ rfl]
    simp [folderOf, exampleFile, GoMap.entries]

def exampleTargets (env : Env) (e : Time) (files : List (Str × Bytes)) : TargetsType := { (newTargets e).signed with targets := some (targetsOf env files) }

theorem genTargets_example (files : List (Str × Bytes)) (e : Time) : genTargets env files (newTargets e).signed [] = .ok (exampleTargets env e files, folderOf env files) := by
  rw [genTargets_eq files _ [] rfl, List.nil_append]
  rfl

/-! ## The four documents are good, whole and text -/

theorem goodExampleRoot {e : Time} (he : GoodTime env e) (mt ms mi mr : Bytes) : GoodRoot env (exampleRoot env e mt ms mi mr) where
  fields := goodFields_nil _
  type := rfl
  version := rfl
  expires := he
  keys := ⟨keysOf_sorted _, fun x hx => by
    obtain ⟨m, _, rfl⟩ := keysOf_mem hx
    exact ⟨_, rfl, goodFields_nil _, goodFields_nil _⟩⟩
  roles := ⟨by simp only [exampleRoot, Entries.Sorted, GoMap.entries, StrLt, Option.getD_some, List.pairwise_cons, List.mem_cons, List.not_mem_nil, or_false, forall_eq_or_imp, forall_eq]; simp; decide, by
    simp only [exampleRoot, GoMap.entries, Option.getD_some, List.mem_cons, List.not_mem_nil, or_false]
    rintro x (rfl | rfl | rfl | rfl) <;> exact ⟨_, rfl, goodFields_nil _, rfl⟩⟩

theorem goodExampleSnapshot {e : Time} (he : GoodTime env e) : GoodSnapshot env (newSnapshot e).signed where
  fields := goodFields_nil _
  type := rfl
  version := rfl
  expires := he
  metas := ⟨by simp [newSnapshot, Entries.Sorted, GoMap.entries], by
    simp only [newSnapshot, GoMap.entries, Option.getD_some, List.mem_singleton, forall_eq]
    exact ⟨_, rfl, goodFields_nil _, rfl, rfl, List.Pairwise.nil⟩⟩

theorem goodExampleTimestamp {e : Time} (he : GoodTime env e) : GoodTimestamp env (newTimestamp e).signed where
  fields := goodFields_nil _
  type := rfl
  version := rfl
  expires := he
  metas := ⟨by simp [newTimestamp, Entries.Sorted, GoMap.entries], by
    simp only [newTimestamp, GoMap.entries, Option.getD_some, List.mem_singleton, forall_eq]
    exact ⟨_, rfl, goodFields_nil _, rfl, rfl, List.Pairwise.nil⟩⟩

theorem goodExampleTargets {e : Time} (he : GoodTime env e) {files : List (Str × Bytes)} (hf : GoodFiles files) : GoodTargets env (exampleTargets env e files) where
  fields := goodFields_nil _
  type := rfl
  version := rfl
  expires := he
  targets := ⟨targetsOf_sorted _, fun x hx => by
    obtain ⟨f, h1, rfl⟩ := targetsOf_mem hx
    refine ⟨_, rfl, goodFields_nil _, ?_, by simp [exampleFile, Entries.Sorted, GoMap.entries], fun c hc => by cases hc⟩
    have := hf.length f h1
    show inInt64 (f.2.length : Int) = true
    unfold inInt64
    simp only [Bool.and_eq_true, decide_eq_true_eq]
    omega⟩
  delegations := fun d hd => by cases hd

theorem wholeNil : WholeFields [] := fun e he => by cases he

theorem wholeExampleRoot (e : Time) (mt ms mi mr : Bytes) : WholeRoot (exampleRoot env e mt ms mi mr) := by
  refine ⟨wholeNil, ?_, ?_⟩
  · intro x hx a ha
    obtain ⟨m, _, rfl⟩ := keysOf_mem hx
    cases ha
    exact ⟨wholeNil, wholeNil⟩
  · intro x hx a ha
    simp only [exampleRoot, GoMap.entries, Option.getD_some, List.mem_cons, List.not_mem_nil, or_false] at hx
    rcases hx with rfl | rfl | rfl | rfl <;> (cases ha; exact wholeNil)

theorem wholeExampleSnapshot (e : Time) : WholeSnapshot (newSnapshot e).signed := by
  refine ⟨wholeNil, ?_⟩
  intro x hx a ha
  simp only [newSnapshot, GoMap.entries, Option.getD_some, List.mem_singleton] at hx
  subst hx
  cases ha
  exact wholeNil

theorem wholeExampleTimestamp (e : Time) : WholeTimestamp (newTimestamp e).signed := by
  refine ⟨wholeNil, ?_⟩
  intro x hx a ha
  simp only [newTimestamp, GoMap.entries, Option.getD_some, List.mem_singleton] at hx
  subst hx
  cases ha
  exact wholeNil

theorem wholeExampleTargets (e : Time) (files : List (Str × Bytes)) : WholeTargets (exampleTargets env e files) := by
  refine ⟨wholeNil, ?_, fun d hd => by cases hd⟩
  intro x hx a ha
  obtain ⟨f, _, rfl⟩ := targetsOf_mem hx
  cases ha
  exact ⟨wholeNil, fun c hc => by cases hc⟩

theorem exampleRootText {e : Time} (he : Utf8 e.text) (mt ms mi mr : Bytes) (d : Nat) : RootText d (exampleRoot env e mt ms mi mr) where
  type := utf8_name (by rfl)
  spec := utf8_name (by rfl)
  expires := he
  keys := fun x hx => by
    obtain ⟨m, _, rfl⟩ := keysOf_mem hx
    refine ⟨hexEncode_utf8 _, fun a ha => ?_⟩
    cases ha
    exact ⟨utf8_name (by rfl), utf8_name (by rfl), ⟨hexEncode_utf8 _, fieldsText_nil⟩, fieldsText_nil⟩
  roles := fun x hx => by
    simp only [exampleRoot, GoMap.entries, Option.getD_some, List.mem_cons, List.not_mem_nil, or_false] at hx
    have hr : ∀ m : Bytes, PtrText (RoleText (d + 1)) (some (oneKey (edID env m))) := by
      intro m a ha
      cases ha
      refine ⟨fun i hi => ?_, fieldsText_nil⟩
      simp only [oneKey, Slice.elems, Option.getD_some, List.mem_singleton] at hi
      subst hi
      exact hexEncode_utf8 _
    rcases hx with rfl | rfl | rfl | rfl <;> exact ⟨utf8_name (by rfl), hr _⟩
  fields := fieldsText_nil

theorem exampleSnapshotText {e : Time} (he : Utf8 e.text) (d : Nat) : SnapshotText d (newSnapshot e).signed where
  type := utf8_name (by rfl)
  spec := utf8_name (by rfl)
  expires := he
  metas := fun x hx => by
    simp only [newSnapshot, GoMap.entries, Option.getD_some, List.mem_singleton] at hx
    subst hx
    refine ⟨utf8_name (by rfl), fun a ha => ?_⟩
    cases ha
    exact ⟨fun x hx => (by cases hx), fieldsText_nil⟩
  fields := fieldsText_nil

theorem exampleTimestampText {e : Time} (he : Utf8 e.text) (d : Nat) : TimestampText d (newTimestamp e).signed where
  type := utf8_name (by rfl)
  spec := utf8_name (by rfl)
  expires := he
  metas := fun x hx => by
    simp only [newTimestamp, GoMap.entries, Option.getD_some, List.mem_singleton] at hx
    subst hx
    refine ⟨utf8_name (by rfl), fun a ha => ?_⟩
    cases ha
    exact ⟨fun x hx => (by cases hx), fieldsText_nil⟩
  fields := fieldsText_nil

theorem exampleTargetsText {e : Time} (he : Utf8 e.text) {files : List (Str × Bytes)} (hf : GoodFiles files) (d : Nat) : TargetsText d (exampleTargets env e files) where
  type := utf8_name (by rfl)
  spec := utf8_name (by rfl)
  expires := he
  targets := fun x hx => by
    obtain ⟨f, h1, rfl⟩ := targetsOf_mem hx
    refine ⟨hf.text f h1, fun a ha => ?_⟩
    cases ha
    refine ⟨fun y hy => ?_, fun c hc => (by cases hc), fieldsText_nil⟩
    simp only [exampleFile, GoMap.entries, Option.getD_some, List.mem_singleton] at hy
    subst hy
    exact ⟨utf8_name (by rfl), trivial⟩
  delegations := fun a ha => by cases ha
  fields := fieldsText_nil

/-! ## Signing -/

theorem sign_one {T : Type} [RoleType T] {m0 : Metadata T} {s : Signer} (hs : Works env s) (hp : ∃ p, payload m0.signed = .ok p) :
    ∃ sig m data, sign env m0 s = .ok (sig, m) ∧ m.signed = m0.signed ∧ SignedBy env m0 [s] m ∧ toBytes env m true = .ok data := by
  obtain ⟨⟨sig, m⟩, h⟩ := (sign_iff hs).2 hp
  have hsb : SignedBy env m0 [s] m := .snoc (ss := []) .nil h
  have hsig := signedBy_signed hsb
  obtain ⟨p, hp⟩ := hp
  obtain ⟨j, hj, _⟩ := Res.bind_eq_ok.1 hp
  have : ∃ data, toBytes env m true = .ok data := by
    unfold toBytes Metadata.marshal
    rw [hsig, hj]
    exact ⟨_, rfl⟩
  obtain ⟨data, hd⟩ := this
  exact ⟨sig, m, data, h, hsig, hsb, hd⟩

/-- Signers that suffice for a role make documents that the delegator accepts. -/
theorem signed_verifies {T : Type} [RoleType T] (hany : ∀ m : Metadata T, (RoleType.any m).signatures = m.signatures.elems ∧ (RoleType.any m).payload = payload m.signed)
    {m0 m : Metadata T} {ss : List Signer} (hs : SignedBy env m0 ss m) {D : AnyMeta} {role : Str} (h : Suffice env D role ss) :
    verifyDelegate env D role (RoleType.any m) = .ok () := by
  obtain ⟨keys, ids, t, hd, ht, ⟨S, hS, hle, hin⟩, hk⟩ := h
  rw [C02_exact_rule]
  obtain ⟨id0, hid0⟩ : ∃ id, id ∈ S := by
    cases S with
    | nil => simp at hle; omega
    | cons a l => exact ⟨a, by simp⟩
  obtain ⟨hm0, s0, hs0, hsid0⟩ := hin id0 hid0
  obtain ⟨_, _, _, p, hp, _⟩ := signedBy_signature hs hs0 hsid0
  have hc : Carries (RoleType.any m) m.signatures.elems p := any_carries hany (by rw [signedBy_signed hs, hp])
  refine ⟨keys, ids, t, hd, List.ne_nil_of_mem hm0, ?_, S, hS, hle, ?_⟩
  · intro id hid
    obtain ⟨key, pk, hf, e1, e2, e3, _⟩ := hk id hid
    exact ⟨pk, hf, _, p, ⟨key, _, e1, e2, hc, signatureFor_pick _ _⟩, e3 _ _⟩
  · intro id hid
    obtain ⟨hmem, s, hss, hsid⟩ := hin id hid
    obtain ⟨s', hs', hid', p', e, f⟩ := signedBy_signature hs hss hsid
    rw [hp] at e
    cases e
    obtain ⟨key, pk, hf, e1, e2, e3, e4⟩ := hk id hmem
    exact ⟨hmem, pk, hf, _, p, ⟨key, _, e1, e2, hc, signatureFor_pick _ _⟩, e4 s' hs' hid' _ _ f⟩

theorem example_suffice {s : Signer} {m : Bytes} (hs : EdSigner env s m) {ms : List Bytes} (hd : ∀ a ∈ ms, ∀ b ∈ ms, edID env a = edID env b → a = b) (hm : m ∈ ms)
    {r : Metadata RootType} (hk : r.signed.keys = some (keysOf env ms)) {role : Str} (hr : r.signed.roles.get? role = some (some (oneKey (edID env m)))) :
    Suffice env (.root r) role [s] := by
  refine ⟨_, _, _, Delegates.root hr, by simp [oneKey], ⟨[edID env m], by simp, by simp [oneKey], ?_⟩, ?_⟩
  · intro id hid
    rw [List.mem_singleton] at hid
    subst hid
    exact ⟨List.mem_singleton.2 rfl, s, List.mem_singleton.2 rfl, (ed_id hs).2 rfl⟩
  · intro id hid
    have hid' : id = edID env m := List.mem_singleton.1 hid
    subst hid'
    refine ⟨edFiled env m, _, _, ?_, ed_verifier hs, hs.total, ?_⟩
    · rw [hk]; exact keysOf_get hd hm
    · intro s' hs' _ p sig hsig
      rw [List.mem_singleton] at hs'
      subst hs'
      obtain ⟨sig', h1, h2⟩ := hs.signs p
      rw [h1] at hsig
      cases hsig
      exact h2

/-! ## The program -/

theorem calendar_good {t : Time} (h : CalendarTime t) : GoodTime (std env) t ∧ Utf8 t.text := by
  obtain ⟨c, hc, rfl⟩ := h
  exact ⟨C100_reads_back hc, formatTime_utf8 c⟩

theorem one_signer (s : Signer) : [s].Pairwise (fun s s' => ∀ id, SignerID (std env) s id → ¬ SignerID (std env) s' id) := List.pairwise_singleton _ _

/-- The program succeeds, and what it makes is a release. -/
theorem example_made {k : RoleSigners} {expires : Str → Time} {files : List (Str × Bytes)} (hk : WorkingKeys (std env) k)
    (he : ∀ role ∈ [ROOT, TIMESTAMP, SNAPSHOT, TARGETS], CalendarTime (expires role)) (hf : GoodFiles files) :
    ∃ (g : Generated) (r : RootType) (R : Files), generateMetadata (std env) expires files k = .ok g ∧ GoodRoot (std env) r ∧ Publishes (std env) r [k.root] g.clientRoot ∧
      Suffice (std env) (.root { signed := r }) ROOT [k.root] ∧ r.version = 1 ∧ r.consistentSnapshot = true ∧
      g.metadata = [(b!"1.targets.json", R.dtg), (b!"1.snapshot.json", R.dsn), (b!"timestamp.json", R.dts), (b!"1.root.json", g.clientRoot)] ∧
      g.targets = folderOf env files ∧ R.tg = exampleTargets env (expires TARGETS) files ∧ R.fsn = { version := 1 } ∧ R.ftg = { version := 1 } ∧
      WasReleased (std env) R ∧
      ∀ now, (∀ role ∈ [ROOT, TIMESTAMP, SNAPSHOT, TARGETS], ¬ Expired (expires role) now) → Released (std env) now r R := by
  obtain ⟨mt, ht⟩ := hk.all k.targets (by simp)
  obtain ⟨ms, hs⟩ := hk.all k.snapshot (by simp)
  obtain ⟨mi, hi⟩ := hk.all k.timestamp (by simp)
  obtain ⟨mr, hr⟩ := hk.all k.root (by simp)
  have hd : ∀ a ∈ [mt, ms, mi, mr], ∀ b ∈ [mt, ms, mi, mr], edID (std env) a = edID (std env) b → a = b := by
    have hall : ∀ a ∈ [mt, ms, mi, mr], ∃ s ∈ [k.targets, k.snapshot, k.timestamp, k.root], EdSigner (std env) s a := by
      intro a ha
      simp only [List.mem_cons, List.not_mem_nil, or_false] at ha
      rcases ha with rfl | rfl | rfl | rfl
      · exact ⟨_, by simp, ht⟩
      · exact ⟨_, by simp, hs⟩
      · exact ⟨_, by simp, hi⟩
      · exact ⟨_, by simp, hr⟩
    intro a ha b hb hab
    obtain ⟨s, h1, h2⟩ := hall a ha
    obtain ⟨s', h3, h4⟩ := hall b hb
    have := hk.distinct s h1 s' h3 (edID (std env) a) ((ed_id h2).2 rfl) ((ed_id h4).2 hab)
    rw [h2.public, h4.public] at this
    cases this
    rfl
  obtain ⟨gr, ur⟩ := calendar_good (env := env) (he ROOT (by simp))
  obtain ⟨gi, ui⟩ := calendar_good (env := env) (he TIMESTAMP (by simp))
  obtain ⟨gs, us⟩ := calendar_good (env := env) (he SNAPSHOT (by simp))
  obtain ⟨gt, ut⟩ := calendar_good (env := env) (he TARGETS (by simp))
  obtain ⟨sig1, tg, dtg, a1, a2, a3, a4⟩ := sign_one (env := std env) (m0 := { newTargets (expires TARGETS) with signed := exampleTargets (std env) (expires TARGETS) files }) (ed_works ht)
    ((targets_payload (goodExampleTargets gt hf)).2 (wholeExampleTargets _ _))
  obtain ⟨sig2, sn, dsn, b1, b2, b3, b4⟩ := sign_one (env := std env) (m0 := newSnapshot (expires SNAPSHOT)) (ed_works hs)
    ((snapshot_payload (goodExampleSnapshot gs)).2 (wholeExampleSnapshot _))
  obtain ⟨sig3, ts, dts, c1, c2, c3, c4⟩ := sign_one (env := std env) (m0 := newTimestamp (expires TIMESTAMP)) (ed_works hi)
    ((timestamp_payload (goodExampleTimestamp gi)).2 (wholeExampleTimestamp _))
  obtain ⟨sig4, rt, drt, d1, d2, d3, d4⟩ := sign_one (env := std env) (m0 := { newRoot (expires ROOT) with signed := exampleRoot (std env) (expires ROOT) mt ms mi mr }) (ed_works hr)
    ((root_payload (goodExampleRoot gr mt ms mi mr)).2 (wholeExampleRoot _ _ _ _ _))
  have suff : ∀ r : Metadata RootType, r.signed = exampleRoot (std env) (expires ROOT) mt ms mi mr →
      Suffice (std env) (.root r) ROOT [k.root] ∧ Suffice (std env) (.root r) TARGETS [k.targets] ∧ Suffice (std env) (.root r) SNAPSHOT [k.snapshot] ∧
      Suffice (std env) (.root r) TIMESTAMP [k.timestamp] := by
    intro r h
    exact ⟨example_suffice hr hd (by simp) (by rw [h]; rfl) (by rw [h]; rfl), example_suffice ht hd (by simp) (by rw [h]; rfl) (by rw [h]; rfl),
      example_suffice hs hd (by simp) (by rw [h]; rfl) (by rw [h]; rfl), example_suffice hi hd (by simp) (by rw [h]; rfl) (by rw [h]; rfl)⟩
  obtain ⟨e1, e2, e3, e4⟩ := suff rt d2
  have v1 := signed_verifies C08_all_types.1 d3 e1
  have v2 := signed_verifies C08_all_types.2.2.2 a3 e2
  have v3 := signed_verifies C08_all_types.2.1 b3 e3
  have v4 := signed_verifies C08_all_types.2.2.1 c3 e4
  obtain ⟨f1, f2, f3, f4⟩ := suff { signed := exampleRoot (std env) (expires ROOT) mt ms mi mr } rfl
  have pt : Publishes (std env) (exampleTargets (std env) (expires TARGETS) files) [k.targets] dtg := C99_publish_targets (one_signer _) rfl rfl rfl (exampleTargetsText ut hf _) a3 a4
  have ps : Publishes (std env) (newSnapshot (expires SNAPSHOT)).signed [k.snapshot] dsn := C99_publish_snapshot (one_signer _) rfl rfl rfl (exampleSnapshotText us _) b3 b4
  have pi : Publishes (std env) (newTimestamp (expires TIMESTAMP)).signed [k.timestamp] dts := C99_publish_timestamp (one_signer _) rfl rfl rfl (exampleTimestampText ui _) c3 c4
  have pr : Publishes (std env) (exampleRoot (std env) (expires ROOT) mt ms mi mr) [k.root] drt := C99_publish_root (one_signer _) rfl rfl rfl (exampleRootText ur mt ms mi mr _) d3 d4
  refine ⟨{ metadata := [(b!"1.targets.json", dtg), (b!"1.snapshot.json", dsn), (b!"timestamp.json", dts), (b!"1.root.json", drt)], targets := folderOf env files, clientRoot := drt },
    exampleRoot (std env) (expires ROOT) mt ms mi mr,
    { ts := (newTimestamp (expires TIMESTAMP)).signed, sn := (newSnapshot (expires SNAPSHOT)).signed, tg := exampleTargets env (expires TARGETS) files, dts := dts, dsn := dsn, dtg := dtg,
      fsn := { version := 1 }, ftg := { version := 1 } },
    ?_, goodExampleRoot gr mt ms mi mr, pr, f1, rfl, rfl, rfl, rfl, rfl, rfl, rfl, ?_, ?_⟩
  · unfold generateMetadata
    rw [genTargets_example, Res.bind_ok]
    dsimp only
    rw [genKeys_example ht hs hi hr, Res.bind_ok, a1, Res.bind_ok]
    dsimp only
    rw [b1, Res.bind_ok]
    dsimp only
    rw [c1, Res.bind_ok]
    dsimp only
    rw [d1, Res.bind_ok]
    dsimp only
    rw [a4, Res.bind_ok, b4, Res.bind_ok, c4, Res.bind_ok, d4, Res.bind_ok]
    rw [show verifyDelegate (std env) (.root rt) ROOT (.root rt) = .ok () from v1, Res.bind_ok, show verifyDelegate (std env) (.root rt) TARGETS (.targets tg) = .ok () from v2, Res.bind_ok,
      show verifyDelegate (std env) (.root rt) SNAPSHOT (.snapshot sn) = .ok () from v3, Res.bind_ok, show verifyDelegate (std env) (.root rt) TIMESTAMP (.timestamp ts) = .ok () from v4, Res.bind_ok,
      a2, b2, d2]
    rfl
  · exact ⟨goodExampleTimestamp gi, goodExampleSnapshot gs, goodExampleTargets gt hf, ⟨_, by simp, pi⟩, ⟨_, by simp, ps⟩, ⟨_, by simp, pt⟩, rfl⟩
  · intro now hnow
    refine ⟨goodExampleTimestamp gi, goodExampleSnapshot gs, goodExampleTargets gt hf, ⟨_, pi, f4⟩, ⟨_, ps, f3⟩, ⟨_, pt, f2⟩, hnow ROOT (by simp), hnow TIMESTAMP (by simp),
      hnow SNAPSHOT (by simp), hnow TARGETS (by simp), ⟨rfl, rfl, fun h => absurd rfl h, ?_⟩, rfl, rfl, fun h => absurd rfl h, ?_⟩
    all_goals (intro a v hx; cases hx)

/-- `copyHashPrefixed` uses TUF's name. -/
theorem copyName_prefixed {path hash name : Str} (h : PrefixedName path hash name) : name = copyName path hash := by
  obtain ⟨dir, nm, rfl, h1, h2, rfl⟩ := h
  have hnm : ∀ c ∈ nm.reverse, decide (c ≠ 47) = true := by
    intro c hc
    rw [List.mem_reverse] at hc
    simp only [decide_eq_true_eq]
    rintro rfl
    exact h1 hc
  have hdir : dir.reverse.takeWhile (fun c => decide (c ≠ 47)) = [] ∧ dir.reverse.dropWhile (fun c => decide (c ≠ 47)) = dir.reverse := by
    rcases h2 with rfl | ⟨a, rfl⟩
    · exact ⟨rfl, rfl⟩
    · rw [List.reverse_append]
      exact ⟨rfl, rfl⟩
  unfold copyName
  rw [List.reverse_append, List.dropWhile_append_of_pos hnm, List.takeWhile_append_of_pos hnm, hdir.1, hdir.2]
  simp

theorem mem_folderOf {files : List (Str × Bytes)} {f : Str × Bytes} (h : f ∈ files) :
    f ∈ folderOf env files ∧ (copyName f.1 (hexEncode (env.sha256 f.2)), f.2) ∈ folderOf env files := by
  unfold folderOf
  constructor <;> exact List.mem_flatMap.2 ⟨f, h, by simp⟩

theorem new_nonempty {now : Time} {t : Trusted} : Trusted.new (std env) now [] ≠ .ok t := by
  intro h
  cases h

theorem mayFollow_self {R : Files} : MayFollow R R :=
  ⟨.inr rfl, Int.le_refl _, .inr rfl, fun _ f h => ⟨f, h, Int.le_refl _⟩, .inr rfl⟩

/-- C110: with working keys, expiry times of the calendar and describable files the program succeeds. -/
theorem C110_generates {k : RoleSigners} {expires : Str → Time} {files : List (Str × Bytes)} (hk : WorkingKeys (std env) k)
    (he : ∀ role ∈ [ROOT, TIMESTAMP, SNAPSHOT, TARGETS], CalendarTime (expires role)) (hf : GoodFiles files) : ∃ g, generateMetadata (std env) expires files k = .ok g := by
  obtain ⟨g, _, _, h, _⟩ := example_made hk he hf
  exact ⟨g, h⟩

/-- C110: clients that start with the root that the program wrote, of servers that have the folders that it wrote, refresh successfully until a role expires, find every target
file and no other path, and get the contents of the files. With hash prefixes this holds for paths with at most one slash (see C46). -/
theorem C110_clients_partial {k : RoleSigners} {expires : Str → Time} {files : List (Str × Bytes)} (hk : WorkingKeys (std env) k)
    (he : ∀ role ∈ [ROOT, TIMESTAMP, SNAPSHOT, TARGETS], CalendarTime (expires role)) (hf : GoodFiles files) {g : Generated}
    (hg : generateMetadata (std env) expires files k = .ok g) {x : Ctx} {srv : Str → Int → Except Err Bytes} {now : Time} (hx : ExampleVisit env g x srv now)
    (hnow : ∀ role ∈ [ROOT, TIMESTAMP, SNAPSHOT, TARGETS], ¬ Expired (expires role) now) {w : World} (hw : NoTemps w.fs) (hc : ExampleCache g x w.fs) :
    ∃ t0 w1 s', newUpdater x w = (.ok t0, w1) ∧ refresh x ⟨t0, w1⟩ = (.ok (), s') ∧
      (∀ f ∈ files, ∃ tf : TargetFiles, getTargetInfo x f.1 s' = (.ok (some tf), s') ∧ tf.path = f.1 ∧ TargetMatches (std env) tf f.2 ∧
        ((x.cfg.prefixTargetsWithHash = true → f.1.count 47 ≤ 1) → ∀ given file, TargetPath x tf given file →
          ∃ s'', downloadTarget x tf given [] s' = (.ok (file, f.2), s'') ∧ s''.world.fs file = some f.2)) ∧
      ∀ path, path ∉ files.map Prod.fst → ∃ e, getTargetInfo x path s' = (.err e, s') := by
  obtain ⟨g', r, R, h1, h2, h3, h4, hv, hcs, h5, h6, h7, h8, h8', h9, h10⟩ := example_made hk he hf
  rw [hg] at h1
  cases h1
  obtain ⟨t0, n1, n2, n3, n4, n5, n6⟩ := C86_root (std_laws env) h2 h3 h4 now
  obtain ⟨b, hb, hm, status, u, hst, hno⟩ := hx.metadata
  have hserv : ∀ name data, (name, data) ∈ g.metadata → ∀ n, (data.length : Int) ≤ n → srv (b ++ name) n = .ok data := fun name data h => hm (name, data) h
  have mtg : (b!"1.targets.json", R.dtg) ∈ g.metadata := by rw [h5]; simp
  have msn : (b!"1.snapshot.json", R.dsn) ∈ g.metadata := by rw [h5]; simp
  have mts : (b!"timestamp.json", R.dts) ∈ g.metadata := by rw [h5]; simp
  have hroots : RootsLeadTo x srv x.cfg.maxRootRotations.toNat t0 t0 := by
    match x.cfg.maxRootRotations.toNat with
    | 0 => exact .limit
    | _ + 1 => exact .newest ⟨b, hb, by rw [n2, show (readRoot r).version = r.version from rfl, hv]; simp only [List.append_assoc]; rfl⟩ hno hst
  have hgood : (ClientRun.mk x srv now r R).Good (std env) x.cfg.localMetadataDir := {
    sameEnv := hx.sameEnv
    sameDir := rfl
    online := hx.online
    caching := hx.caching
    url := hx.url.1
    dirs := hx.dirs
    disk := hx.disk
    mkdir := hx.mkdir
    network := hx.network
    clock := hx.clock
    released := h10 now hnow
    served := {
      timestamp := ⟨_, ⟨b, hb, rfl⟩, by
        rw [List.append_assoc]
        exact hserv _ _ mts _ (hx.limits _ mts).1⟩
      snapshot := ⟨_, x.cfg.snapshotMaxLength, .inl ⟨hcs, b, hb, rfl⟩, .inr ⟨by rw [h8], rfl⟩, by
        rw [h8]
        simp only [List.append_assoc]
        exact hserv _ _ msn _ (hx.limits _ msn).2.1⟩
      targets := ⟨_, x.cfg.targetsMaxLength, .inl ⟨hcs, b, hb, rfl⟩, .inr ⟨by rw [h8'], rfl⟩, by
        rw [h8']
        simp only [List.append_assoc]
        exact hserv _ _ mtg _ (hx.limits _ mtg).2.2⟩ }
    roots := ⟨t0, t0, by
        show x.cfg.localTrustedRoot ≠ []
        rw [hx.root]
        intro h0
        rw [h0] at n1
        exact new_nonempty n1, by
        show Trusted.new (std env) now x.cfg.localTrustedRoot = _
        rw [hx.root]
        exact n1, hx.rotations.1, by
        have h2 := hx.rotations.2
        rw [n2, show (readRoot r).version = r.version from rfl, hv]
        show wrap64 (1 + 1) + x.cfg.maxRootRotations < _
        have : wrap64 (1 + 1) = 2 := by decide
        omega, hroots, n2⟩ }
  have hmf := mayFollow_self (R := R)
  have hcache : CacheBefore (std env) x.cfg.localMetadataDir w.fs R := by
    have hin : ∀ name d, (name, d) ∈ g.metadata → ∀ d', (name, d') ∈ g.metadata → name ≠ b!"1.root.json" → d = d' := by
      intro name d h h' hh hne
      rw [h5] at h hh
      simp only [List.mem_cons, Prod.mk.injEq, List.not_mem_nil, or_false] at h hh
      rcases h with ⟨rfl, rfl⟩ | ⟨rfl, rfl⟩ | ⟨rfl, rfl⟩ | ⟨rfl, rfl⟩
      · rcases hh with ⟨_, rfl⟩ | ⟨e, _⟩ | ⟨e, _⟩ | ⟨e, _⟩
        · rfl
        all_goals (exact absurd e (by decide))
      · rcases hh with ⟨e, _⟩ | ⟨_, rfl⟩ | ⟨e, _⟩ | ⟨e, _⟩
        · exact absurd e (by decide)
        · rfl
        all_goals (exact absurd e (by decide))
      · rcases hh with ⟨e, _⟩ | ⟨e, _⟩ | ⟨_, rfl⟩ | ⟨e, _⟩
        · exact absurd e (by decide)
        · exact absurd e (by decide)
        · rfl
        · exact absurd e (by decide)
      · exact absurd rfl hne
    refine ⟨fun d hd => ?_, fun d hd => ?_, fun d hd => ?_⟩
    · have := hc b!"timestamp.json" b!"timestamp.json" (by simp) d hd
      obtain rfl := hin _ _ this _ mts (by decide)
      exact ⟨R, h9, hmf, fun _ => Iff.rfl⟩
    · have := hc b!"snapshot.json" b!"1.snapshot.json" (by simp) d hd
      obtain rfl := hin _ _ this _ msn (by decide)
      exact ⟨R, h9, hmf, fun _ => Iff.rfl⟩
    · have := hc b!"targets.json" b!"1.targets.json" (by simp) d hd
      obtain rfl := hin _ _ this _ mtg (by decide)
      exact ⟨R, h9, hmf, fun _ => Iff.rfl⟩
  have hall := C93_keeps_up (std_laws env) (vs := [ClientRun.mk x srv now r R]) (by simpa using hgood) (List.pairwise_singleton _ _) hw (by simpa using hcache)
  cases hall with
  | @cons _ w1 t1 s' _ _ ts sn tg e1 e2 e3 e4 e5 e6 e7 e8 e9 _ =>
    have htg : s'.trusted.targets.get? b!"targets" = some tg := by rw [e8]; rfl
    have e9' : tg.signed = readTargets (exampleTargets env (expires TARGETS) files) := by rw [e9, ← h7]
    refine ⟨t1, w1, s', e1, e2, ?_, ?_⟩
    · intro f hfm
      have hget : (exampleTargets env (expires TARGETS) files).targets.get? f.1 = some (some (exampleFile env f.1 f.2)) := targetsOf_get hf.paths hfm
      obtain ⟨i1, i2⟩ := C88_target_partial (x := x) (srv := srv) hx.network (.inr hx.disk) htg e9' hx.delegations hget
      have hmatch : TargetMatches (std env) (exampleFile env f.1 f.2) f.2 := by
        refine ⟨rfl, ?_⟩
        intro alg v hv
        simp only [exampleFile, GoMap.entries, Option.getD_some, List.mem_singleton, Prod.mk.injEq] at hv
        obtain ⟨rfl, rfl⟩ := hv
        exact .sha256
      refine ⟨_, i1, rfl, hmatch, ?_⟩
      intro hdeep given file hpath
      obtain ⟨tb, ht1, ht2⟩ := hx.targets
      obtain ⟨s'', j1, j2⟩ := i2 given [] file tb f.2 hpath (.configured rfl hx.url.2 ht1) (by
        have hcon : s'.trusted.root.signed.consistentSnapshot = true := by rw [e3]; exact hcs
        rw [hcon]
        obtain ⟨m1, m2⟩ := mem_folderOf (env := env) hfm
        rw [← h6] at m1 m2
        cases hp : x.cfg.prefixTargetsWithHash with
        | false => exact .inl ⟨.inr hp, ht2 _ m1 _ (Int.le_refl _)⟩
        | true =>
          refine .inr ⟨rfl, hp, by simp [exampleFile, GoMap.entries], ?_⟩
          intro alg v name hav hn
          simp only [exampleFile, GoMap.entries, Option.getD_some, List.mem_singleton, Prod.mk.injEq] at hav
          obtain ⟨rfl, rfl⟩ := hav
          rw [copyName_prefixed hn]
          exact ht2 _ m2 _ (Int.le_refl _)) (fun hp _ => hdeep hp) (by rw [hx.sameEnv]; exact hmatch)
      exact ⟨s'', j1, j2 hx.caching⟩
    · intro path hp
      refine C106_not_listed htg (by rw [e9']; rfl) ?_
      rw [e9']
      have hnone := targetsOf_none (env := env) hp
      show Entries.get? ((targetsOf env files).map _) path = none
      rw [Entries.get?_eq_none_iff] at hnone ⊢
      unfold Entries.keys at *
      rwa [List.map_map]

end

end Tuf
