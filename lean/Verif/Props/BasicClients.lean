import Verif.Props.BasicRuns
import Verif.Props.HonestTree

/-! # C118: the second example repository and its clients -/

namespace Tuf
open Tuf.Spec Tuf.Std

section
variable {env : Env} {k : BasicSigners} {e : BasicTimes} {path : Str} {data : Bytes}

theorem fine_entry (n : Int) (h : inInt64 n = true) (h1 : 1 ≤ n) {name : Str} (hn : Utf8 name) : (MetaEdit.file name (newMetaFile n)).Fine (std env) := by
  refine ⟨hn, ⟨goodFields_nil _, (by show inInt64 0 = true; decide), ?_, by simp [newMetaFile, GoMap.entries, Entries.Sorted]⟩, wholeNil, ⟨fun y hy => (by simp [newMetaFile, GoMap.entries] at hy), fieldsText_nil⟩⟩
  unfold newMetaFile
  rw [if_neg (by omega)]
  exact h

/-- The values of the second release. -/
structure BasicRelease (env : Env) (e : BasicTimes) (f : TargetFiles) (k : BasicSigners) (dr1 dr2 dr3 di2 ds2 dt2 dd : Bytes) : Prop where
  root1 : Publishes env (basicR1' env e k) [k.root, k.another] dr1
  root2 : Publishes env (basicR2 env e k) [k.root, k.another, k.newRoot] dr2
  root3 : Publishes env (basicR3 env e k) [k.root, k.another, k.newRoot, k.rsa, k.ecdsa] dr3
  timestamp : Publishes env (basicI2 e) [k.timestamp] di2
  snapshot : Publishes env (basicS2 e) [k.snapshot] ds2
  targets : Publishes env (basicT2 env e f k) [k.targets] dt2
  delegatee : Publishes env (basicD env e f) [k.delegatee] dd
  goodRoots : GoodRoot env (basicR1' env e k) ∧ GoodRoot env (basicR2 env e k) ∧ GoodRoot env (basicR3 env e k)
  goodTimestamp : GoodTimestamp env (basicI2 e)
  goodSnapshot : GoodSnapshot env (basicS2 e)
  goodTargets : GoodTargets env (basicT2 env e f k)
  goodDelegatee : GoodTargets env (basicD env e f)

theorem basic_made (pem : PemTexts (std env)) (hk : BasicKeys (std env) k) (he : BasicCalendar e) (hl : data.length < 2 ^ 63) :
    ∃ dr1 dr2 dr3 di2 ds1 ds2 dt1 dt2 dd, basicRepository (std env) e path data k = .ok [(b!"1.go-scripts.json", dd), (b!"1.root.json", dr1), (b!"1.snapshot.json", ds1), (b!"1.targets.json", dt1),
      (b!"2.root.json", dr2), (b!"2.snapshot.json", ds2), (b!"2.targets.json", dt2), (b!"3.root.json", dr3), (b!"timestamp.json", di2)] ∧
      BasicRelease (std env) e (basicFile (std env) path data) k dr1 dr2 dr3 di2 ds2 dt2 dd := by
  obtain ⟨l1, l2, l3, l4, l5, l6, l7, l8, l9, l10⟩ := basic_sublists k
  have hfine := basic_fine pem hk
  obtain ⟨c1, c1', c2⟩ := basicHist_sub (env := std env) (k := k)
  have fT := fine_target (env := env) (localPath := path) hl
  have hdel : Employed (std env) k.delegatee := hk.work _ (l5.subset (by simp))
  have f1 : ∀ x ∈ [TargetsEdit.target basicTarget (basicFile (std env) path data)], x.Fine (std env) := by
    intro x hx
    rw [List.mem_singleton] at hx
    rw [hx]
    exact fT
  have f2 : ∀ x ∈ [TargetsEdit.target basicTarget (basicFile (std env) path data), .delegate (some (basicDelegation (std env) k.delegatee)), .remove basicTarget, .expires e.targets2, .version 2], x.Fine (std env) := by
    intro x hx
    simp only [List.mem_cons, List.not_mem_nil, or_false] at hx
    rcases hx with rfl | rfl | rfl | rfl | rfl
    · exact fT
    · exact fine_delegation pem hdel
    · trivial
    · exact he.targets2
    · show inInt64 _ = true
      decide
  have f3 : ∀ x ∈ [MetaEdit.file b!"targets.json" (newMetaFile 2), .file b!"go-scripts.json" (newMetaFile 1), .version 2], x.Fine (std env) := by
    intro x hx
    simp only [List.mem_cons, List.not_mem_nil, or_false] at hx
    rcases hx with rfl | rfl | rfl
    · exact fine_entry 2 (by decide) (by decide) (utf8_name (by rfl))
    · exact fine_entry 1 (by decide) (by decide) (utf8_name (by rfl))
    · show inInt64 _ = true
      decide
  have f4 : ∀ x ∈ [MetaEdit.file b!"snapshot.json" (newMetaFile 2), .version 2], x.Fine (std env) := by
    intro x hx
    simp only [List.mem_cons, List.not_mem_nil, or_false] at hx
    rcases hx with rfl | rfl
    · exact fine_entry 2 (by decide) (by decide) (utf8_name (by rfl))
    · show inInt64 _ = true
      decide
  have f0 : ∀ x ∈ ([] : List MetaEdit), x.Fine (std env) := fun x hx => by cases hx
  have a1 := basic_apart hk l1
  have a2 := basic_apart hk l2
  have a3 := basic_apart hk l3
  have a4 := basic_apart hk l4
  have a5 := basic_apart hk l5
  have a6 := basic_apart hk l6
  have a8 := basic_apart hk l8
  have a10 := basic_apart hk l10
  obtain ⟨mt1, dt1, ht1⟩ := targets_doc he.targets f1 a1.1 a1.2
  obtain ⟨mt2, dt2, ht2⟩ := targets_doc he.targets f2 a1.1 a1.2
  obtain ⟨md, dd, hd⟩ := targets_doc he.delegatee f1 a5.1 a5.2
  obtain ⟨ms1, ds1, hs1⟩ := snapshot_doc he.snapshot f0 a2.1 a2.2
  obtain ⟨ms2, ds2, hs2⟩ := snapshot_doc he.snapshot f3 a2.1 a2.2
  obtain ⟨mi1, di1, hi1⟩ := timestamp_doc he.timestamp f0 a3.1 a3.2
  obtain ⟨mi2, di2, hi2⟩ := timestamp_doc he.timestamp f4 a3.1 a3.2
  obtain ⟨mr0, dr0, hr0⟩ := root_doc he.root (fun x hx => hfine x (c1 x hx)) a4.1 a4.2
  obtain ⟨mr1, dr1, hr1⟩ := root_doc he.root (fun x hx => hfine x (c1' x hx)) a6.1 a6.2
  obtain ⟨mr2, dr2, hr2⟩ := root_doc he.root (fun x hx => hfine x (c2 x hx)) a8.1 a8.2
  obtain ⟨mr3, dr3, hr3⟩ := root_doc he.root hfine a10.1 a10.2
  refine ⟨dr1, dr2, dr3, di2, ds1, ds2, dt1, dt2, dd, ?_, ⟨hr1.published, hr2.published, hr3.published, hi2.published, hs2.published, ht2.published, hd.published,
    ⟨(C116_root he.root (fun x hx => hfine x (c1' x hx))).1, (C116_root he.root (fun x hx => hfine x (c2 x hx))).1, (C116_root he.root hfine).1⟩, (C116_timestamp he.timestamp f4).1,
    (C116_snapshot he.snapshot f3).1, (C116_targets he.targets f2).1, (C116_targets he.delegatee f1).1⟩⟩
  unfold basicRepository
  rw [basicFile_made, Res.bind_ok, create_run hk ht1 hs1 hi1 hr0, Res.bind_ok, cosign_run hk ht1 hs1 hi1 hr0 hr1, Res.bind_ok,
    delegate_run hk ⟨ht1.value, ht1.fields⟩ ⟨hs1.value, hs1.fields⟩ ⟨hi1.value, hi1.fields⟩ ht2 hs2 hi2 hd, Res.bind_ok]
  dsimp only
  rw [rotate_run hk ⟨hr1.value, hr1.fields⟩ ht2 hs2 hi2 hd hr2, Res.bind_ok, mix_run hk ⟨hr2.value, hr2.fields⟩ hr3, Res.bind_ok]
  rfl

/-- **C118.** With working keys that have different key IDs, times of the calendar and a target file of less than 2^63 bytes the program succeeds, and the folder has the nine files. -/
theorem C118_succeeds (pem : PemTexts (std env)) (hk : BasicKeys (std env) k) (he : BasicCalendar e) (hl : data.length < 2 ^ 63) :
    ∃ dir, basicRepository (std env) e path data k = .ok dir ∧ dir.map Prod.fst = basicNames := by
  obtain ⟨dr1, dr2, dr3, di2, ds1, ds2, dt1, dt2, dd, h, _⟩ := basic_made (path := path) pem hk he hl
  exact ⟨_, h, rfl⟩

/-! ## Clients -/

/-- The published targets roles. -/
def basicDocs (env : Env) (e : BasicTimes) (f : TargetFiles) (k : BasicSigners) (dt2 dd : Bytes) (role : Str) : Option PubRole :=
  if role = b!"targets" then some ⟨basicT2 env e f k, newMetaFile 2, dt2⟩ else if role = basicDelegatee then some ⟨basicD env e f, newMetaFile 1, dd⟩ else none

theorem basicDocs_cases {env : Env} {f : TargetFiles} {dt2 dd : Bytes} {role : Str} {p : PubRole} (h : basicDocs env e f k dt2 dd role = some p) :
    (role = b!"targets" ∧ p = ⟨basicT2 env e f k, newMetaFile 2, dt2⟩) ∨ (role = basicDelegatee ∧ p = ⟨basicD env e f, newMetaFile 1, dd⟩) := by
  unfold basicDocs at h
  split at h
  · next h1 =>
    cases h
    exact .inl ⟨h1, rfl⟩
  · split at h
    · next h1 =>
      cases h
      exact .inr ⟨h1, rfl⟩
    · cases h

theorem basicT2_delegations {env : Env} {f : TargetFiles} : (basicT2 env e f k).delegations = some (basicDelegation env k.delegatee) := rfl

theorem basicD_delegations {env : Env} {f : TargetFiles} : (basicD env e f).delegations = none := rfl

theorem basicT2_targets {env : Env} {f : TargetFiles} {path : Str} : (basicT2 env e f k).targets.get? path = none := rfl

theorem basicD_targets {env : Env} {f : TargetFiles} {path : Str} : (basicD env e f).targets.get? path = if path = basicTarget then some (some f) else none := by
  show Entries.get? [(basicTarget, some f)] path = _
  rw [Entries.get?_cons]
  by_cases h : path = basicTarget
  · rw [if_pos h, if_pos h.symm]
  · rw [if_neg h, if_neg (fun h' => h h'.symm)]
    rfl

/-- The only delegation is that to the delegatee. -/
theorem basic_covers {env : Env} {f : TargetFiles} {dt2 dd : Bytes} {role child path : Str} {p : PubRole} {b : Bool} (h : basicDocs env e f k dt2 dd role = some p)
    (hc : Covers env { signed := p.value } path child b) : role = b!"targets" ∧ p.value = basicT2 env e f k ∧ child = basicDelegatee := by
  rcases basicDocs_cases h with ⟨rfl, rfl⟩ | ⟨rfl, rfl⟩
  · refine ⟨rfl, rfl, ?_⟩
    generalize hn : child = n at hc
    cases hc with
    | @listed d before after r h1 h2 h3 h4 =>
      have h1 : some (basicDelegation env k.delegatee) = some d := h1
      cases h1
      have h2 : [_] = before ++ r :: after := Option.some.inj h2
      cases before with
      | nil =>
        cases h2
        rfl
      | cons a l =>
        cases l with
        | nil => cases h2
        | cons a l => cases h2
    | @bin d sr suffix h1 h2 h3 h4 =>
      have h1 : some (basicDelegation env k.delegatee) = some d := h1
      cases h1
      cases h2
  · exfalso
    cases hc with
    | listed h1 => cases h1
    | bin h1 => cases h1

theorem basic_covered {f : TargetFiles} : Covers (std env) { signed := basicT2 (std env) e f k } basicTarget basicDelegatee true := by
  refine Covers.listed (before := []) (after := []) (r := { name := basicDelegatee, keyIDs := some [idFor (std env) k.delegatee], threshold := 1, terminating := true, paths := some [b!"*.go"] })
    basicT2_delegations rfl ((isDelegatedPath_iff _ _ _).1 ?_) (fun _ h => by cases h)
  show ([b!"*.go"] : List Str).any (fun p => isTargetInPathPattern (std env) basicTarget p) = true
  have : isTargetInPathPattern (std env) basicTarget b!"*.go" = true := by
    rfl
  rw [List.any_cons, this]
  rfl

variable {x : Ctx} {srv : Str → Int → Except Err Bytes} {b : Str} {f : TargetFiles} {dr1 dr2 dr3 di2 ds2 dt2 dd : Bytes}

/-- One rotation. -/
theorem basic_step (hx : x.env = std env) {r : RootType} {ss : List Signer} {d : Bytes} (hr : GoodRoot (std env) r) (hp : Publishes (std env) r ss d) {t : Trusted} (ht : t.timestamp = none)
    (hold : Suffice (std env) (.root t.root) b!"root" ss) (hnew : Suffice (std env) (.root { signed := r }) b!"root" ss) (hv : r.version = t.root.signed.version + 1)
    (hb : SlashBase x.cfg.remoteMetadataURL b) (hs : srv (b ++ formatInt 10 (wrap64 (t.root.signed.version + 1)) ++ b!".root.json") x.cfg.rootMaxLength = .ok d) :
    ∃ m : Metadata RootType, m.signed = readRoot r ∧ ∀ n t', RootsLeadTo x srv n { t with root := m } t' → RootsLeadTo x srv (n + 1) t t' := by
  obtain ⟨m, h1, h2⟩ := C86_next_root (std_laws env) ht hr hp hold hnew hv
  refine ⟨m, h2, fun n t' h => .rotated ⟨b, hb, rfl⟩ ?_ (C78_root.1 (by rw [hx]; exact congrArg Prod.fst h1)) h⟩
  simp only [List.append_assoc] at hs ⊢
  exact hs

theorem readRoot_version (r : RootType) : (readRoot r).version = r.version := rfl

/-- The three roots lead to the last one. -/
theorem basic_roots (pem : PemTexts (std env)) (hk : BasicKeys (std env) k) (hx : x.env = std env) (rel : BasicRelease (std env) e f k dr1 dr2 dr3 di2 ds2 dt2 dd)
    (hb : SlashBase x.cfg.remoteMetadataURL b) (h2 : srv (b ++ b!"2.root.json") x.cfg.rootMaxLength = .ok dr2) (h3 : srv (b ++ b!"3.root.json") x.cfg.rootMaxLength = .ok dr3)
    (h4 : ∃ status u, (status = 403 ∨ status = 404) ∧ srv (b ++ b!"4.root.json") x.cfg.rootMaxLength = .error (.downloadHTTP status u)) {t : Trusted} (ht : t.timestamp = none)
    (hr : t.root.signed = readRoot (basicR1' (std env) e k) ∨ t.root.signed = readRoot (basicR2 (std env) e k) ∨ t.root.signed = readRoot (basicR3 (std env) e k)) (n : Nat) (hn : 2 ≤ n) :
    (1 ≤ t.root.signed.version ∧ t.root.signed.version ≤ 3) ∧ ∃ t', RootsLeadTo x srv n t t' ∧ t'.root.signed = readRoot (basicR3 (std env) e k) := by
  obtain ⟨v1, v2, v3, _⟩ := basic_versions (env := std env) (e := e) (k := k)
  have v1' : (readRoot (basicR1' (std env) e k)).version = 1 := by
    rw [basicR1'_eq, readRoot_version, readRoot_version]
    exact v1
  have v2' : (readRoot (basicR2 (std env) e k)).version = 2 := (readRoot_version _).trans v2
  have v3' : (readRoot (basicR3 (std env) e k)).version = 3 := (readRoot_version _).trans v3
  obtain ⟨g1, g2, g3⟩ := rel.goodRoots
  have last : ∀ (n : Nat) (t : Trusted), t.root.signed = readRoot (basicR3 (std env) e k) → RootsLeadTo x srv n t t := by
    intro n t h
    obtain ⟨status, u, hst, hno⟩ := h4
    cases n with
    | zero => exact .limit
    | succ n => exact .newest ⟨b, hb, by rw [h, v3']; simp only [List.append_assoc]; rfl⟩ hno hst
  have second : ∀ (n : Nat) (t : Trusted), t.timestamp = none → t.root.signed = readRoot (basicR2 (std env) e k) →
      ∃ t', RootsLeadTo x srv (n + 1) t t' ∧ t'.root.signed = readRoot (basicR3 (std env) e k) := by
    intro n t ht h
    obtain ⟨m, m1, m2⟩ := basic_step hx g3 rel.root3 ht
      (suffice_root (m := { signed := basicR2 (std env) e k }) h ((basic_all_suffice hk _).2.1 rfl).2.1) ((basic_all_suffice hk _).2.2 rfl).1 (by rw [h, v2', v3]; rfl) hb
      (by rw [h, v2', List.append_assoc]; exact h3)
    exact ⟨_, m2 n _ (last n _ m1), m1⟩
  have hsplit : ∃ j, n = j + 1 + 1 := ⟨n - 2, by omega⟩
  obtain ⟨j, rfl⟩ := hsplit
  rcases hr with h | h | h
  · refine ⟨by rw [h, v1']; decide, ?_⟩
    obtain ⟨m, m1, m2⟩ := basic_step hx g2 rel.root2 ht
      (suffice_root (m := { signed := basicR1' (std env) e k }) h ((basic_all_suffice hk _).1 rfl).2.1) ((basic_all_suffice hk _).2.1 rfl).1 (by rw [h, v1', v2]; rfl) hb
      (by rw [h, v1', List.append_assoc]; exact h2)
    obtain ⟨t', p1, p2⟩ := second j { t with root := m } ht m1
    exact ⟨t', m2 _ _ p1, p2⟩
  · refine ⟨by rw [h, v2']; decide, ?_⟩
    exact second _ t ht h
  · refine ⟨by rw [h, v3']; decide, ?_⟩
    exact ⟨t, last _ t h, h⟩

/-- The published roles and the delegation among them. -/
theorem basic_branches (pem : PemTexts (std env)) (hk : BasicKeys (std env) k) (hx : x.env = std env) (rel : BasicRelease (std env) e f k dr1 dr2 dr3 di2 ds2 dt2 dd) {now : Time}
    (hnow : ¬ Expired e.targets2 now ∧ ¬ Expired e.delegatee now) (hb : SlashBase x.cfg.remoteMetadataURL b) (ht : srv (b ++ b!"2.targets.json") x.cfg.targetsMaxLength = .ok dt2)
    (hd : srv (b ++ b!"1.go-scripts.json") x.cfg.targetsMaxLength = .ok dd) (path : Str) :
    Branches x srv now (basicR3 (std env) e k) (basicS2 e) (basicT2 (std env) e f k) path (basicDocs (std env) e f k dt2 dd) := by
  have hcs : (basicR3 (std env) e k).consistentSnapshot = true := basic_versions.2.2.2.2.2.2.2.2
  have hnohash : ∀ n d, MetaMatches x.env (newMetaFile n) d := fun n d => ⟨fun h => absurd rfl h, fun a v h => by simp [newMetaFile, GoMap.entries] at h⟩
  refine { top := ⟨_, rfl, rfl⟩, good := ?_, listed := ?_, served := ?_, named := ?_, bins := ?_, closed := ?_ }
  · intro role p h
    rw [hx]
    rcases basicDocs_cases h with ⟨rfl, rfl⟩ | ⟨rfl, rfl⟩
    · exact ⟨rel.goodTargets, hnow.1⟩
    · exact ⟨rel.goodDelegatee, hnow.2⟩
  · intro role p h
    rcases basicDocs_cases h with ⟨rfl, rfl⟩ | ⟨rfl, rfl⟩
    · exact ⟨rfl, rfl, hnohash _ _⟩
    · exact ⟨rfl, rfl, hnohash _ _⟩
  · intro role p h
    rcases basicDocs_cases h with ⟨rfl, rfl⟩ | ⟨rfl, rfl⟩
    · exact ⟨_, _, .inl ⟨hcs, b, hb, rfl⟩, .inr ⟨rfl, rfl⟩, by simp only [List.append_assoc]; exact ht⟩
    · exact ⟨_, _, .inl ⟨hcs, b, hb, rfl⟩, .inr ⟨rfl, rfl⟩, by simp only [List.append_assoc]; exact hd⟩
  · intro role p h
    rcases basicDocs_cases h with ⟨rfl, rfl⟩ | ⟨rfl, rfl⟩
    · exact ⟨⟨by decide, by decide, by decide, by decide⟩, by decide⟩
    · exact ⟨⟨by decide, by decide, by decide, by decide⟩, by decide⟩
  · intro role p d sr h h1 h2 h3
    rcases basicDocs_cases h with ⟨rfl, rfl⟩ | ⟨rfl, rfl⟩
    · cases h1
      cases h2
    · cases h1
  · intro role p child c h hc
    rw [hx] at hc ⊢
    obtain ⟨rfl, hp, rfl⟩ := basic_covers h hc
    obtain ⟨_, _, _, _, l5, _⟩ := basic_sublists k
    exact ⟨_, [k.delegatee], rfl, rel.delegatee, by rw [hp]; exact delegatee_suffice (hk.work _ (l5.subset (by simp))) _ basicT2_delegations⟩

/-- The second release under the last root. -/
theorem basic_release (pem : PemTexts (std env)) (hk : BasicKeys (std env) k) (rel : BasicRelease (std env) e f k dr1 dr2 dr3 di2 ds2 dt2 dd) {now : Time} (hnow : BasicFresh e now) :
    Release (std env) now (basicR3 (std env) e k) (basicI2 e) (basicS2 e) (basicT2 (std env) e f k) di2 ds2 dt2 (newMetaFile 2) (newMetaFile 2) := by
  obtain ⟨n1, n2, n3, n4, _⟩ := hnow
  obtain ⟨_, s2, s3, s4⟩ := (basic_all_suffice (e := e) hk { signed := basicR3 (std env) e k }).2.2 rfl
  have hnohash : ∀ n d, MetaMatches (std env) (newMetaFile n) d := fun n d => ⟨fun h => absurd rfl h, fun a v h => by simp [newMetaFile, GoMap.entries] at h⟩
  have hexp : (basicR3 (std env) e k).expires = e.root := basic_versions.2.2.2.2.2.1
  exact {
    goodTimestamp := rel.goodTimestamp
    goodSnapshot := rel.goodSnapshot
    goodTargets := rel.goodTargets
    timestamp := ⟨_, rel.timestamp, s4⟩
    snapshot := ⟨_, rel.snapshot, s3⟩
    targets := ⟨_, rel.targets, s2⟩
    rootFresh := by rw [hexp]; exact n1
    timestampFresh := n2
    snapshotFresh := n3
    targetsFresh := n4
    snapshotListed := ⟨rfl, rfl, hnohash _ _⟩
    targetsListed := ⟨rfl, rfl, hnohash _ _⟩ }

/-- **C118.** Clients that start with any of the three roots, without cached metadata, of a server with the folder that the program made, refresh successfully until a role of the last
release expires and then have the third root; they find the target file, in the delegated role, with the length and hash of the contents, get it, and find no other path. -/
theorem C118_clients (pem : PemTexts (std env)) (hk : BasicKeys (std env) k) (he : BasicCalendar e) (hl : data.length < 2 ^ 63) {dir : Entries Bytes}
    (hg : basicRepository (std env) e path data k = .ok dir) {now : Time} (hx : BasicVisit env dir data x srv now) (hnow : BasicFresh e now) {w : World} (hw : NoTemps w.fs) (hc : NoCache x w.fs) :
    ∃ t0 w1, newUpdater x w = (.ok t0, w1) ∧
      (∃ s', refresh x ⟨t0, w1⟩ = (.ok (), s') ∧ s'.trusted.root.signed.version = 3) ∧
      (∃ (tf : TargetFiles) (s1 : St), getTargetInfo x basicTarget ⟨t0, w1⟩ = (.ok (some tf), s1) ∧ tf.path = basicTarget ∧ TargetMatches (std env) tf data ∧
        ∀ given file, TargetPath x tf given file → ∃ s2, downloadTarget x tf given [] s1 = (.ok (file, data), s2) ∧ s2.world.fs file = some data) ∧
      ∀ other, other ≠ basicTarget → ∃ err s1, getTargetInfo x other ⟨t0, w1⟩ = (.err err, s1) := by
  obtain ⟨dr1, dr2, dr3, di2, ds1, ds2, dt1, dt2, dd, h, rel⟩ := basic_made (path := path) pem hk he hl
  rw [hg] at h
  have hdir := Res.ok.inj h
  clear h
  obtain ⟨_, _, v3, _, _, _, _, _, hcs⟩ := basic_versions (env := std env) (e := e) (k := k)
  obtain ⟨b, hb, hm, hno⟩ := hx.metadata
  have hserv : ∀ name d, (name, d) ∈ dir → ∀ n, (d.length : Int) ≤ n → srv (b ++ name) n = .ok d := fun name d h => hm (name, d) h
  have mt : (b!"2.targets.json", dt2) ∈ dir := by rw [hdir]; simp
  have ms : (b!"2.snapshot.json", ds2) ∈ dir := by rw [hdir]; simp
  have mi : (b!"timestamp.json", di2) ∈ dir := by rw [hdir]; simp
  have md : (b!"1.go-scripts.json", dd) ∈ dir := by rw [hdir]; simp
  have m2 : (b!"2.root.json", dr2) ∈ dir := by rw [hdir]; simp
  have m3 : (b!"3.root.json", dr3) ∈ dir := by rw [hdir]; simp
  -- the initial root
  have hstart : ∃ t0 : Trusted, Trusted.new (std env) now x.cfg.localTrustedRoot = .ok t0 ∧
      (t0.root.signed = readRoot (basicR1' (std env) e k) ∨ t0.root.signed = readRoot (basicR2 (std env) e k) ∨ t0.root.signed = readRoot (basicR3 (std env) e k)) ∧
      t0.timestamp = none ∧ t0.snapshot = none ∧ t0.targets = [] ∧ t0.refTime = now := by
    obtain ⟨g1, g2, g3⟩ := rel.goodRoots
    obtain ⟨name, hn, hget⟩ := hx.root
    rw [hdir] at hget
    simp only [List.mem_cons, List.not_mem_nil, or_false] at hn
    rcases hn with rfl | rfl | rfl
    · have hget : some dr1 = some x.cfg.localTrustedRoot := hget
      rw [← Option.some.inj hget]
      obtain ⟨t, a1, a2, a3⟩ := C86_root (std_laws env) g1 rel.root1 ((basic_all_suffice hk _).1 rfl).1 now
      exact ⟨t, a1, .inl a2, a3⟩
    · have hget : some dr2 = some x.cfg.localTrustedRoot := hget
      rw [← Option.some.inj hget]
      obtain ⟨t, a1, a2, a3⟩ := C86_root (std_laws env) g2 rel.root2 ((basic_all_suffice hk _).2.1 rfl).1 now
      exact ⟨t, a1, .inr (.inl a2), a3⟩
    · have hget : some dr3 = some x.cfg.localTrustedRoot := hget
      rw [← Option.some.inj hget]
      obtain ⟨t, a1, a2, a3⟩ := C86_root (std_laws env) g3 rel.root3 ((basic_all_suffice hk _).2.2 rfl).1 now
      exact ⟨t, a1, .inr (.inr a2), a3⟩
  obtain ⟨t0, n1, n2, n3, n4, n5, n6⟩ := hstart
  obtain ⟨⟨v1, v2⟩, t', hlead, hlast⟩ := basic_roots (n := x.cfg.maxRootRotations.toNat) pem hk hx.sameEnv rel hb (hserv _ _ m2 _ (hx.limits _ m2).1) (hserv _ _ m3 _ (hx.limits _ m3).1) hno n3 n2
    (by have := hx.rotations.1; omega)
  have hrel := basic_release (now := now) pem hk rel hnow
  have hserving : Serving x srv (basicR3 (std env) e k) di2 ds2 dt2 (newMetaFile 2) (newMetaFile 2) := {
    timestamp := ⟨_, ⟨b, hb, rfl⟩, by
      rw [List.append_assoc]
      exact hserv _ _ mi _ (hx.limits _ mi).2.1⟩
    snapshot := ⟨_, x.cfg.snapshotMaxLength, .inl ⟨hcs, b, hb, rfl⟩, .inr ⟨rfl, rfl⟩, by
      simp only [List.append_assoc]
      exact hserv _ _ ms _ (hx.limits _ ms).2.2.1⟩
    targets := ⟨_, x.cfg.targetsMaxLength, .inl ⟨hcs, b, hb, rfl⟩, .inr ⟨rfl, rfl⟩, by
      simp only [List.append_assoc]
      exact hserv _ _ mt _ (hx.limits _ mt).2.2.2⟩ }
  have hrot : 0 ≤ x.cfg.maxRootRotations ∧ wrap64 (t0.root.signed.version + 1) + x.cfg.maxRootRotations < 2 ^ 63 := by
    have h1 := hx.rotations
    have : wrap64 (t0.root.signed.version + 1) = t0.root.signed.version + 1 := wrap64_of_bounds (by omega) (by omega)
    omega
  have hne : x.cfg.localTrustedRoot ≠ [] := by
    intro h0
    rw [h0] at n1
    exact new_nonempty n1
  have hgood : (ClientRun.mk x srv now (basicR3 (std env) e k) ⟨basicI2 e, basicS2 e, basicT2 (std env) e (basicFile (std env) path data) k, di2, ds2, dt2, newMetaFile 2, newMetaFile 2⟩).Good
      (std env) x.cfg.localMetadataDir := {
    sameEnv := hx.sameEnv
    sameDir := rfl
    online := hx.online
    caching := hx.caching
    url := hx.url.1
    dirs := hx.dirs
    disk := hx.disk
    mkdir := hx.mkdir
    network := hx.network
    clock := hx.clock
    released := hrel
    served := hserving
    roots := ⟨t0, t', hne, n1, hrot.1, hrot.2, hlead, hlast⟩ }
  obtain ⟨w1, u1, u2, u3⟩ := new_progress hgood n1 hne hw
  have hbr := basic_branches (now := now) pem hk hx.sameEnv rel ⟨hnow.2.2.2.1, hnow.2.2.2.2⟩ hb (hserv _ _ mt _ (hx.limits _ mt).2.2.2) (hserv _ _ md _ (hx.limits _ md).2.2.2)
  have q1 : w1.fs (joinPath x.cfg.localMetadataDir b!"timestamp.json") = none := (u3 TIMESTAMP (by decide)).trans (hc b!"timestamp.json" (by simp))
  have q2 : w1.fs (joinPath x.cfg.localMetadataDir b!"snapshot.json") = none := (u3 SNAPSHOT (by decide)).trans (hc b!"snapshot.json" (by simp))
  have q3 : w1.fs (joinPath x.cfg.localMetadataDir b!"targets.json") = none := (u3 TARGETS (by decide)).trans (hc b!"targets.json" (by simp))
  have q4 : w1.fs (joinPath x.cfg.localMetadataDir b!"go-scripts.json") = none := (u3 basicDelegatee (by decide)).trans (hc b!"go-scripts.json" (by simp))
  have hempty : ∀ name ∈ [b!"timestamp.json", b!"snapshot.json", b!"targets.json"], w1.fs (joinPath x.cfg.localMetadataDir name) = none := by
    intro name hn
    simp only [List.mem_cons, List.not_mem_nil, or_false] at hn
    rcases hn with rfl | rfl | rfl
    · exact q1
    · exact q2
    · exact q3
  have hnone : ∀ role, (basicDocs (std env) e (basicFile (std env) path data) k dt2 dd role).isSome → w1.fs (joinPath x.cfg.localMetadataDir (role ++ b!".json")) = none := by
    intro role hr
    obtain ⟨p, hp⟩ := Option.isSome_iff_exists.1 hr
    rcases basicDocs_cases hp with ⟨rfl, _⟩ | ⟨rfl, _⟩
    · exact q3
    · exact q4
  have hrel' : Release x.env now (basicR3 (std env) e k) (basicI2 e) (basicS2 e) (basicT2 (std env) e (basicFile (std env) path data) k) di2 ds2 dt2 (newMetaFile 2) (newMetaFile 2) := by
    rw [hx.sameEnv]
    exact hrel
  have laws : EnvLaws x.env := by
    rw [hx.sameEnv]
    exact std_laws env
  refine ⟨t0, w1, u1, ?_, ?_, ?_⟩
  · obtain ⟨s', r1, r2, _⟩ := onRelease laws hrel' hserving hx.online hx.network (.inr hx.disk) (s := ⟨t0, w1⟩) u2 hrot hlead hlast n3 n4 n5 n6 hempty (hbr basicTarget) hnone
    exact ⟨s', r1, by rw [r2.root, readRoot_version]; exact v3⟩
  · obtain ⟨_, _, g3⟩ := C90_delegated laws hrel' hserving hx.online hx.network (.inr hx.disk) (s := ⟨t0, w1⟩) u2 hrot hlead hlast n3 n4 n5 n6 hempty (hbr basicTarget) hnone
    obtain ⟨_, g4⟩ := g3 [b!"targets", basicDelegatee] (by
      intro role hr
      obtain ⟨p, hp⟩ := Option.isSome_iff_exists.1 hr
      rcases basicDocs_cases hp with ⟨rfl, _⟩ | ⟨rfl, _⟩ <;> simp) hx.delegations (.inr (by
      rintro m ⟨role, p, hp, rfl⟩ n1 c1 n2 c2 h1 h2
      rw [hx.sameEnv] at h1 h2
      obtain ⟨_, _, e1⟩ := basic_covers hp h1
      obtain ⟨_, _, e2⟩ := basic_covers hp h2
      rw [e1, e2])) basicDelegatee ⟨basicD (std env) e (basicFile (std env) path data), newMetaFile 1, dd⟩ (some (basicFile (std env) path data))
      (.step .top rfl (by rw [hx.sameEnv]; exact basic_covered)) rfl (by rw [basicD_targets, if_pos rfl])
    have g5 := g4 (by
      intro role p _ hp hs
      rcases basicDocs_cases hp with ⟨rfl, rfl⟩ | ⟨rfl, _⟩
      · rw [basicT2_targets] at hs
        cases hs
      · rfl)
    have hmatch : TargetMatches (std env) { basicFile (std env) path data with path := basicTarget } data := by
      refine ⟨rfl, ?_⟩
      intro alg v hv
      simp only [basicFile, GoMap.entries, Option.getD_some, List.mem_singleton, Prod.mk.injEq] at hv
      obtain ⟨rfl, rfl⟩ := hv
      exact .sha256
    refine ⟨{ basicFile (std env) path data with path := basicTarget }, (getTargetInfo x basicTarget ⟨t0, w1⟩).2, Prod.ext g5 rfl, rfl, hmatch, ?_⟩
    intro given file hpath
    generalize (getTargetInfo x basicTarget ⟨t0, w1⟩).2 = s1
    obtain ⟨tb, ht1, ht2⟩ := hx.targets
    obtain ⟨s2, j1, j2⟩ := C88_download_partial (s := s1) (base := []) hx.network (.inr hx.disk) hpath (.configured rfl hx.url.2 ht1) (data := data) (by
      unfold ServingTarget
      cases hp : x.cfg.prefixTargetsWithHash with
      | false => exact .inl ⟨.inr rfl, ht2 _ (by simp [basicTarget]) _ (Int.le_refl _)⟩
      | true =>
        cases s1.trusted.root.signed.consistentSnapshot with
        | false => exact .inl ⟨.inl rfl, ht2 _ (by simp [basicTarget]) _ (Int.le_refl _)⟩
        | true =>
          refine .inr ⟨rfl, rfl, by simp [basicFile, GoMap.entries], ?_⟩
          intro alg v name hav hn
          simp only [basicFile, GoMap.entries, Option.getD_some, List.mem_singleton, Prod.mk.injEq] at hav
          obtain ⟨rfl, rfl⟩ := hav
          refine ht2 _ ?_ _ (Int.le_refl _)
          rw [copyName_prefixed hn]
          refine List.mem_cons_of_mem _ (List.mem_singleton.2 ?_)
          show ([] : Str) ++ hexEncode (env.sha256 data) ++ b!"." ++ b!"basic_repository.go" = _
          simp) (fun _ _ => (show basicTarget.count 47 ≤ 1 by decide)) (by rw [hx.sameEnv]; exact hmatch)
    exact ⟨s2, j1, j2 hx.caching⟩
  · intro other ho
    obtain ⟨g1, g2, _⟩ := C90_delegated laws hrel' hserving hx.online hx.network (.inr hx.disk) (s := ⟨t0, w1⟩) u2 hrot hlead hlast n3 n4 n5 n6 hempty (hbr other) hnone
    generalize getTargetInfo x other ⟨t0, w1⟩ = res at *
    obtain ⟨r, s1⟩ := res
    cases r with
    | err err => exact ⟨err, s1, rfl⟩
    | panic => exact absurd rfl g1
    | ok o =>
      exfalso
      obtain ⟨role, p, f, _, hp, hf, _⟩ := g2 o rfl
      rcases basicDocs_cases hp with ⟨rfl, rfl⟩ | ⟨rfl, rfl⟩
      · rw [basicT2_targets] at hf
        cases hf
      · rw [basicD_targets, if_neg ho] at hf
        cases hf

end

end Tuf
