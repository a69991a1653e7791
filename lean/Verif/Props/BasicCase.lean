import Verif.Props.BasicClients

/-! # A case of C118: the second example repository and its clients -/

namespace Tuf
open Tuf.Spec Tuf.Sample Tuf.Std

namespace Sample

/-- PEM texts: the kind of key and its material in hexadecimal. -/
def hexPem : Env := { env0 with
  pem := fun s => match s with
    | 49 :: h => (hexDecode h).map .rsa
    | 50 :: h => (hexDecode h).map .ecdsa
    | _ => none
  toPem := fun pk => match pk with
    | .rsa m => some (49 :: hexEncode m)
    | .ecdsa m => some (50 :: hexEncode m)
    | _ => none }

def baSigner (pk : PublicKey) : Signer := { signMessage := fun _ => some (material pk), publicKey := some pk }
def baPublic (b : UInt8) : PublicKey := if b = 8 then .rsa [b] else if b = 9 then .ecdsa [b] else .ed25519 [b]
/-- Seven Ed25519 keys, an RSA key and an ECDSA key. -/
def baKeys : BasicSigners :=
  ⟨baSigner (baPublic 1), baSigner (baPublic 2), baSigner (baPublic 3), baSigner (baPublic 4), baSigner (baPublic 5), baSigner (baPublic 6), baSigner (baPublic 7), baSigner (baPublic 8),
    baSigner (baPublic 9)⟩
def baTimes : BasicTimes :=
  ⟨timeOf (exCivil 2030), timeOf (exCivil 2030), timeOf (exCivil 2031), timeOf (exCivil 2032), timeOf (exCivil 2033), timeOf (exCivil 2034)⟩
/-- What the program writes; the contents of the target file are two bytes. -/
def baWritten : Res (Entries Bytes) := basicRepository (std hexPem) baTimes b!"/src/basic_repository.go" [7, 7] baKeys
/-- The URL with a hash. -/
def baPrefixed : Str := b!"v/" ++ (hexEncode (hexPem.sha256 [7, 7]) ++ b!".basic_repository.go")
/-- A server of the folder and the target file. -/
def baServer (dir : Entries Bytes) (url : Str) : Except Err Bytes :=
  match exLookup dir b!"u/" url with
  | some d => .ok d
  | none => if url = b!"v/basic_repository.go" ∨ url = baPrefixed then .ok [7, 7] else .error (.downloadHTTP 404 url)
/-- A client that starts with the root of the version. -/
def baCtx (dir : Entries Bytes) (first : Bytes) (pre : Bool) : Ctx :=
  ⟨std hexPem, hostOf (baServer dir), { cfg with localTrustedRoot := first, remoteTargetsURL := b!"v", prefixTargetsWithHash := pre }⟩

def baServed (dir : Entries Bytes) : Bool :=
  dir.all (fun f => exLookup dir b!"u/" (b!"u/" ++ f.1) == some f.2 && f.2.length ≤ 16384) && exLookup dir b!"u/" b!"u/4.root.json" == none &&
    exLookup dir b!"u/" b!"v/basic_repository.go" == none && exLookup dir b!"u/" baPrefixed == none
def baCheck : Bool := match baWritten with
  | .ok dir => baServed dir
  | _ => false

end Sample

theorem baCheck_ok : baCheck = true := by decide +kernel

theorem baReads (pk : PublicKey) : PemReads (std hexPem) pk := by
  intro s h
  cases pk with
  | rsa m =>
    cases h
    show (hexDecode (hexEncode m)).map _ = _
    rw [hexDecode_hexEncode]
    rfl
  | ecdsa m =>
    cases h
    show (hexDecode (hexEncode m)).map _ = _
    rw [hexDecode_hexEncode]
    rfl
  | ed25519 m => cases h
  | unknown m => cases h

theorem baPem : PemTexts (std hexPem) := by
  intro pk s h
  cases pk with
  | rsa m =>
    cases h
    exact utf8_append (a := [49]) (utf8_name (by rfl)) (hexEncode_utf8 m)
  | ecdsa m =>
    cases h
    exact utf8_append (a := [50]) (utf8_name (by rfl)) (hexEncode_utf8 m)
  | ed25519 m => cases h
  | unknown m => cases h

theorem baWorking (pk : PublicKey) (h : material pk ≠ []) : WorkingSigner (std hexPem) (baSigner pk) pk where
  «public» := rfl
  readable := baReads pk
  usable := ⟨rfl, rfl⟩
  total := by
    intro sig p hp
    have : (if sig = material pk ∧ sig ≠ [] then Res.ok () else .err (.other "bad signature")) = (.panic : Res Unit) := hp
    split at this <;> cases this
  signs := fun p => ⟨material pk, rfl, if_pos ⟨rfl, h⟩⟩

theorem baIDs : (baKeys.all.map (idFor (std hexPem))).Nodup := by decide +kernel

theorem baEmployed : ∀ s ∈ baKeys.all, Employed (std hexPem) s := by
  intro s hs
  simp only [BasicSigners.all, baKeys, List.mem_cons, List.not_mem_nil, or_false] at hs
  rcases hs with rfl | rfl | rfl | rfl | rfl | rfl | rfl | rfl | rfl <;> exact ⟨_, _, baWorking _ (by decide), rfl⟩

theorem baGood : BasicKeys (std hexPem) baKeys where
  work := baEmployed
  distinct := by
    have h := baIDs
    rw [List.nodup_iff_pairwise_ne, List.pairwise_map] at h
    refine List.Pairwise.imp_of_mem ?_ h
    intro a b ha hb hne id h1 h2
    exact hne ((((baEmployed a ha).signerID _).1 h1).symm.trans (((baEmployed b hb).signerID _).1 h2))

theorem baCalendar : BasicCalendar baTimes :=
  ⟨exCalendar_year (by decide), exCalendar_year (by decide), exCalendar_year (by decide), exCalendar_year (by decide), exCalendar_year (by decide), exCalendar_year (by decide)⟩

theorem baVisit {dir : Entries Bytes} (h : baWritten = .ok dir) {name : Str} (hn : name ∈ [b!"1.root.json", b!"2.root.json", b!"3.root.json"]) {d : Bytes} (hd : dir.get? name = some d) (pre : Bool) :
    BasicVisit hexPem dir [7, 7] (baCtx dir d pre) (fun u _ => baServer dir u) now := by
  have hc := baCheck_ok
  unfold baCheck at hc
  rw [h] at hc
  have hc : baServed dir = true := hc
  unfold baServed at hc
  rw [Bool.and_eq_true, Bool.and_eq_true, Bool.and_eq_true, List.all_eq_true, beq_iff_eq, beq_iff_eq, beq_iff_eq] at hc
  obtain ⟨⟨⟨h0, h2⟩, h3⟩, h4⟩ := hc
  have h1 : ∀ f ∈ dir, exLookup dir b!"u/" (b!"u/" ++ f.1) = some f.2 ∧ f.2.length ≤ 16384 := by
    intro f hf
    have := h0 f hf
    rw [Bool.and_eq_true, beq_iff_eq, decide_eq_true_eq] at this
    exact this
  exact {
    sameEnv := rfl
    root := ⟨name, hn, hd⟩
    online := rfl
    caching := rfl
    url := ⟨by simp [baCtx, cfg], by simp [baCtx]⟩
    dirs := ⟨by simp [baCtx, cfg], by simp [baCtx, cfg]⟩
    disk := ⟨fun _ => rfl, fun _ => rfl, fun _ _ => rfl, fun _ _ => Nat.le_refl _, fun _ _ _ => rfl⟩
    mkdir := fun _ _ => rfl
    network := fun _ _ _ => rfl
    clock := fun _ => rfl
    rotations := by simp [baCtx, cfg]
    delegations := by simp [baCtx, cfg]
    limits := by
      intro f hf
      have := (h1 f hf).2
      simp only [baCtx, cfg]
      omega
    metadata := ⟨b!"u/", .inr ⟨rfl, by simp only [baCtx, cfg]; decide⟩, fun f hf n _ => by simp only [baServer, (h1 f hf).1], 404, b!"u/4.root.json", .inr rfl, by
      show baServer dir b!"u/4.root.json" = _
      simp only [baServer, h2]
      rw [if_neg (by decide +kernel)]⟩
    targets := ⟨b!"v/", .inr ⟨rfl, by simp only [baCtx]; decide⟩, by
      intro name hn n _
      simp only [List.mem_cons, List.not_mem_nil, or_false] at hn
      rcases hn with rfl | rfl
      · show baServer dir b!"v/basic_repository.go" = _
        simp only [baServer, h3]
        rw [if_pos (.inl trivial)]
      · show baServer dir baPrefixed = _
        simp only [baServer, h4]
        rw [if_pos (.inr trivial)]⟩ }

/-- C118: the hypotheses are met, for the first, second and third root, with and without hash prefixes; the client gets the file. -/
example : ∃ dir, baWritten = .ok dir ∧ ∀ name ∈ [b!"1.root.json", b!"2.root.json", b!"3.root.json"], ∀ pre, ∃ d, dir.get? name = some d ∧
    ∃ t0 w1 tf s1 s2, newUpdater (baCtx dir d pre) { fs := disk [] } = (.ok t0, w1) ∧ getTargetInfo (baCtx dir d pre) basicTarget ⟨t0, w1⟩ = (.ok (some tf), s1) ∧
      downloadTarget (baCtx dir d pre) tf b!"out" [] s1 = (.ok (b!"out", [7, 7]), s2) := by
  obtain ⟨dir, hg, hnames⟩ := C118_succeeds (path := b!"/src/basic_repository.go") (data := [7, 7]) baPem baGood baCalendar (by decide)
  refine ⟨dir, hg, fun name hn pre => ?_⟩
  have hmem : name ∈ dir.map Prod.fst := by
    rw [hnames]
    simp only [List.mem_cons, List.not_mem_nil, or_false] at hn
    rcases hn with rfl | rfl | rfl <;> decide
  obtain ⟨d, hd⟩ : ∃ d, dir.get? name = some d := by
    cases hget : dir.get? name with
    | some d => exact ⟨d, rfl⟩
    | none => exact absurd hmem (Entries.get?_eq_none_iff.1 hget)
  refine ⟨d, hd, ?_⟩
  obtain ⟨t0, w1, h1, _, ⟨tf, s1, h2, _, _, h3⟩, _⟩ := C118_clients baPem baGood baCalendar (by decide) hg (baVisit hg hn hd pre)
    (by unfold BasicFresh Expired; decide +kernel) (w := { fs := disk [] }) (fun _ _ => rfl) (fun _ _ => rfl)
  obtain ⟨s2, h4, _⟩ := h3 b!"out" b!"out" (.given (by decide))
  exact ⟨t0, w1, tf, s1, s2, h1, h2, h4⟩

end Tuf
