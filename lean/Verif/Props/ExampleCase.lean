import Verif.Props.Example
import Verif.Props.PublishCase

/-! # A case of C110: a generated repository and its clients -/

namespace Tuf
open Tuf.Spec Tuf.Sample Tuf.Std

namespace Sample

/-- The keys of the roles. -/
def exKeys : RoleSigners := ⟨signer 1, signer 2, signer 3, signer 4⟩
/-- Expiry times: end of the years 2030 to 2033. -/
def exCivil (y : Nat) : Civil := ⟨y, 12, 31, 23, 59, 59, 0, 0⟩
def exExpires (role : Str) : Time := timeOf (exCivil (2029 + role.length % 4))
/-- The target files. -/
def exFiles : List (Str × Bytes) := [(b!"map.json", [7, 7]), (b!"staging/root.json", [8])]
/-- What the program writes. -/
def exWritten : Res Generated := generateMetadata (std env0) exExpires exFiles exKeys
def exLookup (fs : List (Str × Bytes)) (base url : Str) : Option Bytes := (fs.find? (fun f => base ++ f.1 == url)).map Prod.snd
/-- A server of the two folders. -/
def exServer (g : Generated) (url : Str) : Except Err Bytes :=
  match exLookup g.metadata b!"u/" url, exLookup g.targets b!"v/" url with
  | some d, _ => .ok d
  | none, some d => .ok d
  | none, none => .error (.downloadHTTP 404 url)
def exCtx (g : Generated) (pre : Bool) : Ctx :=
  ⟨std env0, hostOf (exServer g), { cfg with localTrustedRoot := g.clientRoot, remoteTargetsURL := b!"v", prefixTargetsWithHash := pre }⟩

/-- Names are different and documents within the default limits. -/
def exServed (g : Generated) : Bool :=
  g.metadata.all (fun f => exLookup g.metadata b!"u/" (b!"u/" ++ f.1) == some f.2 && f.2.length ≤ 16384) &&
    g.targets.all (fun f => exLookup g.metadata b!"u/" (b!"v/" ++ f.1) == none && exLookup g.targets b!"v/" (b!"v/" ++ f.1) == some f.2) &&
    exLookup g.metadata b!"u/" b!"u/2.root.json" == none && exLookup g.targets b!"v/" b!"u/2.root.json" == none

def exCheck : Bool := match exWritten with
  | .ok g => exServed g
  | _ => false

/-- The key ID of a signer. -/
def exID (k : UInt8) : Str := match keyFromPublicKey (std env0) (.ed25519 [k]) >>= fun key => key.ID (std env0) with
  | .ok (id, _) => id
  | _ => []

end Sample

theorem exCheck_ok : exCheck = true := by decide +kernel

theorem exID_of {k : UInt8} {id : Str} (h : SignerID (std env0) (signer k) id) : id = exID k := by
  obtain ⟨pk, key, key', h1, h2, h3⟩ := h
  cases h1
  simp only [exID, h2, h3, Res.bind_ok]

theorem exSigner (k : UInt8) : EdSigner (std env0) (signer k) [k] where
  «public» := rfl
  usable := ⟨rfl, rfl⟩
  total := by
    intro sig p hp
    have : (if sig = material (.ed25519 [k]) ∧ sig ≠ [] then Res.ok () else .err (.other "bad signature")) = (.panic : Res Unit) := hp
    split at this <;> cases this
  signs := fun p => ⟨[k], rfl, if_pos ⟨rfl, by simp⟩⟩

theorem exIDs : [exID 1, exID 2, exID 3, exID 4].Nodup := by decide +kernel

theorem exWorking : WorkingKeys (std env0) exKeys where
  all := by
    intro s hs
    simp only [exKeys, List.mem_cons, List.not_mem_nil, or_false] at hs
    rcases hs with rfl | rfl | rfl | rfl <;> exact ⟨_, exSigner _⟩
  distinct := by
    have h := exIDs
    simp only [List.nodup_cons, List.mem_cons, List.not_mem_nil, or_false, not_or, not_false_eq_true, and_true, List.nodup_nil] at h
    intro s hs s' hs' id h1 h2
    simp only [exKeys, List.mem_cons, List.not_mem_nil, or_false] at hs hs'
    rcases hs with rfl | rfl | rfl | rfl <;> rcases hs' with rfl | rfl | rfl | rfl <;>
      (have e := (exID_of h1).symm.trans (exID_of h2); simp_all)

theorem exCalendar : ∀ role ∈ [ROOT, TIMESTAMP, SNAPSHOT, TARGETS], CalendarTime (exExpires role) := by
  intro role _
  have : role.length % 4 < 4 := Nat.mod_lt _ (by decide)
  refine ⟨_, ⟨?_, ?_, ?_, ?_, ?_, ?_, ?_, ?_⟩, rfl⟩ <;> simp only [exCivil] <;> first | omega | decide | skip
  unfold daysIn
  simp

theorem exGoodFiles : GoodFiles exFiles := ⟨by decide, by
  intro f hf
  simp only [exFiles, List.mem_cons, List.not_mem_nil, or_false] at hf
  rcases hf with rfl | rfl
  · exact utf8_name (by rfl)
  · exact utf8_name (by rfl), by
  intro f hf
  simp only [exFiles, List.mem_cons, List.not_mem_nil, or_false] at hf
  rcases hf with rfl | rfl <;> decide⟩

theorem exVisit {g : Generated} (h : exWritten = .ok g) (pre : Bool) : ExampleVisit env0 g (exCtx g pre) (fun u _ => exServer g u) now := by
  have hc := exCheck_ok
  simp only [exCheck, h, exServed, Bool.and_eq_true, List.all_eq_true, beq_iff_eq, decide_eq_true_eq] at hc
  obtain ⟨⟨⟨h1, h2⟩, h3⟩, h4⟩ := hc
  exact {
    sameEnv := rfl
    root := rfl
    online := rfl
    caching := rfl
    url := ⟨by simp [exCtx, cfg], by simp [exCtx]⟩
    dirs := ⟨by simp [exCtx, cfg], by simp [exCtx, cfg]⟩
    disk := ⟨fun _ => rfl, fun _ => rfl, fun _ _ => rfl, fun _ _ => Nat.le_refl _, fun _ _ _ => rfl⟩
    mkdir := fun _ _ => rfl
    network := fun _ _ _ => rfl
    clock := fun _ => rfl
    rotations := by simp [exCtx, cfg]
    delegations := by simp [exCtx, cfg]
    limits := by
      intro f hf
      have := (h1 f hf).2
      simp only [exCtx, cfg]
      omega
    metadata := ⟨b!"u/", .inr ⟨rfl, by simp only [exCtx, cfg]; decide⟩, fun f hf n _ => by simp only [exServer, (h1 f hf).1], 404, b!"u/2.root.json", .inr rfl, by
      show exServer g b!"u/2.root.json" = _
      simp only [exServer, h3, h4]⟩
    targets := ⟨b!"v/", .inr ⟨rfl, by simp only [exCtx]; decide⟩, fun f hf n _ => by simp only [exServer, (h2 f hf).1, (h2 f hf).2]⟩ }

/-- C110: the hypotheses are met by two files, one of them in a folder, with and without hash prefixes; the client gets the second file. -/
example : ∃ g, exWritten = .ok g ∧ ∀ pre, ∃ t0 w1 s' tf s'', newUpdater (exCtx g pre) { fs := disk [] } = (.ok t0, w1) ∧ refresh (exCtx g pre) ⟨t0, w1⟩ = (.ok (), s') ∧
    getTargetInfo (exCtx g pre) b!"staging/root.json" s' = (.ok (some tf), s') ∧ downloadTarget (exCtx g pre) tf b!"out" [] s' = (.ok (b!"out", [8]), s'') := by
  obtain ⟨g, hg⟩ := C110_generates exWorking exCalendar exGoodFiles
  refine ⟨g, hg, fun pre => ?_⟩
  obtain ⟨t0, w1, s', h1, h2, h3, _⟩ := C110_clients_partial exWorking exCalendar exGoodFiles hg (exVisit hg pre) (w := { fs := disk [] }) (by
      intro role hr
      simp only [List.mem_cons, List.not_mem_nil, or_false] at hr
      rcases hr with rfl | rfl | rfl | rfl <;> (unfold Expired; decide +kernel))
    (fun _ _ => rfl) (by
      intro name file _ d hd
      cases hd)
  obtain ⟨tf, h4, h5, h6, h7⟩ := h3 (b!"staging/root.json", [8]) (by simp [exFiles])
  obtain ⟨s'', h8, _⟩ := h7 (fun _ => by decide) b!"out" b!"out" (.given (by decide))
  exact ⟨t0, w1, s', tf, s'', h1, h2, h4, h8⟩

namespace Sample

/-- A file two folders deep. -/
def exDeep : List (Str × Bytes) := [(b!"a/b/c", [7])]
/-- The result of a client with hash prefixes that looks up the file after a refresh, and the last URL that it requested. -/
def exDeepResult : Option (Bool × Option Str) := match generateMetadata (std env0) exExpires exDeep exKeys with
  | .ok g => match session (exCtx g true) [] (refresh (exCtx g true) >>= fun _ => lookup (exCtx g true) b!"a/b/c") with
    | (.ok _, s) => some (true, (urls s).getLast?)
    | (_, s) => some (false, (urls s).getLast?)
  | _ => none
/-- The hash in hexadecimal. -/
def exDeepHash : Str := hexEncode (env0.sha256 [7])
/-- The files that the program writes for it. -/
def exDeepFolder : List Str := match generateMetadata (std env0) exExpires exDeep exKeys with
  | .ok g => g.targets.map Prod.fst
  | _ => []

end Sample

/-- The negation of C110 for deeper paths: the program writes `a/b/<hash>.c`, the client asks for `a/<hash>.b/c` and fails. -/
theorem C110_false : exDeepFolder = [b!"a/b/c", b!"a/b/" ++ exDeepHash ++ b!".c"] ∧ exDeepResult = some (false, some (b!"v/a/" ++ exDeepHash ++ b!".b/c")) := by
  decide +kernel

end Tuf
