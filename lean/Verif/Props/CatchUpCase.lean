import Verif.Props.CatchUp
import Verif.Props.CliCase

/-!
# A client that is 39 root rotations behind

Hypotheses of C136 are met, and the case in which the library does not catch up.
-/

namespace Tuf
open Spec Sample

namespace Sample

/-- The repository whose roots before the 40th have expired. -/
def upEnv : Env :=
  { repoEnv with
    parse := fun b => match b with
      | [1, v] => some (rootDoc v.toNat (if v < 40 then b!"x" else b!"2030"))
      | _ => repoEnv.parse b }

def upOr {α : Type} (d : α) : Res α → α
  | .ok a => a
  | _ => d

def upGot {α : Type} : Res α → Bool
  | .ok _ => true
  | _ => false

def upNone : Metadata RootType := { signed := { type := ROOT, version := 0, expires := now, consistentSnapshot := true, keys := none, roles := none } }

def upValue (v : UInt8) : Metadata RootType := upOr upNone (fromBytes upEnv [1, v])

def upLine : List RootFile := (List.range 40).map fun i => ⟨[1, UInt8.ofNat (i + 1)], upValue (UInt8.ofNat (i + 1))⟩

/-- The server with all 40 roots. -/
def upServer (url : Str) : Except Err Bytes :=
  match (List.range 40).find? fun i => b!"u/" ++ formatInt 10 (i + 1 : Nat) ++ b!".root.json" == url with
  | some i => .ok [1, UInt8.ofNat (i + 1)]
  | none => server url

def upCtx : Ctx := ⟨upEnv, hostOf upServer, cfg⟩

/-- `New` with the root and `Refresh`: the outcome of the refresh and the version of the root. -/
def upVisit (root : Bytes) (w : World) : Option (Res Unit × Int) × World :=
  match newUpdater { upCtx with cfg := { cfg with localTrustedRoot := root } } w with
  | (.ok t, w1) => match refresh { upCtx with cfg := { cfg with localTrustedRoot := root } } ⟨t, w1⟩ with
    | (r, s) => (some (r, s.trusted.root.signed.version), s.world)
  | (_, w1) => (none, w1)

end Sample

theorem upLine_get {i : Nat} {f : RootFile} (h : upLine[i]? = some f) : i < 40 ∧ f = ⟨[1, UInt8.ofNat (i + 1)], upValue (UInt8.ofNat (i + 1))⟩ := by
  obtain ⟨h1, h2⟩ := List.getElem?_eq_some_iff.1 h
  have hlt : i < 40 := by simpa [upLine] using h1
  refine ⟨hlt, ?_⟩
  rw [← h2]
  simp [upLine]

def upOk (i : Nat) : Bool :=
  upGot (fromBytes (T := RootType) upEnv [1, UInt8.ofNat (i + 1)]) && (upValue (UInt8.ofNat (i + 1))).signed.type == b!"root" &&
    decide (verifyDelegate upEnv (.root (upValue (UInt8.ofNat (i + 1)))) b!"root" (.root (upValue (UInt8.ofNat (i + 1)))) = .ok ()) &&
    decide ((upValue (UInt8.ofNat (i + 1))).signed.version = (i + 1 : Nat)) &&
    !upGot (fromBytes (T := TargetsType) upEnv [1, UInt8.ofNat (i + 1)])

def upNext (i : Nat) : Bool := decide (verifyDelegate upEnv (.root (upValue (UInt8.ofNat (i + 1)))) b!"root" (.root (upValue (UInt8.ofNat (i + 2)))) = .ok ())

theorem upAllOk : (List.range 40).all upOk = true := by decide +kernel
theorem upAllNext : (List.range 39).all upNext = true := by decide +kernel

theorem upAll : (∀ i < 40, upOk i = true) ∧ ∀ i < 39, upNext i = true :=
  ⟨fun i hi => List.all_eq_true.1 upAllOk i (List.mem_range.2 hi), fun i hi => List.all_eq_true.1 upAllNext i (List.mem_range.2 hi)⟩

theorem upGot_or {α : Type} {d : α} {r : Res α} (h : upGot r = true) : r = .ok (upOr d r) := by
  cases r with
  | ok m => rfl
  | err e => cases h
  | panic => cases h

theorem upGot_not {α : Type} {r : Res α} (h : upGot r = false) (a : α) : r ≠ .ok a := by
  intro hr
  rw [hr] at h
  cases h

theorem up_ok {i : Nat} (h : i < 40) : ParsesTo upEnv [1, UInt8.ofNat (i + 1)] (upValue (UInt8.ofNat (i + 1))) ∧ (upValue (UInt8.ofNat (i + 1))).signed.type = b!"root" ∧
    Verifies upEnv (.root (upValue (UInt8.ofNat (i + 1)))) b!"root" (.root (upValue (UInt8.ofNat (i + 1)))) ∧ (upValue (UInt8.ofNat (i + 1))).signed.version = (i + 1 : Nat) ∧
    ∀ m : Metadata TargetsType, ¬ ParsesTo upEnv [1, UInt8.ofNat (i + 1)] m := by
  have h1 := upAll.1 i h
  unfold upOk at h1
  simp only [Bool.and_eq_true, decide_eq_true_eq, beq_iff_eq, Bool.not_eq_true'] at h1
  obtain ⟨⟨⟨⟨a1, a2⟩, a3⟩, a4⟩, a5⟩ := h1
  exact ⟨upGot_or a1, a2, C02_exact_rule.1 a3, a4, upGot_not a5⟩

attribute [irreducible] upValue

theorem upRootLine : RootLine upEnv upLine where
  first := by
    intro f hf
    obtain ⟨h1, rfl⟩ := upLine_get hf
    have := up_ok h1
    exact ⟨this.1, this.2.1, this.2.2.1⟩
  parsed := by
    intro i f g _ hg
    obtain ⟨h1, rfl⟩ := upLine_get hg
    exact ⟨(up_ok h1).1, (up_ok h1).2.1⟩
  signed := by
    intro i f g hf hg
    obtain ⟨_, rfl⟩ := upLine_get hf
    obtain ⟨h1, rfl⟩ := upLine_get hg
    have h2 := upAll.2 i (by omega)
    unfold upNext at h2
    have := up_ok h1
    exact ⟨C02_exact_rule.1 (of_decide_eq_true h2), this.2.2.1⟩
  numbered := by
    intro i f g hf hg
    obtain ⟨h0, rfl⟩ := upLine_get hf
    obtain ⟨h1, rfl⟩ := upLine_get hg
    rw [(up_ok h0).2.2.2.1, (up_ok h1).2.2.2.1]
    omega
  nonempty := by
    intro i f hf
    obtain ⟨_, rfl⟩ := upLine_get hf
    simp
  range := by
    intro i f hf
    obtain ⟨h0, rfl⟩ := upLine_get hf
    rw [(up_ok h0).2.2.2.1]
    omega

theorem upBase {url : Str} (h : SlashBase b!"u" url) : url = b!"u/" := by
  rcases h with ⟨_, h⟩ | ⟨h, _⟩
  · exact absurd h (by decide)
  · exact h

theorem upBase' : SlashBase b!"u" b!"u/" := .inr ⟨by decide +kernel, by decide +kernel⟩

def upIs (url : Str) (r : Res Bytes) : Bool :=
  match upServer url with
  | .ok d => decide (r = .ok d)
  | .error e => decide (r = .err e)

theorem upIs_ok {url : Str} {d : Bytes} (h : upIs url (.ok d) = true) : upServer url = .ok d := by
  unfold upIs at h
  split at h
  · next e => rw [e]; cases of_decide_eq_true h; rfl
  · cases of_decide_eq_true h

theorem upIs_err {url : Str} {e : Err} (h : upIs url (.err e) = true) : upServer url = .error e := by
  unfold upIs at h
  split at h
  · cases of_decide_eq_true h
  · next e => rw [e]; cases of_decide_eq_true h; rfl

theorem upAllServed : ((List.range 40).all fun i => upIs (b!"u/" ++ formatInt 10 (i + 1 : Nat) ++ b!".root.json") (.ok [1, UInt8.ofNat (i + 1)])) = true := by decide +kernel

theorem upServed (i : Nat) (hi : i < 40) : upServer (b!"u/" ++ formatInt 10 (i + 1 : Nat) ++ b!".root.json") = .ok [1, UInt8.ofNat (i + 1)] :=
  upIs_ok (List.all_eq_true.1 upAllServed i (List.mem_range.2 hi))

theorem upHas (limit : Int) : HasRoots b!"u" limit (fun u _ => upServer u) upLine where
  file := by
    intro i f hf
    obtain ⟨h0, rfl⟩ := upLine_get hf
    refine ⟨_, ⟨_, upBase', rfl⟩, ?_⟩
    rw [(up_ok h0).2.2.2.1]
    have e : queryEscape b!"root" = b!"root" := by decide +kernel
    have := upServed i h0
    rw [e]
    simpa using this
  newest := by
    intro f hf
    obtain ⟨h0, rfl⟩ := upLine_get hf
    refine ⟨b!"u/41.root.json", b!"u/41.root.json", 404, ⟨_, upBase', ?_⟩, upIs_err (by decide +kernel), .inr rfl⟩
    rw [(up_ok h0).2.2.2.1]
    decide +kernel

theorem upNoTargets : NoRootTargets upEnv b!"u" (fun u _ => upServer u) := by
  intro url limit data hurl hd m hm
  have hd : upServer url = .ok data := hd
  have hend : b!"root.json" <:+ url := by
    have e : queryEscape b!"root" = b!"root" := by decide +kernel
    rcases hurl with ⟨b, _, rfl⟩ | ⟨v, b, _, rfl⟩
    · exact ⟨b, by rw [e]; simp⟩
    · exact ⟨b ++ formatInt 10 v ++ b!".", by rw [e]; simp⟩
  unfold upServer at hd
  split at hd
  · next i hi =>
    cases hd
    have := List.mem_range.1 (List.mem_of_find?_eq_some hi)
    exact (up_ok this).2.2.2.2 m hm
  · unfold server at hd
    repeat' split at hd
    all_goals first
      | (next h => rw [h] at hend; exact absurd hend (by decide +kernel))
      | cases hd

theorem upTemps {d : Bytes} : NoTemps (disk [(b!"w/tuf_metadata/root.json", d)]) := by
  intro p hp
  have e : persistPath { cfg with localMetadataDir := b!"w/tuf_metadata" } ROOT = b!"w/tuf_metadata/root.json" := by decide +kernel
  by_cases h : b!"w/tuf_metadata/root.json" = p
  · rw [← h, ← e] at hp
    exact absurd hp (persistPath_not_temp _ _)
  · simp [disk, h]

/-- A case of `C136_session` and of `C136_no_further`: 40 roots, and the default limit of 32 rotations. The session, whatever the cache has, ends with root 33. -/
example (w : World) (hw : NoTemps w.fs) : ∃ t0 w1, newUpdater upCtx w = (.ok t0, w1) ∧ (refresh upCtx ⟨t0, w1⟩).2.trusted.root.signed.version = 33 ∧
    (refresh upCtx ⟨t0, w1⟩).2.trusted.root.signed.version < 40 := by
  have h0 : upLine[0]? = some ⟨[1, 1], upValue 1⟩ := by simp [upLine]
  have h39 : upLine[upLine.length - 1]? = some ⟨[1, 40], upValue 40⟩ := by simp [upLine]
  obtain ⟨t0, w1, k1, k2, k3⟩ := C136_no_further (x := upCtx) upRootLine (fun _ _ _ => rfl) (upHas _) ⟨fun _ => rfl, fun _ => rfl, fun _ _ => rfl, fun _ _ => Nat.le_refl _, fun _ _ _ => rfl⟩
    (fun _ _ => rfl) rfl rfl (by decide) (by decide) (by decide) h0 h39 (by simp [upLine]; decide) rfl w hw
  exact ⟨t0, w1, k1, by rw [k2]; decide +kernel, by rw [show (40 : Int) = (upValue 40).signed.version by decide +kernel]; exact k3⟩

/-- **C136** is false for programs that use the library with the root they were shipped with: 39 rotations later the program ends every run with an expired root, also in the second run, when
the root of the first run is in the cache. From that root on the repository could be followed. -/
theorem C136_false : (upVisit [1, 1] { fs := disk [] }).1 = some (.err (.expiredMetadata "final root.json is expired"), 33) ∧
    (upVisit [1, 1] { fs := disk [] }).2.fs b!"m/root.json" = some [1, 33] ∧
    (upVisit [1, 1] (upVisit [1, 1] { fs := disk [] }).2).1 = some (.err (.expiredMetadata "final root.json is expired"), 33) ∧
    (upVisit [1, 33] (upVisit [1, 1] { fs := disk [] }).2).1 = some (.ok (), 40) := by decide +kernel

namespace Sample

/-- A client that was initialized with the root. -/
def upCli (d : Bytes) : CliSt := { world := { fs := disk [(b!"w/tuf_metadata/root.json", d)] }, folder := fun p => p = b!"w/tuf_metadata" || p = b!"w/tuf_download" }

end Sample

theorem upGood (s : CliSt) (h1 : s.folder = (upCli []).folder) (h2 : NoTemps s.world.fs) : GetGood upEnv b!"w" upLine (cliHost upServer) cliArgs s where
  getwd := rfl
  metadata := by rw [h1]; decide +kernel
  download := by rw [h1]; decide +kernel
  stat := fun _ _ => rfl
  read := fun _ _ => rfl
  mkdir := fun _ _ => rfl
  disk := ⟨fun _ => rfl, fun _ => rfl, fun _ _ => rfl, fun _ _ => Nat.le_refl _, fun _ _ _ => rfl⟩
  temps := h2
  url := ⟨by decide, rfl⟩
  server := ⟨fun u _ => upServer u, fun _ _ _ => rfl, upHas _, upNoTargets⟩

theorem upAnchor : anchorFile b!"w" = b!"w/tuf_metadata/root.json" := by decide +kernel

theorem upAnchor_at (d : Bytes) : (upCli d).world.fs (anchorFile b!"w") = some d := by
  rw [upAnchor]
  rfl

theorem upApart (path : Str) : upEnv.urlJoin (joinPath b!"w" b!"tuf_download") (queryEscape path) ≠ some (anchorFile b!"w") := by
  have e1 : joinPath b!"w" b!"tuf_download" = b!"w/tuf_download" := by decide +kernel
  rw [e1, upAnchor]
  simp [upEnv, repoEnv, env0, envOf]

/-- A case of `C136_gets`: one command, for a target that does not exist, takes the anchor from the first root to the 33rd. -/
theorem upOnce : Gets upEnv b!"w" upLine (upCli [1, 1]).world.fs 1 (upCli [1, 33]).world.fs := by
  have h1 : Gets upEnv b!"w" upLine (upCli [1, 1]).world.fs 1 (getCmd upEnv (cliHost upServer) cliArgs b!"none" (upCli [1, 1])).2.world.fs := .get .start rfl (upGood _ rfl upTemps)
  obtain ⟨g, k1, k2⟩ := C136_gets upRootLine h1 upApart (i := 0) (f := ⟨[1, 1], upValue 1⟩) (by simp [upLine]) (upAnchor_at _)
  refine .other h1 ?_
  rw [k2, upAnchor_at]
  obtain ⟨_, rfl⟩ := upLine_get k1
  simp [upLine]

/-- A case of `C136_caught_up`: with the second command the anchor is the newest root, and the command ends well. -/
example : (getCmd upEnv (cliHost upServer) cliArgs b!"f" (upCli [1, 33])).2.world.fs (anchorFile b!"w") = some [1, 40] :=
  C136_caught_up upRootLine (.get upOnce rfl (upGood _ rfl upTemps)) upApart (f := ⟨[1, 1], upValue 1⟩) (newest := ⟨[1, 40], upValue 40⟩) (by simp [upLine]) (upAnchor_at _) (by simp [upLine])
    (by simp [upLine])

/-- The outcomes of the two commands. -/
example : (getCmd upEnv (cliHost upServer) cliArgs b!"f" (upCli [1, 1])).1 = .err (.expiredMetadata "final root.json is expired") ∧
    (getCmd upEnv (cliHost upServer) cliArgs b!"f" (upCli [1, 33])).1 = .ok (.downloaded b!"w/tuf_download/f") := by decide +kernel

end Tuf
