import Verif.Model.Files
import Verif.Props.PublishCase
import Verif.Props.Cli
import Verif.Props.Small
import Verif.Props.Std.Text
import Verif.Props.Temps

/-!
# Metadata and target files on disk (C128)
-/

namespace Tuf
open Spec Sample Std

variable {T : Type} [RoleType T] {env : Env} {h : Host}

theorem withWorld_eq {α : Type} {m : W α} {s s' : FileSt T} {r : Res α} : withWorld m s = (r, s') ↔ m s.world = (r, s'.world) ∧ s'.held = s.held := by
  unfold withWorld
  cases hm : m s.world with
  | mk r' w =>
    simp only [Prod.mk.injEq]
    constructor
    · rintro ⟨rfl, rfl⟩; exact ⟨⟨rfl, rfl⟩, rfl⟩
    · rintro ⟨⟨rfl, rfl⟩, h⟩
      exact ⟨rfl, by cases s'; simp only at h; subst h; rfl⟩

/-- C128: `FromFile` gives what `FromBytes` gives for the contents of the file; the receiver is then that value. -/
theorem C128_load {name : Str} {s s' : FileSt T} {m : Metadata T} (hr : fromFile env h name s = (.ok m, s')) :
    ∃ data, s.world.fs name = some data ∧ fromBytes env data = .ok m ∧ s'.held = m ∧ s'.world.fs = s.world.fs := by
  obtain ⟨data, s1, h1, hr⟩ := SM.bind_eq_ok.1 hr
  obtain ⟨m1, s2, h2, hr⟩ := SM.bind_eq_ok.1 hr
  obtain ⟨_, s3, h3, hr⟩ := SM.bind_eq_ok.1 hr
  cases hr
  cases h3
  obtain ⟨hb, hs⟩ := lift_ok h2
  subst hs
  obtain ⟨h4, _⟩ := withWorld_eq.1 h1
  obtain ⟨h5, _, h6⟩ := readFile_ok h4
  refine ⟨data, h5, hb, rfl, ?_⟩
  show World.fs (FileSt.world _) = _
  rw [h6]
  rfl

/-- C128: it succeeds whenever the file can be read and `FromBytes` accepts the contents. -/
theorem C128_loads {name : Str} {s : FileSt T} {data : Bytes} {m : Metadata T} (hf : s.world.fs name = some data) (hr : h.readFails s.world.trace name = false)
    (hm : fromBytes env data = .ok m) : (fromFile env h name s).1 = .ok m := by
  have hrd : withWorld (readFile h name) s = (.ok data, { s with world := s.world.emit (.read name (some data)) }) := by
    unfold withWorld readFile
    simp only [hr, hf]
    rfl
  show (SM.bind (withWorld (readFile h name)) _ s).1 = _
  unfold SM.bind
  rw [hrd]
  show (SM.bind (SM.lift (fromBytes env data)) _ _).1 = _
  rw [hm]
  rfl

/-- C128: otherwise the receiver is as before; no file is changed in any case. -/
theorem C128_not_loaded (name : Str) (s : FileSt T) : (fromFile env h name s).2.world.fs = s.world.fs ∧ ((fromFile env h name s).1.isOk = false → (fromFile env h name s).2.held = s.held) := by
  have hrd : ∃ r o, withWorld (readFile h name) s = (r, { s with world := s.world.emit (.read name o) }) := by
    unfold withWorld readFile
    simp only []
    generalize (if h.readFails s.world.trace name = true then none else s.world.fs name) = o
    cases o <;> exact ⟨_, _, rfl⟩
  obtain ⟨r, o, hrd⟩ := hrd
  have he : fromFile env h name s = SM.bind (withWorld (readFile h name)) _ s := rfl
  rw [he]
  unfold SM.bind
  rw [hrd]
  cases r with
  | err e => exact ⟨rfl, fun _ => rfl⟩
  | panic => exact ⟨rfl, fun _ => rfl⟩
  | ok data =>
    show (SM.bind (σ := FileSt T) (SM.lift (fromBytes (T := T) env data)) (fun m => SM.bind (fun s => (.ok (), { s with held := m })) (fun _ => SM.pure m)) { s with world := s.world.emit (.read name o) }).2.world.fs = _ ∧ ((SM.bind (σ := FileSt T) (SM.lift (fromBytes (T := T) env data)) (fun m => SM.bind (fun s => (.ok (), { s with held := m })) (fun _ => SM.pure m)) { s with world := s.world.emit (.read name o) }).1.isOk = false → (SM.bind (σ := FileSt T) (SM.lift (fromBytes (T := T) env data)) (fun m => SM.bind (fun s => (.ok (), { s with held := m })) (fun _ => SM.pure m)) { s with world := s.world.emit (.read name o) }).2.held = _)
    unfold SM.bind SM.lift
    cases fromBytes (T := T) env data with
    | err e => exact ⟨rfl, fun _ => rfl⟩
    | panic => exact ⟨rfl, fun _ => rfl⟩
    | ok m => exact ⟨rfl, fun h => (by cases h)⟩

/-- C128: after `ToFile` has succeeded the file holds what `ToBytes` gives; the receiver and all other files are as before. -/
theorem C128_save {name : Str} {pretty : Bool} {s s' : FileSt T} (hr : toFile env h name pretty s = (.ok (), s')) :
    ∃ data, toBytes env s.held pretty = .ok data ∧ s'.world.fs name = some data ∧ s'.held = s.held ∧ ∀ q, q ≠ name → s'.world.fs q = s.world.fs q := by
  unfold toFile at hr
  cases hb : toBytes env s.held pretty with
  | err e => rw [hb] at hr; cases hr
  | panic => rw [hb] at hr; cases hr
  | ok data =>
    rw [hb] at hr
    obtain ⟨h1, h2⟩ := withWorld_eq.1 hr
    refine ⟨data, rfl, writeFile_ok h1, h2, fun q hq => ?_⟩
    have := writeFile_others (h := h) (data := data) (w := s.world) hq
    rw [h1] at this
    exact this

/-- C128: metadata that cannot be written leaves everything as it is. -/
theorem C128_not_saved {name : Str} {pretty : Bool} {s : FileSt T} (hb : ∀ data, toBytes env s.held pretty ≠ .ok data) :
    (toFile env h name pretty s).2 = s ∧ (toFile env h name pretty s).1.isOk = false := by
  unfold toFile
  cases hb' : toBytes env s.held pretty with
  | ok data => exact absurd hb' (hb data)
  | err e => exact ⟨rfl, rfl⟩
  | panic => exact ⟨rfl, rfl⟩

/-- C128: what was saved is loaded again, whatever happened to other files in between; for all four types, see `C85_root` to `C85_targets` for `hback`. -/
theorem C128_round_trip {name : Str} {pretty : Bool} {s s1 s2 : FileSt T} {m : Metadata T} (hsave : toFile env h name pretty s = (.ok (), s1))
    (hback : ∃ data, toBytes env s.held pretty = .ok data ∧ fromBytes env data = .ok m) (hsame : s2.world.fs name = s1.world.fs name)
    (hr : h.readFails s2.world.trace name = false) : (fromFile env h name s2).1 = .ok m := by
  obtain ⟨data, h1, h2, _, _⟩ := C128_save hsave
  obtain ⟨data', h3, h4⟩ := hback
  rw [h1] at h3
  cases h3
  exact C128_loads (hsame.trans h2) hr h4

/-- C128 for root metadata built or read with the library: it is loaded as it was saved; only the cached key IDs are gone. -/
theorem C128_root (laws : EnvLaws env) {s s1 s2 : FileSt RootType} {name : Str} {pretty : Bool} (hg : GoodDocument env (GoodRoot env) s.held)
    (hprint : ∀ j, s.held.marshal = .ok j → env.parse (env.print pretty j) = some j) (hsave : toFile env h name pretty s = (.ok (), s1))
    (hsame : s2.world.fs name = s1.world.fs name) (hr : h.readFails s2.world.trace name = false) :
    (fromFile env h name s2).1 = .ok { s.held with signed := readRoot s.held.signed } :=
  C128_round_trip hsave (C85_root laws hg hprint) hsame hr

/-- C128 for snapshot metadata. -/
theorem C128_snapshot (laws : EnvLaws env) {s s1 s2 : FileSt SnapshotType} {name : Str} {pretty : Bool} (hg : GoodDocument env (GoodSnapshot env) s.held)
    (hprint : ∀ j, s.held.marshal = .ok j → env.parse (env.print pretty j) = some j) (hsave : toFile env h name pretty s = (.ok (), s1))
    (hsame : s2.world.fs name = s1.world.fs name) (hr : h.readFails s2.world.trace name = false) :
    (fromFile env h name s2).1 = .ok { s.held with signed := viewSnapshot s.held.signed } :=
  C128_round_trip hsave (C85_snapshot laws hg hprint) hsame hr

/-- C128 for timestamp metadata. -/
theorem C128_timestamp (laws : EnvLaws env) {s s1 s2 : FileSt TimestampType} {name : Str} {pretty : Bool} (hg : GoodDocument env (GoodTimestamp env) s.held)
    (hprint : ∀ j, s.held.marshal = .ok j → env.parse (env.print pretty j) = some j) (hsave : toFile env h name pretty s = (.ok (), s1))
    (hsame : s2.world.fs name = s1.world.fs name) (hr : h.readFails s2.world.trace name = false) :
    (fromFile env h name s2).1 = .ok { s.held with signed := viewTimestamp s.held.signed } :=
  C128_round_trip hsave (C85_timestamp laws hg hprint) hsame hr

/-- C128 for targets metadata. -/
theorem C128_targets (laws : EnvLaws env) {s s1 s2 : FileSt TargetsType} {name : Str} {pretty : Bool} (hg : GoodDocument env (GoodTargets env) s.held)
    (hprint : ∀ j, s.held.marshal = .ok j → env.parse (env.print pretty j) = some j) (hsave : toFile env h name pretty s = (.ok (), s1))
    (hsame : s2.world.fs name = s1.world.fs name) (hr : h.readFails s2.world.trace name = false) :
    (fromFile env h name s2).1 = .ok { s.held with signed := readTargets s.held.signed } :=
  C128_round_trip hsave (C85_targets laws hg hprint) hsame hr

/-- C128: `ToFile` succeeds whenever the metadata can be written as bytes and the disk takes them. -/
theorem C128_saves {name : Str} {pretty : Bool} {s : FileSt T} {data : Bytes} (hb : toBytes env s.held pretty = .ok data)
    (ho : h.openFails s.world.trace name = false) (hw : ∀ tr, data.length ≤ h.writeCount tr data.length) : (toFile env h name pretty s).1 = .ok () := by
  unfold toFile withWorld writeFile
  rw [hb]
  simp only [ho]
  rw [if_neg (by simp), if_neg (by have := hw (s.world.emit (.truncate name)).trace; omega)]

/-- C128, what holds for a saving that fails: the receiver and all other files are as before; the file is as before or holds the first part of the new
contents. Missing: that the old contents survive, see `C128_false`. -/
theorem C128_failed_partial (name : Str) (pretty : Bool) (s : FileSt T) :
    (toFile env h name pretty s).2.held = s.held ∧ (∀ q, q ≠ name → (toFile env h name pretty s).2.world.fs q = s.world.fs q) ∧
    ((toFile env h name pretty s).2.world.fs name = s.world.fs name ∨
      ∃ data k, toBytes env s.held pretty = .ok data ∧ (toFile env h name pretty s).2.world.fs name = some (data.take k)) := by
  unfold toFile
  cases hb : toBytes env s.held pretty with
  | err e => exact ⟨rfl, fun _ _ => rfl, .inl rfl⟩
  | panic => exact ⟨rfl, fun _ _ => rfl, .inl rfl⟩
  | ok data =>
    refine ⟨rfl, fun q hq => writeFile_others (h := h) (data := data) (w := s.world) hq, ?_⟩
    show (writeFile h name data s.world).2.fs name = _ ∨ _
    unfold writeFile
    split
    · exact .inl rfl
    · refine .inr ⟨data, h.writeCount (s.world.emit (.truncate name)).trace data.length, rfl, ?_⟩
      show (withWorld (writeFile h name data) s).2.world.fs name = _
      unfold withWorld writeFile
      rw [if_neg (by assumption)]
      dsimp only
      split <;> simp [World.emit, applyEvent, FS.put]

/-- C128: `TargetFiles.FromFile` describes the contents of the file: its info accepts exactly data of the same length and digests. -/
theorem C128_target {path : Str} {algs : List Str} {w w' : World} {f : TargetFiles} (hr : targetFromFile env h path algs w = (.ok f, w')) :
    ∃ data, w.fs path = some data ∧ w'.fs = w.fs ∧ f.path = path ∧ f.length = (data.length : Int) ∧
      ∀ d, f.verifyLengthHashes env d = .ok () ↔ d.length = data.length ∧ ∀ a ∈ (if algs = [] then [b!"sha256"] else algs), ∀ v, Digest env data a v → Digest env d a v := by
  obtain ⟨data, w1, h1, hr⟩ := SM.bind_eq_ok.1 hr
  obtain ⟨hb, hs⟩ := lift_ok hr
  subst hs
  obtain ⟨h2, _, rfl⟩ := readFile_ok h1
  obtain ⟨h3, h4, _, h5⟩ := C60_verifies env path data algs f hb
  exact ⟨data, h2, rfl, h3, h4, h5⟩

/-- C128: it succeeds whenever the file can be read and all algorithms are supported. -/
theorem C128_target_succeeds {path : Str} {algs : List Str} {w : World} {data : Bytes} {f : TargetFiles} (hf : w.fs path = some data) (hr : h.readFails w.trace path = false)
    (hb : targetFileFromBytes env path data algs = .ok f) : (targetFromFile env h path algs w).1 = .ok f := by
  have hrd : readFile h path w = (.ok data, w.emit (.read path (some data))) := by
    unfold readFile
    simp only [hr, hf]
    rfl
  show (SM.bind (readFile h path) _ w).1 = _
  unfold SM.bind
  rw [hrd]
  show (targetFileFromBytes env path data algs) = _
  exact hb

namespace Sample
/-- A disk that takes one byte of each write. -/
def fullHost : Host := { host with writeCount := fun _ _ => 1 }

/-- Published targets in `t`, about to be saved again. -/
def savedBefore : FileSt TargetsType := { held := pubSigned pubTargets, world := { fs := disk [(b!"t", [5, 6]), (b!"o", [9])] } }
end Sample

/-- C128 is false without `_partial`: there is a disk on which saving fails and the file holds neither its old nor the new contents: `ToFile` writes in place. -/
theorem C128_false : ∃ (env : Env) (h : Host) (s : FileSt TargetsType) (data : Bytes), s.world.fs b!"t" = some [5, 6] ∧ toBytes env s.held false = .ok data ∧
    (toFile env h b!"t" false s).1.isOk = false ∧ (toFile env h b!"t" false s).2.world.fs b!"t" ≠ some [5, 6] ∧
    (toFile env h b!"t" false s).2.world.fs b!"t" ≠ some data :=
  ⟨std env0, fullHost, savedBefore, _, rfl, rfl, by decide +kernel, by decide +kernel, by decide +kernel⟩

/-- A case of `C128_targets`. -/
example : ∃ s1, toFile pubEnv host b!"t" false savedBefore = (.ok (), s1) ∧ s1.world.fs b!"o" = some [9] ∧
    (fromFile pubEnv host b!"t" { s1 with held := { signed := pubTargets } }).1 = .ok { pubSigned pubTargets with signed := readTargets pubTargets } := by
  have hg : GoodDocument pubEnv (GoodTargets pubEnv) savedBefore.held :=
    ⟨goodPubTargets, by simp only [savedBefore, pubSigned]; intro s hs; have : s = { keyID := idOf 1, sig := [1] } := List.mem_singleton.1 hs
                        subst this; exact goodFields_nil _, List.pairwise_singleton _ _, goodFields_nil _⟩
  obtain ⟨data, hb, _⟩ := C85_targets pubEnv_laws (pretty := false) hg (by intro j hj; cases hj; rfl)
  have h1 : (toFile pubEnv host b!"t" false savedBefore).1 = .ok () := C128_saves hb rfl (fun _ => Nat.le_refl _)
  have h2 : toFile pubEnv host b!"t" false savedBefore = (.ok (), (toFile pubEnv host b!"t" false savedBefore).2) := by rw [← h1]
  refine ⟨_, h2, ?_, C128_targets pubEnv_laws hg (by intro j hj; cases hj; rfl) h2 rfl rfl⟩
  rw [(C128_failed_partial _ _ _).2.1 _ (by decide)]
  rfl

/-- A case of `C128_target`. -/
example : (targetFromFile (std env0) host b!"o" [] { fs := disk [(b!"o", [9])] }).1.isOk = true := by decide +kernel

end Tuf
