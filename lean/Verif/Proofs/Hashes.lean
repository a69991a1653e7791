import Verif.Spec.Hashes
import Verif.Model.Metadata
import Verif.Proofs.Hex

/-! Length and hash checks. -/

namespace Tuf
open Spec

theorem digest_iff {env : Env} {data : Bytes} {alg : Str} {d : Bytes} : Digest env data alg d ↔ digestOf env alg data = some d := by
  unfold digestOf
  constructor
  · intro h
    cases h with
    | sha256 => rfl
    | sha512 => rfl
  · intro h
    split at h
    · next ha => cases h; rw [ha]; exact .sha256
    · split at h
      · next ha => cases h; rw [ha]; exact .sha512
      · cases h

theorem verifyHashes_ok {env : Env} {data : Bytes} {es : Entries Bytes} :
    verifyHashes env data es = .ok () ↔ ∀ alg v, (alg, v) ∈ es → Digest env data alg v := by
  induction es with
  | nil => simp [verifyHashes]
  | cons e r ih =>
    obtain ⟨k, v⟩ := e
    simp only [verifyHashes]
    constructor
    · intro h alg w hm
      split at h
      · cases h
      · next d hd =>
        split at h
        · cases h
        · next hne =>
          have hv : v = d := hexEncode_injective (Classical.byContradiction hne)
          rcases List.mem_cons.1 hm with hm | hm
          · cases hm; exact digest_iff.2 (hv ▸ hd)
          · exact ih.1 h alg w hm
    · intro h
      have hd := digest_iff.1 (h k v (by simp))
      rw [hd]
      simp only [ne_eq, not_true, if_false]
      exact ih.2 (fun alg w hm => h alg w (by simp [hm]))

theorem verifyHashes_err {env : Env} {data : Bytes} {es : Entries Bytes} (h : verifyHashes env data es ≠ .ok ()) :
    ∃ msg, verifyHashes env data es = .err (.lengthOrHashMismatch msg) := by
  induction es with
  | nil => exact absurd rfl h
  | cons e r ih =>
    obtain ⟨k, v⟩ := e
    simp only [verifyHashes] at h ⊢
    split
    · exact ⟨_, rfl⟩
    · next d hd =>
      split
      · exact ⟨_, rfl⟩
      · next hne =>
        rw [hd] at h
        simp only [hne, if_false] at h
        exact ih h

theorem verifyLength_ok {data : Bytes} {n : Int} : verifyLength data n = .ok () ↔ n = (data.length : Int) := by
  unfold verifyLength
  by_cases h : n = (data.length : Int) <;> simp [h]

theorem targetVerify_ok {env : Env} {f : TargetFiles} {data : Bytes} :
    f.verifyLengthHashes env data = .ok () ↔ TargetMatches env f data := by
  unfold TargetFiles.verifyLengthHashes TargetMatches HashesMatch
  rw [Res.bind_eq_ok]
  constructor
  · rintro ⟨_, h1, h2⟩
    exact ⟨verifyLength_ok.1 h2, verifyHashes_ok.1 h1⟩
  · rintro ⟨h1, h2⟩
    exact ⟨(), verifyHashes_ok.2 h2, verifyLength_ok.2 h1⟩

theorem targetVerify_err {env : Env} {f : TargetFiles} {data : Bytes} (h : ¬ TargetMatches env f data) :
    ∃ msg, f.verifyLengthHashes env data = .err (.lengthOrHashMismatch msg) := by
  unfold TargetFiles.verifyLengthHashes
  by_cases h1 : verifyHashes env data f.hashes.entries = .ok ()
  · rw [h1]
    have h2 : ¬ f.length = (data.length : Int) := fun h' => h ⟨h', verifyHashes_ok.1 h1⟩
    simp only [Res.bind_ok, verifyLength, ne_eq, h2, not_false_eq_true, if_true]
    exact ⟨_, rfl⟩
  · obtain ⟨msg, hm⟩ := verifyHashes_err h1
    rw [hm]
    exact ⟨msg, rfl⟩

theorem metaVerify_eq (env : Env) (f : MetaFiles) (data : Bytes) :
    f.verifyLengthHashes env data =
      (verifyHashes env data f.hashes.entries >>= fun _ => if f.length ≠ 0 then verifyLength data f.length else .ok ()) := by
  unfold MetaFiles.verifyLengthHashes
  cases he : f.hashes.entries with
  | nil => simp [verifyHashes]
  | cons a r => simp

theorem metaLength_ok {f : MetaFiles} {data : Bytes} :
    (if f.length ≠ 0 then verifyLength data f.length else .ok ()) = .ok () ↔
      (f.length ≠ 0 → f.length = (data.length : Int)) := by
  split
  · next h => rw [verifyLength_ok]; simp [h]
  · next h => simp at h; simp [h]

theorem metaVerify_ok {env : Env} {f : MetaFiles} {data : Bytes} :
    f.verifyLengthHashes env data = .ok () ↔ MetaMatches env f data := by
  rw [metaVerify_eq, Res.bind_eq_ok]
  unfold MetaMatches HashesMatch
  constructor
  · rintro ⟨_, h1, h2⟩
    exact ⟨metaLength_ok.1 h2, verifyHashes_ok.1 h1⟩
  · rintro ⟨h1, h2⟩
    exact ⟨(), verifyHashes_ok.2 h2, metaLength_ok.2 h1⟩

theorem metaVerify_err {env : Env} {f : MetaFiles} {data : Bytes} (h : ¬ MetaMatches env f data) :
    ∃ msg, f.verifyLengthHashes env data = .err (.lengthOrHashMismatch msg) := by
  rw [metaVerify_eq]
  by_cases h1 : verifyHashes env data f.hashes.entries = .ok ()
  · have h2 : ¬ (f.length ≠ 0 → f.length = (data.length : Int)) := fun h' => h ⟨h', verifyHashes_ok.1 h1⟩
    have h3 : f.length ≠ 0 := fun h' => h2 (fun h'' => absurd h' h'')
    have h4 : ¬ f.length = (data.length : Int) := fun h' => h2 (fun _ => h')
    refine ⟨"length", ?_⟩
    rw [h1]
    simp [h3, verifyLength, h4]
  · obtain ⟨msg, hm⟩ := verifyHashes_err h1
    exact ⟨msg, by rw [hm]; rfl⟩

end Tuf
