import Verif.Model.LevelCache
import Verif.Lemmas.Construct
import Verif.Lemmas.CacheSize
import Verif.Spec.Toy
import Verif.Spec.Ideal
/-! Property C35: the consistency checks agree with the constructors. -/
set_option linter.unusedSectionVars false
namespace Verif
open Spec
variable {E : Type} [Element E]

/-- **C35** for `DiskStore`: `is_consistent` is `Ok(true)` exactly when `new_from_disk` accepts the file;
when the file exists but has another length the one says `Ok(false)` and the other returns `Err`; when
there is no file both return `Err`. -/
theorem C35_disk (fs : FS) (range b : Nat) (c : StoreConfig) :
    (DiskStore.isConsistent E fs range b c = .ok true ↔
      ∃ s, DiskStore.newFromDisk (E := E) range b c fs = (.ok s, fs)) ∧
    (DiskStore.isConsistent E fs range b c = .ok false ↔
      (fs.file c.file).isSome = true ∧
        ∃ m, DiskStore.newFromDisk (E := E) range b c fs = (.error (.err m), fs)) ∧
    (Res.IsErr (DiskStore.isConsistent E fs range b c) ↔ fs.file c.file = none) ∧
    (fs.file c.file = none →
      ∃ m, DiskStore.newFromDisk (E := E) range b c fs = (.error (.err m), fs)) := by
  unfold DiskStore.newFromDisk DiskStore.newFromDiskWithPath DiskStore.isConsistent FS.fileLen
  rw [M.bind_ok (pathExists_run _ _)]
  cases h : fs.file c.file with
  | none =>
    have hc : fs.contents c.file = .error (.err "No such file or directory") := by
      unfold FS.contents; rw [h]
    rw [hc, M.bind_error (mEnsure_false (by simp) _ _)]
    simp [Res.IsErr, bind, Except.bind]
  | some bs =>
    have hc : fs.contents c.file = .ok bs := FS.contents_ok h
    rw [hc, Res.ok_bind, M.bind_ok (mEnsure_true (by rfl) _ _),
      M.bind_ok (a := ()) (fs' := fs) (by unfold FS.openFile; rw [M.get_run, hc]; rfl),
      M.bind_ok (a := bs.length) (fs' := fs) (by rw [M.get_run, hc]; rfl)]
    by_cases hl : bs.length = range * Element.byteLen E
    · rw [M.bind_ok (mEnsure_true hl _ _)]
      simp [hl, Res.IsErr, M.pure_run]
    · rw [M.bind_error (mEnsure_false hl _ _)]
      simp [hl, Res.IsErr]

section
variable [FloatRows] (fs : FS) (range b : Nat) (c : StoreConfig) (r : ExternalReader)

/-- **C35** for `LevelCacheStore`: `is_consistent` is `Ok(true)` exactly when
`new_from_disk_with_reader` accepts the file, whatever the reader; otherwise the constructor returns
`Err` or panics (it panics exactly when `is_consistent` itself panics). -/
theorem C35_level_cache :
    (LevelCacheStore.isConsistent E fs range b c = .ok true ↔
      ∃ s, LevelCacheStore.newFromDiskWithReader (E := E) range b c r fs = (.ok s, fs)) ∧
    (LevelCacheStore.isConsistent E fs range b c = .ok false →
      ∃ m, LevelCacheStore.newFromDiskWithReader (E := E) range b c r fs = (.error (.err m), fs)) ∧
    (∀ e, LevelCacheStore.isConsistent E fs range b c = .error e →
      ∃ e', LevelCacheStore.newFromDiskWithReader (E := E) range b c r fs = (.error e', fs) ∧
        ((∃ m, e = .err m) ↔ ∃ m, e' = .err m)) := by
  unfold LevelCacheStore.newFromDiskWithReader LevelCacheStore.isConsistent FS.fileLen
  rw [M.bind_ok (pathExists_run _ _)]
  cases h : fs.file c.file with
  | none =>
    have hc : fs.contents c.file = .error (.err "No such file or directory") := by
      unfold FS.contents; rw [h]
    rw [hc, M.bind_error (mEnsure_false (by simp) _ _)]
    simp [bind, Except.bind]
  | some bs =>
    have hc : fs.contents c.file = .ok bs := FS.contents_ok h
    rw [hc, Res.ok_bind, Res.ok_bind, M.bind_ok (mEnsure_true (by rfl) _ _),
      M.bind_ok (a := bs.length) (fs' := fs) (by rw [M.get_run, hc]; rfl)]
    unfold LevelCacheStore.plan
    cases h1 : merkleTreeLeafs range b with
    | error e =>
      rw [Res.error_bind, Res.error_bind, M.bind_error (M.ofRes_run _ _)]
      simp
    | ok size =>
      rw [Res.ok_bind, Res.ok_bind]
      by_cases hp : size = nextPow2 size
      swap
      · rw [ensure_false hp, Res.error_bind, Res.error_bind, M.bind_error (M.ofRes_run _ _)]
        simp
      rw [ensure_true hp, Res.ok_bind, Res.ok_bind]
      cases h2 : merkleTreeCacheSize size b c.rowsToDiscard with
      | error e =>
        rw [Res.error_bind, Res.error_bind, M.bind_error (M.ofRes_run _ _)]
        simp
      | ok n =>
        have hle := cacheSize_le_range h1 h2
        rw [Res.ok_bind, Res.ok_bind]
        dsimp only
        rw [subP_ok (Nat.mul_le_mul_right _ hle), Res.ok_bind,
          M.bind_ok (M.ofRes_run _ _)]
        dsimp only
        by_cases hl : bs.length = n * Element.byteLen E
        · rw [M.bind_ok (mEnsure_true hl _ _)]
          simp [hl, M.pure_run]
        · rw [M.bind_error (mEnsure_false hl _ _)]
          simp [hl]

/-- The version 1 check is sound for the version 1 constructor `new_from_disk` … -/
theorem C35_v1_accepts (h : LevelCacheStore.isConsistentV1 E fs range b c = .ok true) :
    ∃ s, LevelCacheStore.newFromDisk (E := E) range b c fs = (.ok s, fs) := by
  unfold LevelCacheStore.isConsistentV1 FS.fileLen at h
  simp only [bind_ok_iff, ensure_ok_iff, exists_const] at h
  obtain ⟨_, ⟨bs, h0, -⟩, size, h1, hp, n, h2, -⟩ := h
  have hf : fs.file c.file = some bs := by
    unfold FS.contents at h0
    split at h0
    · cases h0; assumption
    · cases h0
  unfold LevelCacheStore.newFromDisk FS.fileLen
  rw [M.bind_ok (pathExists_run _ _), hf, M.bind_ok (mEnsure_true (by rfl) _ _),
      M.bind_ok (a := bs.length) (fs' := fs) (by rw [M.get_run, h0]; rfl)]
  unfold LevelCacheStore.plan
  rw [h1, Res.ok_bind, ensure_true hp, Res.ok_bind, h2, Res.ok_bind]
  dsimp only
  rw [subP_ok (Nat.mul_le_mul_right _ (cacheSize_le_range h1 h2)), Res.ok_bind, M.bind_ok (M.ofRes_run _ _)]
  exact ⟨_, rfl⟩

/-- … but the constructor accepts every file, of any length, on which the check's size computations
succeed: agreement fails for version 1 (the property does not claim it). -/
theorem C35_v1_no_size_check_refuted (bs : Bytes) {v : Bool}
    (h : LevelCacheStore.isConsistentV1 E (fs.set c.file (some [])) range b c = .ok v) :
    ∃ s, LevelCacheStore.newFromDisk (E := E) range b c (fs.set c.file (some bs))
      = (.ok s, fs.set c.file (some bs)) := by
  unfold LevelCacheStore.isConsistentV1 FS.fileLen at h
  simp only [bind_ok_iff, ensure_ok_iff, exists_const] at h
  obtain ⟨_, -, size, h1, hp, n, h2, -⟩ := h
  have hf : (fs.set c.file (some bs)).file c.file = some bs := by simp [FS.set]
  unfold LevelCacheStore.newFromDisk FS.fileLen
  rw [M.bind_ok (pathExists_run _ _), hf, M.bind_ok (mEnsure_true (by rfl) _ _),
      M.bind_ok (a := bs.length) (fs' := fs.set c.file (some bs)) (by
        rw [M.get_run, FS.contents_ok hf]; rfl)]
  unfold LevelCacheStore.plan
  rw [h1, Res.ok_bind, ensure_true hp, Res.ok_bind, h2, Res.ok_bind]
  dsimp only
  rw [subP_ok (Nat.mul_le_mul_right _ (cacheSize_le_range h1 h2)), Res.ok_bind, M.bind_ok (M.ofRes_run _ _)]
  exact ⟨_, rfl⟩

end

/-! Concrete files. -/
section
attribute [local instance] idealRows

def zeroCfg : StoreConfig := StoreConfig.new "d" "t" 1
def zeroFile (n : Nat) : FS := FS.empty.set zeroCfg.file (some (List.replicate n 0))

def okVal {α : Type} : Res α → Option α
  | .ok v => some v
  | .error _ => none

example : (okVal (DiskStore.isConsistent UInt8 (zeroFile 7) 7 2 zeroCfg),
    okVal (DiskStore.isConsistent UInt8 (zeroFile 6) 7 2 zeroCfg),
    okVal (DiskStore.isConsistent UInt8 FS.empty 7 2 zeroCfg)) = (some true, some false, none) := by
  decide +kernel
example : (okVal (LevelCacheStore.isConsistent UInt8 (zeroFile 1) 7 2 zeroCfg),
    okVal (LevelCacheStore.isConsistent UInt8 (zeroFile 2) 7 2 zeroCfg),
    okVal (LevelCacheStore.isConsistent UInt8 (zeroFile 1) 5 2 zeroCfg)) = (some true, some false, none) := by
  decide +kernel
example : (okVal (LevelCacheStore.isConsistentV1 UInt8 (zeroFile 5) 7 2 zeroCfg),
    okVal (LevelCacheStore.isConsistentV1 UInt8 (zeroFile 4) 7 2 zeroCfg),
    (okVal (LevelCacheStore.newFromDisk (E := UInt8) 7 2 zeroCfg (zeroFile 4)).1).isSome)
      = (some true, some false, true) := by decide +kernel

end
end Verif
