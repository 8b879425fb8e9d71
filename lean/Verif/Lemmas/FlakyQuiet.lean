import Verif.Lemmas.Flaky
/-!
Over a disk that never fails the functions are the ordinary ones.
-/
set_option linter.unusedSectionVars false
namespace Verif
namespace Flaky
variable {α : Type} {p : IoPlan}

theorem rd_quiet (hp : p.Quiet) (op : IoOp) (fs : FS) (x : Res α) : rd p op fs x = x := by
  unfold rd
  rw [hp]
  rfl

theorem io_quiet (hp : p.Quiet) (op : IoOp) (x : M α) : io p op x = x := by
  funext fs
  unfold io
  rw [hp]
  rfl

theorem check_quiet (hp : p.Quiet) (op : IoOp) : check p op = pure () := by
  funext fs
  unfold check
  rw [hp]
  rfl

theorem checkOpen_quiet (hp : p.Quiet) (f : FileId) : checkOpen p f = pure () := by
  funext fs
  unfold checkOpen
  rw [hp, hp]
  rfl

theorem pathExists_quiet (hp : p.Quiet) (f : FileId) : pathExists p f = FS.pathExists f := by
  funext fs
  rw [pathExists_run, hp]
  rfl

variable {E : Type} [Element E]

namespace Disk

theorem readAt_quiet (hp : p.Quiet) : readAt p (E := E) = DiskStore.readAt := by
  funext fs s i
  simp only [readAt, storeReadRange, readExactAt, rd_quiet hp]
  rfl

theorem readRange_quiet (hp : p.Quiet) : readRange p (E := E) = DiskStore.readRange := by
  funext fs s i j
  simp only [readRange, storeReadRange, readExactAt, rd_quiet hp]
  rfl

theorem readInto_quiet (hp : p.Quiet) : readInto p (E := E) = DiskStore.readInto := by
  funext fs s i j
  simp only [readInto, storeReadInto, readExactAt, rd_quiet hp]
  rfl

theorem readRangeInto_quiet (hp : p.Quiet) :
    readRangeInto p (E := E) = DiskStore.readRangeInto := by
  funext fs s i j b
  simp only [readRangeInto, storeReadInto, readExactAt, rd_quiet hp]
  rfl

theorem storeCopyFromSlice_quiet (hp : p.Quiet) :
    storeCopyFromSlice p (E := E) = DiskStore.storeCopyFromSlice := by
  funext s i j
  simp only [storeCopyFromSlice, writeAllAt, io_quiet hp]
  rfl

theorem writeAt_quiet (hp : p.Quiet) : writeAt p (E := E) = DiskStore.writeAt := by
  funext s e i
  simp only [writeAt, storeCopyFromSlice_quiet hp]
  rfl

theorem copyFromSlice_quiet (hp : p.Quiet) :
    copyFromSlice p (E := E) = DiskStore.copyFromSlice := by
  funext s e i
  simp only [copyFromSlice, storeCopyFromSlice_quiet hp]
  rfl

theorem push_quiet (hp : p.Quiet) : push p (E := E) = DiskStore.push := by
  funext s e
  simp only [push, writeAt_quiet hp]
  rfl

theorem new_quiet (hp : p.Quiet) : new p (E := E) = DiskStore.new := by
  funext n
  simp only [new, setLen, io_quiet hp]
  rfl

theorem newFromDisk_quiet (hp : p.Quiet) : newFromDisk p (E := E) = DiskStore.newFromDisk := by
  funext n b c
  simp only [newFromDisk, newFromDiskWithPath, pathExists_quiet hp, checkOpen_quiet hp, fileLen, rd_quiet hp]
  rfl

theorem newWithConfig_quiet (hp : p.Quiet) :
    newWithConfig p (E := E) = DiskStore.newWithConfig := by
  funext n b c
  simp only [newWithConfig, pathExists_quiet hp, newFromDisk_quiet hp, setLen, io_quiet hp]
  rfl

theorem newFromSlice_quiet (hp : p.Quiet) :
    newFromSlice p (E := E) = DiskStore.newFromSlice := by
  funext n b
  simp only [newFromSlice, new_quiet hp, storeCopyFromSlice_quiet hp]
  rfl

theorem newFromSliceWithConfig_quiet (hp : p.Quiet) :
    newFromSliceWithConfig p (E := E) = DiskStore.newFromSliceWithConfig := by
  funext n b d c
  simp only [newFromSliceWithConfig, newWithConfig_quiet hp, storeCopyFromSlice_quiet hp]
  rfl

theorem layerRead_quiet (hp : p.Quiet) (A : Alg E) (b w l r : Nat) :
    layerRead p A b w l r = DiskStore.layerRead A b w l r := by
  funext t s fs
  simp only [layerRead, readRange_quiet hp]
  rfl

theorem processLayer_quiet (hp : p.Quiet) (A : Alg E) :
    processLayer p A = DiskStore.processLayer A := by
  funext b σ s w l r x
  simp only [processLayer, layerRead_quiet hp, check_quiet hp]
  rfl

theorem buildLoop_quiet (hp : p.Quiet) (A : Alg E) (b : Nat) (σ : Sched) :
    ∀ f w l x s, buildLoop p A b σ f w l x s = DiskStore.buildLoop A b σ f w l x s
  | 0, _, _, _, _ => rfl
  | f + 1, w, l, x, s => by
    unfold buildLoop DiskStore.buildLoop
    simp only [processLayer_quiet hp, buildLoop_quiet hp A b σ f]

theorem build_quiet (hp : p.Quiet) : build p (E := E) = DiskStore.build := by
  funext A b σ s n rows c
  simp only [build, buildLoop_quiet hp, last, readAt_quiet hp]
  rfl

theorem compact_quiet [FloatRows] (hp : p.Quiet) : compact p (E := E) = DiskStore.compact := by
  funext s b c v fs
  simp only [compact, check_quiet hp, compactFile, copyWithin, setLen, io_quiet hp, rd_quiet hp, fileLen]
  rfl

theorem delete_quiet (hp : p.Quiet) : delete p = DiskStore.delete := by
  funext c
  exact io_quiet hp _ _

theorem isConsistent_quiet (hp : p.Quiet) : isConsistent p E = DiskStore.isConsistent E := by
  funext fs n b c
  simp only [isConsistent, rd_quiet hp, fileLen]
  rfl

end Disk

namespace Cache

theorem newFromDiskWithReader_quiet [FloatRows] (hp : p.Quiet) : newFromDiskWithReader p (E := E) = LevelCacheStore.newFromDiskWithReader := by
  funext n b c r
  simp only [newFromDiskWithReader, pathExists_quiet hp, checkOpen_quiet hp, fileLen, rd_quiet hp]
  rfl

theorem newFromDisk_quiet [FloatRows] (hp : p.Quiet) : newFromDisk p (E := E) = LevelCacheStore.newFromDisk := by
  funext n b c
  simp only [newFromDisk, pathExists_quiet hp, checkOpen_quiet hp, fileLen, rd_quiet hp]
  rfl

theorem newWithConfig_quiet [FloatRows] (hp : p.Quiet) : newWithConfig p (E := E) = LevelCacheStore.newWithConfig := by
  funext n b c
  simp only [newWithConfig, pathExists_quiet hp, newFromDisk_quiet hp, setLen, io_quiet hp]
  rfl

theorem new_quiet (hp : p.Quiet) : new p (E := E) = LevelCacheStore.new := by
  funext n
  simp only [new, setLen, io_quiet hp]
  rfl

theorem storeCopyFromSlice_quiet (hp : p.Quiet) : storeCopyFromSlice p (E := E) = LevelCacheStore.storeCopyFromSlice := by
  funext s i j
  simp only [storeCopyFromSlice, writeAllAt, io_quiet hp]
  rfl

theorem newFromSlice_quiet (hp : p.Quiet) : newFromSlice p (E := E) = LevelCacheStore.newFromSlice := by
  funext n d
  simp only [newFromSlice, new_quiet hp, storeCopyFromSlice_quiet hp]
  rfl

theorem newFromSliceWithConfig_quiet [FloatRows] (hp : p.Quiet) : newFromSliceWithConfig p (E := E) = LevelCacheStore.newFromSliceWithConfig := by
  funext n b d c
  simp only [newFromSliceWithConfig, newWithConfig_quiet hp, storeCopyFromSlice_quiet hp]
  rfl

theorem writeAt_quiet (hp : p.Quiet) : writeAt p (E := E) = LevelCacheStore.writeAt := by
  funext s e i
  simp only [writeAt, storeCopyFromSlice_quiet hp]
  rfl

theorem copyFromSlice_quiet (hp : p.Quiet) : copyFromSlice p (E := E) = LevelCacheStore.copyFromSlice := by
  funext s e i
  simp only [copyFromSlice, storeCopyFromSlice_quiet hp]
  rfl

theorem push_quiet (hp : p.Quiet) : push p (E := E) = LevelCacheStore.push := by
  funext s e
  simp only [push, writeAt_quiet hp]
  rfl

theorem storeReadRange_quiet (hp : p.Quiet) : storeReadRange p (E := E) = LevelCacheStore.storeReadRange := by
  funext fs s i j
  simp only [storeReadRange, readExactAt, rd_quiet hp]
  rfl

theorem storeReadInto_quiet (hp : p.Quiet) : storeReadInto p (E := E) = LevelCacheStore.storeReadInto := by
  funext fs s i j buf
  simp only [storeReadInto, readExactAt, rd_quiet hp]
  rfl

theorem storeReadRangeInternal_quiet (hp : p.Quiet) : storeReadRangeInternal p (E := E) = LevelCacheStore.storeReadRangeInternal := by
  funext fs s i j
  simp only [storeReadRangeInternal, readExactAt, rd_quiet hp]
  rfl

theorem readAt_quiet (hp : p.Quiet) : readAt p (E := E) = LevelCacheStore.readAt := by
  funext fs s i
  simp only [readAt, storeReadRange_quiet hp]
  rfl

theorem readInto_quiet (hp : p.Quiet) : readInto p (E := E) = LevelCacheStore.readInto := by
  funext fs s i buf
  simp only [readInto, storeReadInto_quiet hp]
  rfl

theorem readRangeInto_quiet (hp : p.Quiet) : readRangeInto p (E := E) = LevelCacheStore.readRangeInto := by
  funext fs s i j buf
  simp only [readRangeInto, storeReadInto_quiet hp]
  rfl

theorem readRange_quiet (hp : p.Quiet) : readRange p (E := E) = LevelCacheStore.readRange := by
  funext fs s i j
  simp only [readRange, storeReadRange_quiet hp]
  rfl

theorem readRangeInternal_quiet (hp : p.Quiet) : readRangeInternal p (E := E) = LevelCacheStore.readRangeInternal := by
  funext fs s i j
  simp only [readRangeInternal, storeReadRangeInternal_quiet hp]
  rfl

theorem readAtInternal_quiet (hp : p.Quiet) : readAtInternal p (E := E) = LevelCacheStore.readAtInternal := by
  funext fs s i
  simp only [readAtInternal, storeReadRangeInternal_quiet hp]
  rfl

theorem layerRead_quiet (hp : p.Quiet) (A : Alg E) (b w l r : Nat) :
    layerRead p A b w l r = LevelCacheStore.layerRead A b w l r := by
  funext t s fs
  simp only [layerRead, readRangeInternal_quiet hp]
  rfl

theorem processLayer_quiet (hp : p.Quiet) (A : Alg E) :
    processLayer p A = LevelCacheStore.processLayer A := by
  funext b σ s w l r x
  simp only [processLayer, layerRead_quiet hp, check_quiet hp]
  rfl

theorem frontTruncate_quiet (hp : p.Quiet) : frontTruncate p (E := E) = LevelCacheStore.frontTruncate := by
  funext s c n
  simp only [frontTruncate, fileLen, rd_quiet hp, check_quiet hp, copyWithin, setLen, io_quiet hp]
  rfl

theorem buildLoop_quiet (hp : p.Quiet) (A : Alg E) (b : Nat) (σ : Sched) (c : StoreConfig) (ci : Nat) :
    ∀ f w l x s, buildLoop p A b σ c ci f w l x s = LevelCacheStore.buildLoop A b σ c ci f w l x s
  | 0, _, _, _, _ => rfl
  | f + 1, w, l, x, s => by
    unfold buildLoop LevelCacheStore.buildLoop
    simp only [processLayer_quiet hp, frontTruncate_quiet hp, buildLoop_quiet hp A b σ c ci f]

theorem build_quiet [FloatRows] (hp : p.Quiet) : build p (E := E) = LevelCacheStore.build := by
  funext A b σ s n rows c
  simp only [build, buildLoop_quiet hp, readAtInternal_quiet hp]
  rfl

theorem isConsistent_quiet [FloatRows] (hp : p.Quiet) : isConsistent p E = LevelCacheStore.isConsistent E := by
  funext fs n b c
  simp only [isConsistent, rd_quiet hp, fileLen]
  rfl

theorem isConsistentV1_quiet [FloatRows] (hp : p.Quiet) : isConsistentV1 p E = LevelCacheStore.isConsistentV1 E := by
  funext fs n b c
  simp only [isConsistentV1, rd_quiet hp, fileLen]
  rfl

end Cache
end Flaky
end Verif
