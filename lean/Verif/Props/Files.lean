import Verif.Lemmas.Confined
import Verif.Spec.Toy
import Verif.Spec.Ideal
/-!
C36: stores with different ids do not share files.
-/
set_option linter.unusedSectionVars false
namespace Verif
open Spec

/-- The path of the data file is an injective function of the id. -/
theorem C36_data_path_injective (dir a b : String) :
    dataPath dir a = dataPath dir b ↔ a = b :=
  ⟨dataPath_inj, fun h => by rw [h]⟩

/-- Even if the operating system ignores empty and `.` components of paths, ids without slashes have
different files. -/
theorem C36_path_components (dir : String) {a b : String} (ha : '/' ∉ a.toList) (hb : '/' ∉ b.toList)
    (h : a ≠ b) : pathComponents (dataPath dir a) ≠ pathComponents (dataPath dir b) :=
  fun e => h (dataPath_components_inj ha hb e)

/-- With slashes in the ids the paths of two ids can be the same file: `data_path` does not check the
id. -/
theorem C36_slash_ids_refuted :
    ∃ a b : String, a ≠ b ∧ dataPath "d" a ≠ dataPath "d" b ∧
      pathComponents (dataPath "d" a) = pathComponents (dataPath "d" b) :=
  ⟨"x/./y", "x/y", by decide +kernel, by decide +kernel, by decide +kernel⟩

section
variable {E : Type} [Element E] [FloatRows] {A : Alg E} {c : StoreConfig}

/-- Whatever is done with disk stores of other ids in the same directory, in any order and whether it
succeeds or fails, leaves the file of `c` alone, and a tree whose store has that file reads and proves as
before. -/
theorem C36_disk (ops : List (StoreConfig × ConfigOp (DiskStore E) A)) (fs : FS)
    (hops : ∀ p ∈ ops, p.1.path = c.path ∧ p.1.id ≠ c.id ∧
      ∀ s, p.2.handle = some s → s.file = p.1.file) :
    (ConfigOp.run ops fs).file c.file = fs.file c.file ∧
    ∀ t : BaseTree (DiskStore E) E, t.store.file = c.file → t.Undisturbed fs (ConfigOp.run ops fs) := by
  have h : (ConfigOp.run ops fs).file c.file = fs.file c.file :=
    ConfigOp.run_other ops fs fun p hp => ⟨(hops p hp).1, (hops p hp).2.1, fun s hs g hg =>
      (show g = s.file from hg).trans ((hops p hp).2.2 s hs)⟩
  exact ⟨h, fun t ht => .of_reads (DiskStore.reads_congr (by rw [ht, h]))⟩

/-- The same for memory-mapped stores. -/
theorem C36_mmap (ops : List (StoreConfig × ConfigOp (MmapStore E) A)) (fs : FS)
    (hops : ∀ p ∈ ops, p.1.path = c.path ∧ p.1.id ≠ c.id ∧
      ∀ s, p.2.handle = some s → s.file = p.1.file) :
    (ConfigOp.run ops fs).file c.file = fs.file c.file ∧
    ∀ t : BaseTree (MmapStore E) E, t.store.file = c.file → t.Undisturbed fs (ConfigOp.run ops fs) := by
  have h : (ConfigOp.run ops fs).file c.file = fs.file c.file :=
    ConfigOp.run_other ops fs fun p hp => ⟨(hops p hp).1, (hops p hp).2.1, fun s hs g hg =>
      (show g = s.file from hg).trans ((hops p hp).2.2 s hs)⟩
  exact ⟨h, fun t ht => .of_reads (MmapStore.reads_congr (by rw [ht, h]))⟩

/-- The same for level-cache stores, if the reader of the tree does not read one of the changed files. -/
theorem C36_level_cache (ops : List (StoreConfig × ConfigOp (LevelCacheStore E) A)) (fs : FS)
    (hops : ∀ p ∈ ops, p.1.path = c.path ∧ p.1.id ≠ c.id ∧
      ∀ s, p.2.handle = some s → s.file = p.1.file) :
    (ConfigOp.run ops fs).file c.file = fs.file c.file ∧
    ∀ t : BaseTree (LevelCacheStore E) E, t.store.file = c.file →
      (∀ r, t.store.reader = some r → ∀ a b buf, r.read (ConfigOp.run ops fs) a b buf = r.read fs a b buf) →
      t.Undisturbed fs (ConfigOp.run ops fs) := by
  have h : (ConfigOp.run ops fs).file c.file = fs.file c.file :=
    ConfigOp.run_other ops fs fun p hp => ⟨(hops p hp).1, (hops p hp).2.1, fun s hs g hg =>
      (show g = s.file from hg).trans ((hops p hp).2.2 s hs)⟩
  exact ⟨h, fun t ht hr => .of_reads (LevelCacheStore.reads_congr (by rw [ht, h]) hr)⟩

/-- In-memory stores change no file at all. -/
theorem C36_vec (ops : List (StoreConfig × ConfigOp (VecStore E) A)) (fs : FS)
    (hops : ∀ p ∈ ops, p.1.path = c.path ∧ p.1.id ≠ c.id) :
    (ConfigOp.run ops fs).file c.file = fs.file c.file :=
  ConfigOp.run_other ops fs fun p hp => ⟨(hops p hp).1, (hops p hp).2, fun _ _ _ hg => False.elim hg⟩

/-- A store or tree created or opened with a configuration has the file of the configuration, and keeps
it. -/
theorem C36_disk_handles (fs : FS) :
    (∀ size b s, ((Store.newWithConfig size b c : M (DiskStore E)) fs).1 = .ok s → s.file = c.file) ∧
    (∀ size b s, ((Store.newFromDisk size b c : M (DiskStore E)) fs).1 = .ok s → s.file = c.file) ∧
    (∀ size b data s, ((Store.newFromSliceWithConfig size b data c : M (DiskStore E)) fs).1 = .ok s →
      s.file = c.file) ∧
    (∀ b σ (src : Source A) (t : BaseTree (DiskStore E) E), (src.build b σ (some c) fs).1 = .ok t →
      t.store.file = c.file) ∧
    (∀ b sub top data leafs (t : BaseTree (DiskStore E) E),
      (BaseTree.fromTreeSliceWithConfig b sub top data leafs c fs).1 = .ok t → t.store.file = c.file) ∧
    ∀ s : DiskStore E, s.file = c.file →
      (∀ e i s', (StoreOps.writeAt s e i fs).1 = .ok s' → s'.file = c.file) ∧
      (∀ d i s', (StoreOps.copyFromSlice s d i fs).1 = .ok s' → s'.file = c.file) ∧
      (∀ e s', (StoreOps.push s e fs).1 = .ok s' → s'.file = c.file) ∧
      (∀ b σ n r s' root, (Store.build A b σ s n r (some c) fs).1 = .ok (root, s') → s'.file = c.file) ∧
      ∀ b v, (Store.compact s b c v fs).2.1.file = c.file := by
  refine ⟨fun n b s h => ?_, fun n b s h => ?_, fun n b d s h => ?_, fun b σ src t h => ?_,
    fun b sub top d n t h => ?_, fun s hs => ⟨fun e i s' h => ?_, fun d i s' h => ?_, fun e s' h => ?_,
    fun b σ n r s' root h => ?_, fun b v => ?_⟩⟩
  · exact (Confined.newWithConfig_only (F := (· = c.file)) rfl n b fs).2 s h _ rfl
  · exact (Confined.newFromDisk_only (F := (· = c.file)) rfl n b fs).2 s h _ rfl
  · exact (Confined.newFromSliceWithConfig_only (F := (· = c.file)) rfl n b d fs).2 s h _ rfl
  · exact (Source.build_config_only (F := (· = c.file)) rfl b σ src fs).2 t h _ rfl
  · exact (BaseTree.fromTreeSliceWithConfig_only (F := (· = c.file)) rfl b sub top d n fs).2 t h _ rfl
  · exact (DiskStore.writeAt_only (F := (· = c.file)) hs e i fs).2 s' h
  · exact (DiskStore.copyFromSlice_only (F := (· = c.file)) hs d i fs).2 s' h
  · exact (Confined.push_only (F := (· = c.file)) (s := s) (fun g (hg : g = s.file) => hg.trans hs) e fs).2 s' h _ rfl
  · exact (DiskStore.build_only (F := (· = c.file)) A b σ s n r (some c) hs fs).2 _ h
  · exact (DiskStore.compact_only (F := (· = c.file)) hs b rfl v fs).2

/-- The same for memory-mapped stores. -/
theorem C36_mmap_handles (fs : FS) :
    (∀ size b s, ((Store.newWithConfig size b c : M (MmapStore E)) fs).1 = .ok s → s.file = c.file) ∧
    (∀ size b s, ((Store.newFromDisk size b c : M (MmapStore E)) fs).1 = .ok s → s.file = c.file) ∧
    (∀ size b data s, ((Store.newFromSliceWithConfig size b data c : M (MmapStore E)) fs).1 = .ok s →
      s.file = c.file) ∧
    (∀ b σ (src : Source A) (t : BaseTree (MmapStore E) E), (src.build b σ (some c) fs).1 = .ok t →
      t.store.file = c.file) ∧
    (∀ b sub top data leafs (t : BaseTree (MmapStore E) E),
      (BaseTree.fromTreeSliceWithConfig b sub top data leafs c fs).1 = .ok t → t.store.file = c.file) :=
  ⟨fun n b s h => (Confined.newWithConfig_only (F := (· = c.file)) rfl n b fs).2 s h _ rfl,
   fun n b s h => (Confined.newFromDisk_only (F := (· = c.file)) rfl n b fs).2 s h _ rfl,
   fun n b d s h => (Confined.newFromSliceWithConfig_only (F := (· = c.file)) rfl n b d fs).2 s h _ rfl,
   fun b σ src t h => (Source.build_config_only (F := (· = c.file)) rfl b σ src fs).2 t h _ rfl,
   fun b sub top d n t h =>
    (BaseTree.fromTreeSliceWithConfig_only (F := (· = c.file)) rfl b sub top d n fs).2 t h _ rfl⟩

/-- The same for level-cache stores. -/
theorem C36_level_cache_handles (fs : FS) :
    (∀ size b s, ((Store.newWithConfig size b c : M (LevelCacheStore E)) fs).1 = .ok s → s.file = c.file) ∧
    (∀ size b s, ((Store.newFromDisk size b c : M (LevelCacheStore E)) fs).1 = .ok s → s.file = c.file) ∧
    (∀ size b r s, ((LevelCacheStore.newFromDiskWithReader size b c r : M (LevelCacheStore E)) fs).1 = .ok s →
      s.file = c.file) ∧
    (∀ size b data s, ((Store.newFromSliceWithConfig size b data c : M (LevelCacheStore E)) fs).1 = .ok s →
      s.file = c.file) ∧
    (∀ b σ (src : Source A) (t : BaseTree (LevelCacheStore E) E), (src.build b σ (some c) fs).1 = .ok t →
      t.store.file = c.file) ∧
    (∀ b sub top data leafs (t : BaseTree (LevelCacheStore E) E),
      (BaseTree.fromTreeSliceWithConfig b sub top data leafs c fs).1 = .ok t → t.store.file = c.file) :=
  ⟨fun n b s h => (Confined.newWithConfig_only (F := (· = c.file)) rfl n b fs).2 s h _ rfl,
   fun n b s h => (Confined.newFromDisk_only (F := (· = c.file)) rfl n b fs).2 s h _ rfl,
   fun n b r s h => (LevelCacheStore.newFromDiskWithReader_only (F := (· = c.file)) rfl n b r fs).2 s h,
   fun n b d s h => (Confined.newFromSliceWithConfig_only (F := (· = c.file)) rfl n b d fs).2 s h _ rfl,
   fun b σ src t h => (Source.build_config_only (F := (· = c.file)) rfl b σ src fs).2 t h _ rfl,
   fun b sub top d n t h =>
    (BaseTree.fromTreeSliceWithConfig_only (F := (· = c.file)) rfl b sub top d n fs).2 t h _ rfl⟩

/-- Building a tree without a configuration changes no named file, with any store. -/
theorem C36_temporary {S : Type} [Confined S E] (b : Nat) (σ : Sched) (src : Source A) (path : String)
    (fs : FS) : ((src.build b σ none : M (BaseTree S E)) fs).2.file (.named path) = fs.file (.named path) :=
  (Source.build_temp_only (F := fun g => ∃ n, g = .temp n) (fun n => ⟨n, rfl⟩) b σ src fs).1 _
    (fun ⟨_, h⟩ => by cases h)

end

/-! Concrete instances: two trees in directory `d`; building, compacting and deleting `a` leaves `b`
alone. -/
section
attribute [local instance] idealRows

def filesCfgA : StoreConfig := StoreConfig.new "d" "a" 0
def filesCfgB : StoreConfig := StoreConfig.new "d" "b" 0

/-- The files of `a` and `b` after building `b`, then doing `ops` on `a`. -/
def filesReport (ops : List (ConfigOp (DiskStore UInt8) toyAlg)) : Option Bytes × Option Bytes :=
  let fs := ConfigOp.run ((filesCfgB, .build 2 Sched.sequential (.new [1, 2])) ::
    ops.map fun op => (filesCfgA, op)) FS.empty
  (fs.file filesCfgA.file, fs.file filesCfgB.file)

example : (filesReport []).1 = none ∧ (filesReport []).2.isSome := by decide +kernel
example : (filesReport [.build 2 Sched.sequential (.new [1, 2, 3, 4])]).1.isSome
    ∧ (filesReport [.build 2 Sched.sequential (.new [1, 2, 3, 4])]).2 = (filesReport []).2 := by
  decide +kernel
example : filesReport [.build 2 Sched.sequential (.new [1, 2, 3, 4]), .delete] = filesReport [] := by
  decide +kernel
example : (filesReport [.build 2 Sched.sequential (.new [1, 2, 3, 4]),
      .compact ⟨7, filesCfgA.file, false, 7⟩ 2 0]).1.map List.length = some 3
    ∧ (filesReport [.build 2 Sched.sequential (.new [1, 2, 3, 4]),
      .compact ⟨7, filesCfgA.file, false, 7⟩ 2 0]).2 = (filesReport []).2 := by decide +kernel
example : filesCfgA.path = filesCfgB.path ∧ filesCfgA.id ≠ filesCfgB.id := by decide +kernel
/-- With the same id the file does change. -/
example : (ConfigOp.run [(filesCfgB, .build (S := DiskStore UInt8) (A := toyAlg) 2 Sched.sequential (.new [1, 2])),
    (filesCfgB, .delete)] FS.empty).file filesCfgB.file = none := by decide +kernel

end
end Verif
