import Verif.Lemmas.WholeTrees
import Verif.Props.Archive
import Verif.Props.Files
/-! Properties C36 and C79 for whole trees: a tree with one, two or three layers whose base trees have
their files open. -/
set_option linter.unusedSectionVars false
namespace Verif
open Spec

section
variable {E : Type} [Element E] [FloatRows] {A : Alg E} {fs : FS} {S' : Type} [Confined S' E]

/-- **C36** for whole trees over `DiskStore`.  Whatever is done with stores that have other files, in any
order and whether it succeeds or fails, the tree reads and proves as before. -/
theorem C36_disk_whole (ops : List (StoreConfig × ConfigOp S' A))
    (hops : ∀ p ∈ ops, ∀ s, p.2.handle = some s → ∀ g, Confined.owns (E := E) s g → g = p.1.file)
    {t : Tree2 (DiskStore E) E} (ht : t.AllBase fun u => ∀ p ∈ ops, u.store.file ≠ p.1.file) :
    Tree2.SameAnswers fs t (ConfigOp.run ops fs) t := by
  have := Tree2.SameAnswers.of_base (fs := fs) (fs' := ConfigOp.run ops fs) (f := id) (t := t)
    (ht.mono fun u hu => ?_)
  · rwa [t.mapStore_id] at this
  · exact .of_reads rfl (DiskStore.reads_congr (ConfigOp.run_apart ops fs hops hu))

/-- **C36** for whole trees over `MmapStore`. -/
theorem C36_mmap_whole (ops : List (StoreConfig × ConfigOp S' A))
    (hops : ∀ p ∈ ops, ∀ s, p.2.handle = some s → ∀ g, Confined.owns (E := E) s g → g = p.1.file)
    {t : Tree2 (MmapStore E) E} (ht : t.AllBase fun u => ∀ p ∈ ops, u.store.file ≠ p.1.file) :
    Tree2.SameAnswers fs t (ConfigOp.run ops fs) t := by
  have := Tree2.SameAnswers.of_base (fs := fs) (fs' := ConfigOp.run ops fs) (f := id) (t := t)
    (ht.mono fun u hu => ?_)
  · rwa [t.mapStore_id] at this
  · exact .of_reads rfl (MmapStore.reads_congr (ConfigOp.run_apart ops fs hops hu))

/-- **C36** for whole trees over `LevelCacheStore`, if the readers still read the same leaves. -/
theorem C36_level_cache_whole (ops : List (StoreConfig × ConfigOp S' A))
    (hops : ∀ p ∈ ops, ∀ s, p.2.handle = some s → ∀ g, Confined.owns (E := E) s g → g = p.1.file)
    {t : Tree2 (LevelCacheStore E) E} (ht : t.AllBase fun u => (∀ p ∈ ops, u.store.file ≠ p.1.file) ∧
      ∀ r, u.store.reader = some r → ∀ a b buf, r.read (ConfigOp.run ops fs) a b buf = r.read fs a b buf) :
    Tree2.SameAnswers fs t (ConfigOp.run ops fs) t := by
  have := Tree2.SameAnswers.of_base (fs := fs) (fs' := ConfigOp.run ops fs) (f := id) (t := t)
    (ht.mono fun u hu => ?_)
  · rwa [t.mapStore_id] at this
  · exact .of_reads rfl (LevelCacheStore.reads_congr (ConfigOp.run_apart ops fs hops hu.1) hu.2)

/-- **C36**: the condition of the theorems above on files is one on ids if the directory is the same. -/
theorem C36_files_apart {c c' : StoreConfig} (h : c.path = c'.path) (hid : c.id ≠ c'.id) :
    c.file ≠ c'.file := by
  unfold StoreConfig.file
  rw [h]
  intro e
  rw [FileId.named.injEq, C36_data_path_injective] at e
  exact hid e

/-- **C79** for whole trees over `DiskStore`.  A file is deleted while a tree is open whose base trees have
named files, this one among them or not.  Whatever is done afterwards with configurations, also with
that of the deleted file, but not with those of its other base trees, the tree answers every question as before. -/
theorem C79_disk_whole {t : Tree2 (DiskStore E) E} {c : StoreConfig} {bs : Bytes} (hf : fs.file c.file = some bs) :
    ∃ t' fs', t.deleteOpen c fs = (.ok t', fs') ∧ fs'.file c.file = none ∧
      ∀ ops : List (StoreConfig × ConfigOp S' A),
        (∀ p ∈ ops, ∀ s, p.2.handle = some s → ∀ g, Confined.owns (E := E) s g → g = p.1.file) →
        (t.AllBase fun u => ∃ c' : StoreConfig, u.store.file = c'.file ∧
          (c'.file = c.file ∨ ∀ p ∈ ops, c'.file ≠ p.1.file)) →
        Tree2.SameAnswers fs t (ConfigOp.run ops fs') t' := by
  obtain ⟨fs', e, h1, h2⟩ := t.deleteOpen_files (S' := S') (A := A) hf
  refine ⟨_, fs', e, h1, fun ops hops ht => .of_base (ht.mono fun u hu => ?_)⟩
  obtain ⟨h3, h4⟩ := h2 ops hops
  obtain ⟨c', hc, hu⟩ := hu
  by_cases hcc : c'.file = c.file
  · rw [BaseTree.mapStore, FileHandle.follow, if_pos (show FileHandle.file u.store = c.file from hc.trans hcc)]
    exact .of_reads rfl (DiskStore.reads_renamed (by rw [h3, hc, hcc]))
  · rw [BaseTree.mapStore, FileHandle.follow, if_neg (show FileHandle.file u.store ≠ c.file from fun h => hcc (hc.symm.trans h))]
    exact .of_reads rfl (DiskStore.reads_congr (by rw [hc, h4 c' hcc (hu.resolve_left hcc)]))

/-- **C79** for whole trees over `MmapStore`. -/
theorem C79_mmap_whole {t : Tree2 (MmapStore E) E} {c : StoreConfig} {bs : Bytes} (hf : fs.file c.file = some bs) :
    ∃ t' fs', t.deleteOpen c fs = (.ok t', fs') ∧ fs'.file c.file = none ∧
      ∀ ops : List (StoreConfig × ConfigOp S' A),
        (∀ p ∈ ops, ∀ s, p.2.handle = some s → ∀ g, Confined.owns (E := E) s g → g = p.1.file) →
        (t.AllBase fun u => ∃ c' : StoreConfig, u.store.file = c'.file ∧
          (c'.file = c.file ∨ ∀ p ∈ ops, c'.file ≠ p.1.file)) →
        Tree2.SameAnswers fs t (ConfigOp.run ops fs') t' := by
  obtain ⟨fs', e, h1, h2⟩ := t.deleteOpen_files (S' := S') (A := A) hf
  refine ⟨_, fs', e, h1, fun ops hops ht => .of_base (ht.mono fun u hu => ?_)⟩
  obtain ⟨h3, h4⟩ := h2 ops hops
  obtain ⟨c', hc, hu⟩ := hu
  by_cases hcc : c'.file = c.file
  · rw [BaseTree.mapStore, FileHandle.follow, if_pos (show FileHandle.file u.store = c.file from hc.trans hcc)]
    exact .of_reads rfl (MmapStore.reads_renamed (by rw [h3, hc, hcc]))
  · rw [BaseTree.mapStore, FileHandle.follow, if_neg (show FileHandle.file u.store ≠ c.file from fun h => hcc (hc.symm.trans h))]
    exact .of_reads rfl (MmapStore.reads_congr (by rw [hc, h4 c' hcc (hu.resolve_left hcc)]))

/-- **C79** for whole trees over `LevelCacheStore`, if the readers still read the same leaves. -/
theorem C79_level_cache_whole {t : Tree2 (LevelCacheStore E) E} {c : StoreConfig} {bs : Bytes}
    (hf : fs.file c.file = some bs) :
    ∃ t' fs', t.deleteOpen c fs = (.ok t', fs') ∧ fs'.file c.file = none ∧
      ∀ ops : List (StoreConfig × ConfigOp S' A),
        (∀ p ∈ ops, ∀ s, p.2.handle = some s → ∀ g, Confined.owns (E := E) s g → g = p.1.file) →
        (t.AllBase fun u => (∃ c' : StoreConfig, u.store.file = c'.file ∧
            (c'.file = c.file ∨ ∀ p ∈ ops, c'.file ≠ p.1.file)) ∧
          ∀ r, u.store.reader = some r → ∀ a b buf,
            r.read (ConfigOp.run ops fs') a b buf = r.read fs a b buf) →
        Tree2.SameAnswers fs t (ConfigOp.run ops fs') t' := by
  obtain ⟨fs', e, h1, h2⟩ := t.deleteOpen_files (S' := S') (A := A) hf
  refine ⟨_, fs', e, h1, fun ops hops ht => .of_base (ht.mono fun u hu => ?_)⟩
  obtain ⟨h3, h4⟩ := h2 ops hops
  obtain ⟨⟨c', hc, hu⟩, hr⟩ := hu
  by_cases hcc : c'.file = c.file
  · rw [BaseTree.mapStore, FileHandle.follow, if_pos (show FileHandle.file u.store = c.file from hc.trans hcc)]
    exact .of_reads rfl (LevelCacheStore.reads_renamed (by rw [h3, hc, hcc]) hr)
  · rw [BaseTree.mapStore, FileHandle.follow, if_neg (show FileHandle.file u.store ≠ c.file from fun h => hcc (hc.symm.trans h))]
    exact .of_reads rfl (LevelCacheStore.reads_congr (by rw [hc, h4 c' hcc (hu.resolve_left hcc)]) hr)

end

/-! Concrete instances: the tree with a top layer over the four toy parts; the file of the first part is
deleted. -/
section
attribute [local instance] idealRows

def toyWhole : Option (Tree2 (DiskStore UInt8) UInt8) :=
  match fromSubTreesAsTrees toyAlg 2 2 (toyParts.map ArchivePart.tree) with
  | .ok n => some (.top n)
  | .error _ => none

def toyFirst : StoreConfig := (toyParts.map ArchivePart.config).headD (StoreConfig.new "" "" 0)

-- the hypotheses of C79_disk_whole can be met, also when the first file is rebuilt
example : ∃ t bs, toyWhole = some t ∧ toyPartsFs.file toyFirst.file = some bs ∧
    t.AllBase fun u => ∃ c' : StoreConfig, u.store.file = c'.file ∧
      (c'.file = toyFirst.file ∨ ∀ p ∈ [toyFirst], c'.file ≠ p.file) := by
  refine ⟨_, _, rfl, rfl, fun c hc => ?_⟩
  change c ∈ [_, _] at hc
  simp only [List.mem_cons, List.not_mem_nil, or_false] at hc
  rcases hc with rfl | rfl
  all_goals
    intro u hu
    change u ∈ [_, _] at hu
    simp only [List.mem_cons, List.not_mem_nil, or_false] at hu
    rcases hu with rfl | rfl
  · exact ⟨.new "d" "a" 1, rfl, .inl rfl⟩
  · exact ⟨.new "d" "b" 1, rfl, .inr (by decide +kernel)⟩
  · exact ⟨.new "d" "c" 0, rfl, .inr (by decide +kernel)⟩
  · exact ⟨.new "d" "e" 0, rfl, .inr (by decide +kernel)⟩

-- the tree after the deletion proves as before; the tree that did not follow its file does not
example : (toyWhole.map fun t => match t.deleteOpen toyFirst toyPartsFs with
    | (.ok t', fs') => (decide ((t'.genProof 2 2 2 fs' 1).toOption = (t.genProof 2 2 2 toyPartsFs 1).toOption),
        (t'.genProof 2 2 2 fs' 1).isOk, (t.genProof 2 2 2 fs' 1).isOk)
    | _ => (false, false, false)) = some (true, true, false) := by decide +kernel

end
end Verif
