import Verif.Props.Lifecycle
import Verif.Lemmas.Reopen
/-
C80: what `VecStore` and `MmapStore` dereference to (src/store/vec.rs:11-17, src/store/mmap.rs:22-28).
-/
set_option linter.unusedSectionVars false
namespace Verif
open Spec

section
variable {E : Type} [Element E] [LawfulElement E] [FloatRows] {A : Alg E} {b : Nat}

/-- **C80.** A `VecStore` dereferences to its elements: reading the store is indexing that slice. -/
theorem C80_vec_store (s : VecStore E) (fs : FS) :
    s.deref.length = StoreOps.len (E := E) s ∧ (∀ i, StoreOps.readAt fs s i = idxP s.deref i) ∧
      ∀ i j, i ≤ j → j ≤ StoreOps.len (E := E) s →
        StoreOps.readRange fs s i j = .ok ((s.deref.drop i).take (j - i)) :=
  ⟨rfl, fun _ => rfl, fun i j h1 h2 => by
    show VecStore.readRange s i j = _
    unfold VecStore.readRange
    rw [if_pos ⟨h1, h2⟩]
    rfl⟩

/-- **C80.** The store of a built tree in memory dereferences to all nodes of the tree, row by row. -/
theorem C80_vec (hA : A.LawfulReset) {σ : Sched} (hσ : σ.Valid) {src : Source A}
    (hs : src.Valid) (hf : FloatRows.FloorAt b src.leaves.length) {cfg : Option StoreConfig}
    {fs fs' : FS} {t : BaseTree (VecStore E) E} (hc : ∀ c ∈ cfg, fs.file c.file = none)
    (h : src.build b σ cfg fs = (.ok t, fs')) :
    ∃ (k : Nat) (f : Nat → E), 1 ≤ k ∧ IsLayout A.nodeHash b k src.leaves f ∧
      t.store.deref = allNodes b k f ∧ t.root = f (nodes b k - 1) := by
  obtain ⟨hb, _, k, d, hk, _, hn, hm, _⟩ := Source.build_sound hA hσ hs hf hc h
  refine ⟨k, _, hk, flat_isLayout _ _ _ hn, ?_, by rw [flat_root, hm.root]⟩
  have hl : t.store.els.length = nodes b k := hm.filled.len_eq
  refine List.ext_getElem? fun i => ?_
  by_cases hi : i < nodes b k
  · have hv : t.store.els[i]? = some _ := hm.filled.vals i hi
    rw [VecStore.deref, hv]
    simp [allNodes, hi]
  · rw [VecStore.deref, List.getElem?_eq_none (by omega),
      List.getElem?_eq_none (by rw [allNodes_length]; omega)]

/-- **C80.** The store of a built memory-mapped tree dereferences to the encodings of all nodes of the
tree, row by row, and to nothing else. -/
theorem C80_mmap (hA : A.LawfulReset) {σ : Sched} (hσ : σ.Valid) {src : Source A}
    (hs : src.Valid) (hf : FloatRows.FloorAt b src.leaves.length) {cfg : Option StoreConfig}
    {fs fs' : FS} {t : BaseTree (MmapStore E) E} (hc : ∀ c ∈ cfg, fs.file c.file = none)
    (h : src.build b σ cfg fs = (.ok t, fs')) :
    ∃ (k : Nat) (f : Nat → E), 1 ≤ k ∧ IsLayout A.nodeHash b k src.leaves f ∧
      t.store.deref fs' = .ok (encodeAll (allNodes b k f)) ∧ t.root = f (nodes b k - 1) := by
  obtain ⟨hb, _, k, d, hk, _, hn, hm, _⟩ := Source.build_sound hA hσ hs hf hc h
  refine ⟨k, _, hk, flat_isLayout _ _ _ hn, ?_, by rw [flat_root, hm.root]⟩
  obtain ⟨bs, h1, h2, h3⟩ := hm.filled.inv
  unfold MmapStore.deref
  rw [h2]
  dsimp only
  rw [MmapStore.mapRead_ok h1 h2 (Nat.zero_le _) (Nat.le_refl _)]
  congr 1
  have : bs = encodeAll (allNodes b k (flat A.nodeHash b k fun i => src.leaves.getD i d)) := by
    apply bytes_of_slots _ _ _ h3
    intro i hi
    obtain ⟨bs', g1, g2, g3⟩ := hm.filled.vals i hi
    rw [h1] at g1
    cases g1
    exact g3
  rw [← this]
  simp [region]

/-- **C80.** After `compact` an `MmapStore` cannot be dereferenced: it panics, where every read returns
`Err` (C53).  `reinit` maps the file again, and the store dereferences to the file. -/
theorem C80_mmap_compact (s : MmapStore E) (c : StoreConfig) (v : Nat) (fs : FS) :
    ∃ s₁ : MmapStore E, Store.compact s b c v fs = (.ok s.map.isSome, s₁, fs) ∧
      (∃ m, s₁.deref fs = .error (.panic m)) ∧
      ∀ bs, fs.file s.file = some bs →
        ∃ s₂ : MmapStore E, Store.reinit s₁ fs = (.ok s₂, fs) ∧ s₂.deref fs = .ok bs := by
  obtain ⟨s₁, h1, -, -, -, -, h2⟩ := C53_mmap_store (b := b) s c v fs
  refine ⟨s₁, h1, ?_, fun bs hbs => ⟨_, h2 bs hbs, ?_⟩⟩
  · cases h1
    exact ⟨_, rfl⟩
  · unfold MmapStore.deref
    dsimp only
    rw [MmapStore.mapRead_ok (s := ⟨some bs.length, s.file, s.len⟩) (bs := bs) hbs rfl (Nat.zero_le _) (Nat.le_refl _)]
    simp [region]

/-- **C80** does not hold for a store that is not full: a new `MmapStore` has no elements and
dereferences to the zero bytes of its whole size, where a new `VecStore` dereferences to nothing. -/
theorem C80_new_refuted (size : Nat) (fs : FS) :
    (∃ (s : MmapStore E) (fs' : FS), Store.new (E := E) size fs = (.ok s, fs') ∧
      StoreOps.len (E := E) s = 0 ∧
      s.deref fs' = .ok (List.replicate (Element.byteLen E * size) 0)) ∧
    ∃ s : VecStore E, Store.new (E := E) size fs = (.ok s, fs) ∧ s.deref = [] := by
  obtain ⟨fs', h1, h2, -⟩ := MmapStore.new_run (E := E) fs size
  refine ⟨⟨_, fs', h1, rfl, ?_⟩, ⟨_, rfl, rfl⟩⟩
  unfold MmapStore.deref
  dsimp only
  rw [MmapStore.mapRead_ok (bs := List.replicate (Element.byteLen E * size) 0) h2
    (by simp) (Nat.zero_le _) (by simp)]
  simp [region]

end

/-! ### The hypotheses can be met -/
section examples
attribute [local instance] idealRows

example : ∃ t : BaseTree (VecStore UInt8) UInt8,
    (Source.new [1, 2, 3, 4] : Source toyAlg).build 2 Sched.sequential none FS.empty = (.ok t, FS.empty) ∧
      t.store.deref.length = 7 := ⟨_, rfl, rfl⟩
example : ∃ (t : BaseTree (MmapStore UInt8) UInt8) (fs : FS) (bs : Bytes),
    (Source.new [1, 2, 3, 4] : Source toyAlg).build 2 Sched.sequential none FS.empty = (.ok t, fs) ∧
      t.store.deref fs = .ok bs ∧ bs.length = 7 := ⟨_, _, _, rfl, rfl, rfl⟩
example : FloatRows.FloorAt 2 (Source.new [1, 2, 3, 4] : Source toyAlg).leaves.length :=
  idealRows_floor (by decide) (by decide)

end examples
end Verif
