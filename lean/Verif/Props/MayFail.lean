import Verif.Lemmas.Faulty
import Verif.Props.ProofComplete
import Verif.Props.ParIter
/-
C70: the code above the stores passes errors on (src/merkle.rs, src/store/mod.rs:261-422).

`MayFail S' S E` says that calls of the store `S'` may return `Err` where those of the store `S` do
not, and otherwise do the same (`erase` gives the store that is imitated); `Faulty p S`
(Verif/Spec/MayFail.lean) is such a store for every plan `p` of failing calls.  Every operation on
trees then fails, or does what it does on `S`.
-/
namespace Verif
open Spec

set_option linter.unusedSectionVars false

/-! ### C70 -/

section
variable {S' S E : Type} [Element E]

section ops
variable [StoreOps S' E] [StoreOps S E] [m : MayFailOps S' S E]

/-- **C70** for `read_at` of every kind of tree: an `Err`, or the node the imitated tree gives. -/
theorem C70_read_at (sub top : Nat) (t : Tree2 S' E) (fs : FS) (i : Nat) :
    (t.readAt sub top fs i).IsErr ∨ t.readAt sub top fs i = (t.mapStore m.erase).readAt sub top fs i :=
  (MayFail.tree2_readAt_sim fs sub top t i).or_eq

/-- **C70** for `gen_proof` of every kind of tree: an `Err`, or the proof the imitated tree gives. -/
theorem C70_gen_proof (b sub top : Nat) (t : Tree2 S' E) (fs : FS) (i : Nat) :
    (t.genProof b sub top fs i).IsErr ∨
      t.genProof b sub top fs i = (t.mapStore m.erase).genProof b sub top fs i :=
  (MayFail.tree2_genProof_sim fs b sub top t i).or_eq

/-- **C70** for `gen_cached_proof` of every kind of tree. -/
theorem C70_gen_cached_proof [FloatRows] (A : Alg E) (b sub top : Nat) (σ : Sched) (rows : Option Nat)
    (t : Tree2 S' E) (fs : FS) (i : Nat) :
    (t.genCachedProof A b sub top σ i rows fs).1.IsErr ∨
      t.genCachedProof A b sub top σ i rows fs =
        (t.mapStore m.erase).genCachedProof A b sub top σ i rows fs :=
  (MayFail.tree2_genCachedProof_sim A b sub top σ rows t i).or_eq fs

end ops

variable [Store S' E] [Store S E] [m : MayFail S' S E] [FloatRows] (A : Alg E) (b : Nat)

/-- **C70** for `from_data_store`. -/
theorem C70_from_data_store (sub top : Nat) (s : S') (leafs : Nat) (fs : FS) :
    (BaseTree.fromDataStore (E := E) b sub top s leafs fs).IsErr ∨
      BaseTree.fromDataStore (E := E) b sub top (m.erase s) leafs fs =
        (BaseTree.fromDataStore b sub top s leafs fs).map (BaseTree.mapStore m.erase) :=
  (MayFail.fromDataStore_sim b sub top s leafs fs).or_map

/-- **C70** for `from_tree_slice`. -/
theorem C70_from_tree_slice (sub top : Nat) (data : Bytes) (leafs : Nat) (fs : FS) :
    (BaseTree.fromTreeSlice (S := S') b sub top data leafs fs).1.IsErr ∨
      BaseTree.fromTreeSlice (S := S) b sub top data leafs fs =
        ((BaseTree.fromTreeSlice (S := S') b sub top data leafs fs).1.map (BaseTree.mapStore m.erase),
          (BaseTree.fromTreeSlice (S := S') b sub top data leafs fs).2) :=
  (MayFail.fromTreeSlice_sim b sub top data leafs).or_map fs

/-- **C70** for `from_tree_slice_with_config`. -/
theorem C70_from_tree_slice_with_config (sub top : Nat) (data : Bytes) (leafs : Nat) (c : StoreConfig)
    (fs : FS) :
    (BaseTree.fromTreeSliceWithConfig (S := S') b sub top data leafs c fs).1.IsErr ∨
      BaseTree.fromTreeSliceWithConfig (S := S) b sub top data leafs c fs =
        ((BaseTree.fromTreeSliceWithConfig (S := S') b sub top data leafs c fs).1.map
            (BaseTree.mapStore m.erase),
          (BaseTree.fromTreeSliceWithConfig (S := S') b sub top data leafs c fs).2) :=
  (MayFail.fromTreeSliceWithConfig_sim b sub top data leafs c).or_map fs

/-- **C70** for `from_slices`: one child that cannot be made, and there is no tree. -/
theorem C70_from_slices (sub : Nat) (datas : List Bytes) (leafs : Nat) (fs : FS) :
    (fromSlices (S := S') A b sub datas leafs fs).1.IsErr ∨
      fromSlices (S := S) A b sub datas leafs fs =
        ((fromSlices (S := S') A b sub datas leafs fs).1.map
            (Node.mapChildren (BaseTree.mapStore m.erase)),
          (fromSlices (S := S') A b sub datas leafs fs).2) :=
  (MayFail.fromSlices_sim A b sub datas leafs).or_map fs

/-- **C70** for `from_slices_with_configs`. -/
theorem C70_from_slices_with_configs (sub : Nat) (datas : List Bytes) (leafs : Nat)
    (cs : List StoreConfig) (fs : FS) :
    (fromSlicesWithConfigs (S := S') A b sub datas leafs cs fs).1.IsErr ∨
      fromSlicesWithConfigs (S := S) A b sub datas leafs cs fs =
        ((fromSlicesWithConfigs (S := S') A b sub datas leafs cs fs).1.map
            (Node.mapChildren (BaseTree.mapStore m.erase)),
          (fromSlicesWithConfigs (S := S') A b sub datas leafs cs fs).2) :=
  (MayFail.fromSlicesWithConfigs_sim A b sub datas leafs cs).or_map fs

/-- **C70** for `from_stores`. -/
theorem C70_from_stores (sub leafs : Nat) (ss : List S') (fs : FS) :
    (fromStores (E := E) A b sub leafs ss fs).1.IsErr ∨
      fromStores (E := E) A b sub leafs (ss.map m.erase) fs =
        ((fromStores A b sub leafs ss fs).1.map (Node.mapChildren (BaseTree.mapStore m.erase)),
          (fromStores (E := E) A b sub leafs ss fs).2) :=
  (MayFail.fromStores_sim A b sub leafs ss).or_map fs

/-- **C70** for `from_store_configs`. -/
theorem C70_from_store_configs (sub leafs : Nat) (cs : List StoreConfig) (fs : FS) :
    (fromStoreConfigs (S := S') A b sub leafs cs fs).1.IsErr ∨
      fromStoreConfigs (S := S) A b sub leafs cs fs =
        ((fromStoreConfigs (S := S') A b sub leafs cs fs).1.map
            (Node.mapChildren (BaseTree.mapStore m.erase)),
          (fromStoreConfigs (S := S') A b sub leafs cs fs).2) :=
  (MayFail.fromStoreConfigs_sim A b sub leafs cs).or_map fs

/-- **C70** for `from_sub_tree_store_configs`. -/
theorem C70_from_sub_tree_store_configs (sub top leafs : Nat) (cs : List StoreConfig) (fs : FS) :
    (fromSubTreeStoreConfigs (S := S') A b sub top leafs cs fs).1.IsErr ∨
      fromSubTreeStoreConfigs (S := S) A b sub top leafs cs fs =
        ((fromSubTreeStoreConfigs (S := S') A b sub top leafs cs fs).1.map
            (Node.mapChildren (Tree1.mapStore m.erase)),
          (fromSubTreeStoreConfigs (S := S') A b sub top leafs cs fs).2) :=
  (MayFail.fromSubTreeStoreConfigs_sim A b sub top leafs cs).or_map fs

variable {A b}

/-- **C70** for the constructors from leaves: an `Err`, a panic, or the same as on the store that does
not fail, with the same files left behind. -/
theorem C70_build (σ : Sched) (src : Source A) (cfg : Option StoreConfig) (fs : FS) :
    (src.build (S := S') b σ cfg fs).1.IsErr ∨
      (∃ msg, (src.build (S := S') b σ cfg fs).1 = .error (.panic msg)) ∨
      src.build (S := S) b σ cfg fs =
        ((src.build (S := S') b σ cfg fs).1.map (BaseTree.mapStore m.erase),
          (src.build (S := S') b σ cfg fs).2) := by
  have h := Source.build_sim (S' := S') (b := b) σ src cfg fs
  cases hx : src.build (S := S') b σ cfg fs with
  | mk r fs' =>
    rw [hx] at h
    cases r with
    | error e =>
      rcases h with h | h
      · cases e with
        | err msg => exact .inl ⟨msg, rfl⟩
        | panic msg => exact .inr (.inl ⟨msg, rfl⟩)
        | diverge => exact h.elim
      · exact .inr (.inr h)
    | ok a => obtain ⟨t, ht, rfl⟩ := h; exact .inr (.inr ht)

/-- A constructor without a configuration that takes its leaves one after the other (or as bytes) does
not panic on errors of the store. -/
theorem C70_build_no_panic (σ : Sched) (src : Source A) (h : ∀ π items, src ≠ .par π items) (fs : FS) :
    (src.build (S := S') b σ none fs).1.IsErr ∨
      src.build (S := S) b σ none fs =
        ((src.build (S := S') b σ none fs).1.map (BaseTree.mapStore m.erase),
          (src.build (S := S') b σ none fs).2) := by
  refine M.Sim.or_map ?_ fs
  cases src <;> unfold Source.build
  case par π items => exact absurd rfl (h π items)
  · exact MayFail.tryFromIter_sim A b σ _ _
  · exact MayFail.tryFromIter_sim A b σ _ _
  · exact MayFail.tryFromIter_sim A b σ _ _
  · exact MayFail.fromByteSlice_sim A b σ _

end

/-! ### What this means for trees built on failing stores -/

section
variable {S' S E : Type} [Element E] [LawfulElement E] [FloatRows] {A : Alg E} {b : Nat}
variable [Store S' E] [Store S E] [RejectingStore S E] [NoArityOne S E] [m : MayFail S' S E]

include m in
/-- **C70**.  However many calls of the store fail: when a constructor returns a tree, it has the
root of the Merkle tree of its leaves, every node that can be read is the right one, and every proof
that is returned is the right one and validates. -/
theorem C70_faults_never_lie [DecidableEq E] (hA : A.LawfulReset) {σ : Sched} (hσ : σ.Valid)
    {src : Source A} (hs : src.Valid) (hf : FloatRows.FloorAt b src.leaves.length)
    {cfg : Option StoreConfig} {fs fs' : FS} {t : BaseTree S' E}
    (hc : ∀ c ∈ cfg, fs.file c.file = none) (h : src.build b σ cfg fs = (.ok t, fs')) :
    ∃ k f, IsLayout A.nodeHash b k src.leaves f ∧ t.root = f (nodes b k - 1) ∧
      t.leafs = b ^ k ∧ t.length = nodes b k ∧ t.rowCount = k + 1 ∧
      (∀ i e, i < nodes b k → t.readAt fs' i = .ok e → e = f i) ∧
      ∀ i p, (hi : i < src.leaves.length) → t.genProof b 0 0 fs' i = .ok p →
        p.item = .ok src.leaves[i] ∧ p.root = .ok t.root ∧ p.path = digits b k i ∧
        (A.HeightsAgree b → p.validate A b = .ok true) := by
  have h2 := (Source.build_sim (S' := S') (b := b) σ src cfg).ok_map h
  obtain ⟨k, hk, ht⟩ := C08_built_tree hA hσ hs hf hc h2
  obtain ⟨f, hl, hr, hroot⟩ := ht.nodes
  have hlen := ht.len
  refine ⟨k, f, hl, hroot, ht.leafs, ?_, ht.rows, ?_, ?_⟩
  · rw [← hlen]; exact (m.len t.store).symm
  · intro i e hi he
    rcases (m.readAt fs' t.store i).or_eq with ⟨msg, h3⟩ | h3
    · exact nomatch he.symm.trans h3
    · have := he.symm.trans (h3.trans (hr i hi))
      cases this; rfl
  · intro i p hi hp
    obtain ⟨q, k', hk', hq, h5⟩ := C14_built hA hσ hs hf hc h2 hi
    have hb : 2 ≤ b := (Source.build_sound hA hσ hs hf hc h2).1.two_le
    have e : k' = k := Nat.pow_right_injective hb (hk'.symm.trans hl.count)
    subst e
    rcases (MayFail.genProof_sim b fs' 0 0 t i).or_eq with ⟨msg, h3⟩ | h3
    · exact nomatch hp.symm.trans h3
    · have := hp.symm.trans (h3.trans hq)
      cases this; exact h5

end

/-! ### Where errors do get lost -/

/-- The parallel iterator over a store is where C70 fails: it ends at the first node it cannot read, as
if the store ended there (src/store/mod.rs:425-530, see C41). -/
theorem C70_par_iter_refuted : ∃ (p : FaultPlan) (t : Faulty p (VecStore UInt8)),
    (ParProducer.ofStore (E := UInt8) t).intoIter.collect (StoreOps.readAt FS.empty t) 4 = .ok [1] ∧
    (ParProducer.ofStore (E := UInt8) t.inner).intoIter.collect (StoreOps.readAt FS.empty t.inner) 4
      = .ok [1, 2, 3] :=
  ⟨{ readAt := fun i => i == 1 }, ⟨⟨[1, 2, 3]⟩, 0⟩, by decide +kernel, by decide +kernel⟩

/-! ### The statements are not empty -/

section
attribute [local instance] idealRows

-- a tree over a store whose reads of node 2 fail: it can be built, node 2 cannot be read
example : ∃ t : BaseTree (Faulty { readAt := fun i => i == 2 } (VecStore UInt8)) UInt8,
    ((Source.new (A := toyAlg) [1, 2, 3, 4]).build 2 Sched.sequential none FS.empty).1 = .ok t ∧
    t.readAt FS.empty 2 = .error (.err "I/O error") ∧ (t.readAt FS.empty 3).IsOk ∧
    (t.genProof 2 0 0 FS.empty 3).IsErr ∧ (t.genProof 2 0 0 FS.empty 0).IsOk := by
  refine ⟨_, rfl, by decide +kernel, ⟨_, rfl⟩, ⟨_, rfl⟩, ⟨_, rfl⟩⟩

-- a store whose second write fails: no tree
example : ((Source.new (A := toyAlg) [1, 2, 3, 4]).build (S := Faulty { write := fun n => n == 1 }
    (VecStore UInt8)) 2 Sched.sequential none FS.empty).1 = .error (.err "I/O error") := rfl

-- a failing `new` is a panic in `from_par_iter` (src/merkle.rs:1630) and an `Err` in `new`
example : (∃ m, ((Source.par (A := toyAlg) List.range [1, 2]).build
      (S := Faulty { new := true } (VecStore UInt8)) 2 Sched.sequential none FS.empty).1 = .error (.panic m)) ∧
    ((Source.new (A := toyAlg) [1, 2]).build (S := Faulty { new := true } (VecStore UInt8)) 2
      Sched.sequential none FS.empty).1.IsErr := ⟨⟨_, rfl⟩, ⟨_, rfl⟩⟩

-- the theorem applies to every plan of faults on `VecStore` and `MmapStore`
example (p : FaultPlan) : MayFail (Faulty p (VecStore UInt8)) (VecStore UInt8) UInt8 := inferInstance
example (p : FaultPlan) : MayFail (Faulty p (MmapStore UInt8)) (MmapStore UInt8) UInt8 := inferInstance
-- and, for reads and proofs, on the others
example (p : FaultPlan) : MayFailOps (Faulty p (DiskStore UInt8)) (DiskStore UInt8) UInt8 := inferInstance
end
end Verif
