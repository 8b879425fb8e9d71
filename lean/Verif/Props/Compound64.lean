import Verif.Lemmas.CompoundBuild64
import Verif.Props.Cached64
/-
C74: compound trees on 64-bit words (src/merkle.rs:376-640 and 1060-1110, 1355-1510).

A compound tree adds up the leaves of its children, multiplies the nodes of one of them by their number, and takes
one row more.
-/
namespace Verif
open Spec

/-! ### Assembling given trees -/
section assemble
variable {S' S E : Type} [Element E] [StoreOps S' E] [StoreOps S E] {w : S → S'} {o : Overflow}
  (hw : ∀ s : S, StoreOps.len (E := E) (w s) = StoreOps.len (E := E) s) (A : Alg E)
include hw

/-- C74 for `from_trees`, over whatever trees, with whatever number of children. -/
theorem C74_from_trees (sub : Nat) (cs : List (BaseTree S E))
    (h1 : cs.length = sub → (cs.map BaseTree.leafs).sum < wordSize)
    (h2 : cs.length = sub → ∀ c ∈ cs, c.length * cs.length + 1 < wordSize)
    (h3 : ∀ c ∈ cs, c.rowCount + 1 < wordSize) :
    fromTrees64 o A sub (cs.map (BaseTree.mapStore w)) =
      (fromTrees A sub cs).map (Node.mapChildren (BaseTree.mapStore w)) :=
  fromTrees64_eq hw A sub cs h1 h2 h3

/-- C74 for `from_sub_trees`. -/
theorem C74_from_sub_trees (top : Nat) (cs : List (Tree1 S E))
    (h1 : cs.length = top → (cs.map Tree1.leafs).sum < wordSize)
    (h2 : cs.length = top → ∀ c ∈ cs, c.length * cs.length + 1 < wordSize)
    (h3 : ∀ c ∈ cs, c.rowCount + 1 < wordSize) :
    fromSubTrees64 o A top (cs.map (Tree1.mapStore w)) =
      (fromSubTrees A top cs).map (Node.mapChildren (Tree1.mapStore w)) :=
  fromSubTrees64_eq hw A top cs h1 h2 h3

/-- C74 for `from_sub_trees_as_trees`, which also multiplies the two arities. -/
theorem C74_from_sub_trees_as_trees (sub top : Nat) (cs : List (BaseTree S E)) (h0 : top * sub < wordSize)
    (h1 : (cs.map BaseTree.leafs).sum < wordSize)
    (h2 : ∀ c ∈ cs, c.length * (top * sub) + top + 1 < wordSize)
    (h3 : ∀ c ∈ cs, c.rowCount + 2 < wordSize) :
    fromSubTreesAsTrees64 o A sub top (cs.map (BaseTree.mapStore w)) =
      (fromSubTreesAsTrees A sub top cs).map (Node.mapChildren (Tree1.mapStore w)) :=
  fromSubTreesAsTrees64_eq hw A sub top cs h0 h1 h2 h3

end assemble

/-! ### Making the stores -/
section build
variable {E : Type} [Element E] [LawfulElement E] [FloatRows] {o : Overflow} {b n : Nat}

theorem LayersRunAs.of_canBuild {S' S : Type} [Store S' E] [Store S E] {w : S → S'} {W : Nat}
    (hC : CanBuild S' S (E := E) w n b W) (hW : 2 ^ 63 - Element.byteLen E ≤ W * Element.byteLen E)
    (hw : ∀ s : S, StoreOps.len (E := E) (w s) = StoreOps.len (E := E) s)
    (hr : merkleTreeRowCount n b + 2 < wordSize) : LayersRunAs E o w b n where
  slices A _ datas hn hd := ((fromSlices64_sim hC hw A hn (by omega) datas
    fun d hm => by have := hd d hm; omega).relax fun _ _ h => h.1).run_eq
  slicesWithConfigs A _ datas cs hn hd := ((fromSlicesWithConfigs64_sim hC hw A hn (by omega) datas
    (fun d hm => by have := hd d hm; omega) cs).relax fun _ _ h => h.1).run_eq
  configs A _ cs hn := ((fromStoreConfigs64_sim hC hw A hn (by omega) cs).relax fun _ _ h => h.1).run_eq
  subConfigs A _ _ cs hn := (fromSubTreeStoreConfigs64_sim hC hw A hn hr cs).run_eq

variable (hb : b ≤ 2 ^ 63) (hb1 : b ≠ 1) (hn : 2 * n * Element.byteLen E ≤ 2 ^ 63)
  (hblk : buildDataBlockSize * Element.byteLen E < 2 ^ 63) (hr : merkleTreeRowCount n b + 2 < wordSize)
include hb hb1 hn hblk

theorem WordSizes.of_max : ∃ W, 2 ^ 63 - Element.byteLen E ≤ W * Element.byteLen E ∧ WordSizes E n b W := by
  have hl : Element.byteLen E ≤ 2 ^ 63 :=
    Nat.le_trans (Nat.le_mul_of_pos_left _ (by decide : 0 < buildDataBlockSize)) (Nat.le_of_lt hblk)
  exact WordSizes.of_slice hb hb1 hn (l := 2 ^ 63 - Element.byteLen E) (by omega) hblk

include hr

/-- C74, the constructors of compound trees on `VecStore`. -/
theorem C74_vec : LayersRunAs E o (Vec64.mk (o := o) (E := E)) b n := by
  obtain ⟨W, h1, h2⟩ := WordSizes.of_max hb hb1 hn hblk
  exact .of_canBuild h2.vec h1 (fun _ => rfl) hr

/-- C74, the constructors of compound trees on `MmapStore`. -/
theorem C74_mmap : LayersRunAs E o (Mmap64.mk (o := o) (E := E)) b n := by
  obtain ⟨W, h1, h2⟩ := WordSizes.of_max hb hb1 hn hblk
  exact .of_canBuild h2.mmap h1 (fun _ => rfl) hr

/-- C74, the constructors of compound trees on `DiskStore`. -/
theorem C74_disk : LayersRunAs E o (Disk64.mk (o := o) (E := E)) b n := by
  obtain ⟨W, h1, h2⟩ := WordSizes.of_max hb hb1 hn hblk
  exact .of_canBuild h2.disk h1 (fun _ => rfl) hr

/-- C74, the constructors of compound trees on `LevelCacheStore`. -/
theorem C74_level_cache (hK : CacheFits n b) : LayersRunAs E o (LevelCache64.mk (o := o) (E := E)) b n := by
  obtain ⟨W, h1, h2⟩ := WordSizes.of_max hb hb1 hn hblk
  exact .of_canBuild (h2.levelCache hK) h1 (fun _ => rfl) hr

/-- C74, the constructors that open one replica for all the base trees, with one layer of sub-trees and with two. -/
theorem C74_replica (hK : CacheFits n b) (A : Alg E) (cs : List StoreConfig) (rc : ReplicaConfig)
    (hrc : ∀ x ∈ rc.offsets, x + 2 * n * Element.byteLen E ≤ wordSize) :
    (∀ sub, 2 * (n * sub) < wordSize → M.RunsAs (Node.mapChildren (BaseTree.mapStore LevelCache64.mk))
      (fromStoreConfigsAndReplica64 o A b sub n cs rc) (fromStoreConfigsAndReplica A b sub n cs rc)) ∧
    ∀ sub top, 2 * (n * sub * top) + 1 < wordSize →
      M.RunsAs (Node.mapChildren (Tree1.mapStore LevelCache64.mk))
        (fromSubTreeStoreConfigsAndReplica64 o A b sub top n cs rc)
        (fromSubTreeStoreConfigsAndReplica A b sub top n cs rc) := by
  obtain ⟨W, -, h2⟩ := WordSizes.of_max hb hb1 hn hblk
  exact ⟨fun sub hs => ((fromStoreConfigsAndReplica64_sim h2 hK A hs (by omega) cs rc hrc).relax
      fun _ _ h => h.1).run_eq,
    fun sub top hs => (fromSubTreeStoreConfigsAndReplica64_sim h2 hK A hs hr cs rc hrc).run_eq⟩

end build

/-! ### Over given stores -/
section stores
variable {E : Type} [Element E] [LawfulElement E] [FloatRows] {o : Overflow} {b n sub : Nat} (hb : b ≤ 2 ^ 63)
  (hb1 : b ≠ 1) (hn : n < 2 ^ 63) (hsub : 2 * (n * sub) < wordSize) (hr : merkleTreeRowCount n b + 1 < wordSize)
  (A : Alg E)
include hb hb1 hn hsub hr

/-- C74, `from_stores` on `VecStore`. -/
theorem C74_from_stores_vec (ss : List (VecStore E)) :
    M.RunsAs (Node.mapChildren (BaseTree.mapStore Vec64.mk))
      (fromStores64 o A b sub n (ss.map (Vec64.mk (o := o)))) (fromStores A b sub n ss) :=
  ((fromStores64_sim (w := Vec64.mk) hn hb hb1 (fun _ => rfl) A hsub hr ss fun _ _ fs =>
    last64_of fs rfl fun _ _ => rfl).relax fun _ _ h => h.1).run_eq

/-- C74, `from_stores` on `MmapStore`. -/
theorem C74_from_stores_mmap (ss : List (MmapStore E)) (hs : ∀ s ∈ ss, s.len * Element.byteLen E < 2 ^ 63) :
    M.RunsAs (Node.mapChildren (BaseTree.mapStore Mmap64.mk))
      (fromStores64 o A b sub n (ss.map (Mmap64.mk (o := o)))) (fromStores A b sub n ss) := by
  have := half_lt_word
  refine ((fromStores64_sim (w := Mmap64.mk) hn hb hb1 (fun _ => rfl) A hsub hr ss fun s hm fs =>
    last64_of fs rfl fun i hi => ?_).relax fun _ _ h => h.1).run_eq
  have h1 := hs s hm
  have : (i + 1) * Element.byteLen E ≤ s.len * Element.byteLen E := Nat.mul_le_mul_right _ hi
  exact Mmap64.readAt_eq fs (by omega) (by omega)

/-- C74, `from_stores` on `DiskStore`. -/
theorem C74_from_stores_disk (ss : List (DiskStore E)) (hs : ∀ s ∈ ss, s.len * Element.byteLen E < 2 ^ 63) :
    M.RunsAs (Node.mapChildren (BaseTree.mapStore Disk64.mk))
      (fromStores64 o A b sub n (ss.map (Disk64.mk (o := o)))) (fromStores A b sub n ss) := by
  have := half_lt_word
  refine ((fromStores64_sim (w := Disk64.mk) hn hb hb1 (fun _ => rfl) A hsub hr ss fun s hm fs =>
    last64_of fs rfl fun i hi => ?_).relax fun _ _ h => h.1).run_eq
  have h1 := hs s hm
  have : (i + 1) * Element.byteLen E ≤ s.len * Element.byteLen E := Nat.mul_le_mul_right _ hi
  exact Disk64.readAt_eq fs h1 (by omega)

/-- C74, `from_stores` on `LevelCacheStore`. -/
theorem C74_from_stores_level_cache (ss : List (LevelCacheStore E)) (hs : ∀ s ∈ ss, LevelCache64.Fits s) :
    M.RunsAs (Node.mapChildren (BaseTree.mapStore LevelCache64.mk))
      (fromStores64 o A b sub n (ss.map (LevelCache64.mk (o := o)))) (fromStores A b sub n ss) := by
  have := half_lt_word
  refine ((fromStores64_sim (w := LevelCache64.mk) hn hb hb1 (fun _ => rfl) A hsub hr ss fun s hm fs =>
    last64_of fs rfl fun i hi => ?_).relax fun _ _ h => h.1).run_eq
  have h1 := (hs s hm).len
  have : (i + 1) * Element.byteLen E ≤ s.len * Element.byteLen E := Nat.mul_le_mul_right _ hi
  exact LevelCache64.readAt_eq fs (hs s hm) (by omega)

end stores

/-! ### Proofs -/
section proofs
variable {E : Type} [Element E] [LawfulElement E] {o : Overflow} {b k : Nat}

theorem Tree2.AllBase.imp {S : Type} {P Q : BaseTree S E → Prop} (h : ∀ t, P t → Q t) :
    ∀ {t : Tree2 S E}, t.AllBase P → t.AllBase Q
  | .base _, ht => h _ ht
  | .sub _, ht => fun c hc => h c (ht c hc)
  | .top _, ht => fun c hc => by
    have := ht c hc
    cases c with
    | base c => exact h _ this
    | sub c => exact fun d hd => h d (this d hd)

section full
variable (hb : Arity b) (hk : 1 ≤ k) (hw : nodes b k * Element.byteLen E < 2 ^ 63) (sub top : Nat) (fs : FS)
  (i : Nat)
include hb hk hw

/-- C74 for `gen_proof` of a tree of any shape whose base trees have `b ^ k` leaves, on `VecStore`. -/
theorem C74_gen_proof_vec {t : Tree2 (VecStore E) E} (ht : t.AllBase (BaseTree.FullSizes b k)) :
    (t.mapStore Vec64.mk : Tree2 (Vec64 o E) E).genProof64 o b sub top fs i = t.genProof b sub top fs i := by
  have h63 := half_lt_word
  have hn : nodes b k ≤ nodes b k * Element.byteLen E := Nat.le_mul_of_pos_right _ LawfulElement.byteLen_pos
  exact Tree2.genProof64_eq hb hk (by omega) sub top fs t i (ht.imp fun _ h => SameReads.vec h)

/-- C74 for `gen_proof` on `MmapStore`. -/
theorem C74_gen_proof_mmap {t : Tree2 (MmapStore E) E} (ht : t.AllBase (BaseTree.FullSizes b k)) :
    (t.mapStore Mmap64.mk : Tree2 (Mmap64 o E) E).genProof64 o b sub top fs i = t.genProof b sub top fs i := by
  have h63 := half_lt_word
  have hn : nodes b k ≤ nodes b k * Element.byteLen E := Nat.le_mul_of_pos_right _ LawfulElement.byteLen_pos
  exact Tree2.genProof64_eq hb hk (by omega) sub top fs t i (ht.imp fun _ h => SameReads.mmap h hw)

/-- C74 for `gen_proof` on `DiskStore`. -/
theorem C74_gen_proof_disk {t : Tree2 (DiskStore E) E} (ht : t.AllBase (BaseTree.FullSizes b k)) :
    (t.mapStore Disk64.mk : Tree2 (Disk64 o E) E).genProof64 o b sub top fs i = t.genProof b sub top fs i := by
  have h63 := half_lt_word
  have hn : nodes b k ≤ nodes b k * Element.byteLen E := Nat.le_mul_of_pos_right _ LawfulElement.byteLen_pos
  exact Tree2.genProof64_eq hb hk (by omega) sub top fs t i (ht.imp fun _ h => SameReads.disk h hw)

/-- C74 for `gen_proof` on `LevelCacheStore`. -/
theorem C74_gen_proof_level_cache {t : Tree2 (LevelCacheStore E) E}
    (ht : t.AllBase fun c => c.FullSizes b k ∧ LevelCache64.Fits c.store) :
    (t.mapStore LevelCache64.mk : Tree2 (LevelCache64 o E) E).genProof64 o b sub top fs i =
      t.genProof b sub top fs i := by
  have h63 := half_lt_word
  have hn : nodes b k ≤ nodes b k * Element.byteLen E := Nat.le_mul_of_pos_right _ LawfulElement.byteLen_pos
  exact Tree2.genProof64_eq hb hk (by omega) sub top fs t i (ht.imp fun _ h => SameReads.levelCache h.1 h.2)

end full

section cached
variable [FloatRows] (hb : Arity b) (hk : 1 ≤ k) (hf : FloatRows.ExactAt b k) {rows : Option Nat}
  (hf' : FloatRows.ExactAt b (k - 1 - BaseTree.effectiveDiscard (b ^ k) b rows))
  (hw : 2 * b ^ k * Element.byteLen E ≤ 2 ^ 63) (hblk : buildDataBlockSize * Element.byteLen E < 2 ^ 63)
  (A : Alg E) {σ : Sched} (hσ : σ.Valid) (sub top i : Nat)
include hb hk hf hf' hw hblk hσ

/-- C74 for `gen_cached_proof` of a tree of any shape whose base trees have `b ^ k` leaves, on `DiskStore`. -/
theorem C74_cached_proof_disk {t : Tree2 (DiskStore E) E} (ht : t.AllBase (BaseTree.FullSizes b k)) :
    (t.mapStore Disk64.mk : Tree2 (Disk64 o E) E).genCachedProof64 o A b sub top σ i rows =
      t.genCachedProof A b sub top σ i rows := by
  have h := Nat.mul_le_mul_right (Element.byteLen E) (nodes_le_twice hb.two_le k)
  rw [Nat.add_mul] at h
  have hp := LawfulElement.byteLen_pos (E := E)
  exact Tree2.genCachedProof64_eq hb hk hf hf' hw hblk A hσ sub top t i
    (ht.imp fun _ h => SameReads.disk h (by omega))

/-- C74 for `gen_cached_proof` on `LevelCacheStore`, which is what the compound trees with a replica use. -/
theorem C74_cached_proof_level_cache {t : Tree2 (LevelCacheStore E) E}
    (ht : t.AllBase fun c => c.FullSizes b k ∧ LevelCache64.Fits c.store) :
    (t.mapStore LevelCache64.mk : Tree2 (LevelCache64 o E) E).genCachedProof64 o A b sub top σ i rows =
      t.genCachedProof A b sub top σ i rows :=
  Tree2.genCachedProof64_eq hb hk hf hf' hw hblk A hσ sub top t i
    (ht.imp fun _ h => SameReads.levelCache h.1 h.2)

/-- C74 for `gen_cached_proof` on `VecStore`. -/
theorem C74_cached_proof_vec {t : Tree2 (VecStore E) E} (ht : t.AllBase (BaseTree.FullSizes b k)) :
    (t.mapStore Vec64.mk : Tree2 (Vec64 o E) E).genCachedProof64 o A b sub top σ i rows =
      t.genCachedProof A b sub top σ i rows :=
  Tree2.genCachedProof64_eq hb hk hf hf' hw hblk A hσ sub top t i (ht.imp fun _ h => SameReads.vec h)

/-- C74 for `gen_cached_proof` on `MmapStore`. -/
theorem C74_cached_proof_mmap {t : Tree2 (MmapStore E) E} (ht : t.AllBase (BaseTree.FullSizes b k)) :
    (t.mapStore Mmap64.mk : Tree2 (Mmap64 o E) E).genCachedProof64 o A b sub top σ i rows =
      t.genCachedProof A b sub top σ i rows := by
  have h := Nat.mul_le_mul_right (Element.byteLen E) (nodes_le_twice hb.two_le k)
  rw [Nat.add_mul] at h
  have hp := LawfulElement.byteLen_pos (E := E)
  exact Tree2.genCachedProof64_eq hb hk hf hf' hw hblk A hσ sub top t i
    (ht.imp fun _ h => SameReads.mmap h (by omega))

end cached
end proofs

/-! ### The hypotheses can be met -/
section examples
attribute [local instance] idealRows

theorem toyFull_sizes : (toyCachedFull 1).FullSizes 2 2 :=
  ⟨by decide +kernel, by decide +kernel, by decide +kernel⟩

/-- Two copies of the tree in a file of `Props/CachedProof`. -/
example (o : Overflow) :
    fromTrees64 o toyAlg 2 ([toyCachedFull 1, toyCachedFull 1].map (BaseTree.mapStore (Disk64.mk (o := o)))) =
      (fromTrees toyAlg 2 [toyCachedFull 1, toyCachedFull 1]).map
        (Node.mapChildren (BaseTree.mapStore Disk64.mk)) :=
  C74_from_trees (w := Disk64.mk (o := o) (E := UInt8)) (fun _ => rfl) toyAlg 2
    [toyCachedFull 1, toyCachedFull 1] (by decide +kernel) (by decide +kernel)
    (by decide +kernel)

/-- Four copies of it, and then two layers on top. -/
example (o : Overflow) :
    fromSubTreesAsTrees64 o toyAlg 2 2
        ((List.replicate 4 (toyCachedFull 1)).map (BaseTree.mapStore (Disk64.mk (o := o)))) =
      (fromSubTreesAsTrees toyAlg 2 2 (List.replicate 4 (toyCachedFull 1))).map
        (Node.mapChildren (Tree1.mapStore Disk64.mk)) :=
  C74_from_sub_trees_as_trees (w := Disk64.mk (o := o) (E := UInt8)) (fun _ => rfl) toyAlg 2 2
    (List.replicate 4 (toyCachedFull 1)) (by decide +kernel)
    (by decide +kernel) (by decide +kernel) (by decide +kernel)

/-- Base trees of four leaves of one byte. -/
example (o : Overflow) : LayersRunAs UInt8 o (Disk64.mk (o := o) (E := UInt8)) 2 4 :=
  C74_disk (by decide) (by decide) (by decide) (by decide) (by decide +kernel)

theorem cacheFits_four : CacheFits 4 2 where
  full := ⟨2, by decide, by decide⟩
  rows m hm _ := by rw [merkleTreeRowCount, if_pos rfl]; exact log2Pow2_even (by omega)

example (o : Overflow) : LayersRunAs UInt8 o (LevelCache64.mk (o := o) (E := UInt8)) 2 4 :=
  C74_level_cache (by decide) (by decide) (by decide) (by decide) (by decide +kernel) cacheFits_four

/-- Two base trees of four leaves over one replica. -/
example (o : Overflow) (cs : List StoreConfig) :
    M.RunsAs (Node.mapChildren (BaseTree.mapStore LevelCache64.mk))
      (fromStoreConfigsAndReplica64 o toyAlg 2 2 4 cs ⟨"r", [0, 4]⟩)
      (fromStoreConfigsAndReplica toyAlg 2 2 4 cs ⟨"r", [0, 4]⟩) :=
  (C74_replica (by decide) (by decide) (by decide) (by decide) (by decide +kernel) cacheFits_four toyAlg cs _
    (by decide +kernel)).1 2 (by decide)

example (o : Overflow) (fs : FS) (i : Nat) (root : UInt8) :
    ((Tree2.sub ⟨[toyCachedFull 1, toyCachedFull 1], 8, 15, 4, root⟩).mapStore Disk64.mk :
        Tree2 (Disk64 o UInt8) UInt8).genProof64 o 2 2 0 fs i =
      (Tree2.sub ⟨[toyCachedFull 1, toyCachedFull 1], 8, 15, 4, root⟩).genProof 2 2 0 fs i :=
  C74_gen_proof_disk (k := 2) ⟨1, by decide, rfl⟩ (by decide) (by decide) 2 0 fs i
    (fun c hc => by
      have : c = toyCachedFull 1 := by
        rcases List.mem_cons.1 hc with h | h
        · exact h
        · exact List.mem_singleton.1 h
      rw [this]; exact toyFull_sizes)

end examples
end Verif
