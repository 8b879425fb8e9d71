import Verif.Lemmas.Archive
import Verif.Spec.Toy
import Mathlib.Tactic.IntervalCases
/-
C63: archiving a compound tree (src/merkle.rs:230-304, 1054-1225, src/store/disk.rs:212-289).
-/
set_option linter.unusedSectionVars false
namespace Verif
open Spec StoreOps

section
variable {E : Type} [Element E] [LawfulElement E] [FloatRows] {A : Alg E} {b k : Nat}

/-- **C63.** Compacting every part of a compound tree (version 2) succeeds and touches no other file;
`from_store_configs_and_replica` on the compacted files and the replica then returns a compound tree
with the leaf count and root of the original, and its `gen_cached_proof` returns, for every leaf, the
proof `gen_proof` returned before compaction. -/
theorem C63_compound (hb : Arity b) (hb' : b ≤ buildChunkNodes) (hk : 1 ≤ k)
    (hf : ∀ j, j ≤ k → FloatRows.ExactAt b j) {version : Nat} (hv : version ≠ 1) {path : String}
    {ps : List (ArchivePart E)} {fs : FS} (h : Archivable A b k path ps fs) :
    ∃ fs', compactAll b version ps fs = (true, fs') ∧
      (∀ g, (∀ p ∈ ps, g ≠ p.config.file) → fs'.file g = fs.file g) ∧
      ∀ (sub : Nat) (n : Node (BaseTree (DiskStore E) E) E),
        fromTrees A sub (ps.map ArchivePart.tree) = .ok n →
        ∃ n' : Node (BaseTree (LevelCacheStore E) E) E,
          fromStoreConfigsAndReplica A b sub (b ^ k) (ps.map ArchivePart.config)
            ⟨path, ps.map ArchivePart.offset⟩ fs' = (.ok n', fs') ∧
          ∀ (σ : Sched) (rows : Option Nat), σ.Valid →
            (∀ p ∈ ps, p.config.rowsToDiscard ≤ BaseTree.effectiveDiscard (b ^ k) b rows) →
            Tree1.CachedProofsAgree A b sub σ rows fs fs' (.sub n) (.sub n') := by
  obtain ⟨fs', h1, h2, h3⟩ := compactAll_run hb hk (hf k (by omega)) version (fs := fs) h.tree h.discard
    h.distinct (fun _ _ => rfl)
  obtain ⟨bs, hr, hl⟩ := h.replica
  refine ⟨fs', h1, h3, fun sub n hn => ?_⟩
  obtain ⟨n', us, g1, g2, g3⟩ := openParts hb hk (hf k (by omega)) hv h.discard h2
    (by rw [h3 _ fun p hp => (h.apart p hp).symm]; exact hr) hl hn
  refine ⟨n', g1, fun σ rows hσ hrows => ?_⟩
  refine C28_compound (lss := ps.map ArchivePart.leaves) hn g2 ?_
    (forall₂_map_imp g3 fun p hp u hu => OpenedAs.agree hb hb' hk hf hσ hu (hrows p hp))
  rw [List.forall₂_map_left_iff, List.forall₂_map_right_iff, List.forall₂_same]
  intro p hp
  obtain ⟨f, hf⟩ := h.tree p hp
  exact ⟨k, hk, hf.isTreeOf⟩

/-- **C63** with a top layer: `from_sub_tree_store_configs_and_replica` in the same way returns a tree
with the leaf count, the root and the proofs of `from_sub_trees_as_trees` over the full parts. -/
theorem C63_top (hb : Arity b) (hb' : b ≤ buildChunkNodes) (hk : 1 ≤ k)
    (hf : ∀ j, j ≤ k → FloatRows.ExactAt b j) {version : Nat} (hv : version ≠ 1) {path : String}
    {ps : List (ArchivePart E)} {fs : FS} (h : Archivable A b k path ps fs) :
    ∃ fs', compactAll b version ps fs = (true, fs') ∧
      (∀ g, (∀ p ∈ ps, g ≠ p.config.file) → fs'.file g = fs.file g) ∧
      ∀ (sub top : Nat) (n : Node (Tree1 (DiskStore E) E) E),
        fromSubTreesAsTrees A sub top (ps.map ArchivePart.tree) = .ok n →
        ∃ n' : Node (Tree1 (LevelCacheStore E) E) E,
          fromSubTreeStoreConfigsAndReplica A b sub top (b ^ k) (ps.map ArchivePart.config)
            ⟨path, ps.map ArchivePart.offset⟩ fs' = (.ok n', fs') ∧
          ∀ (σ : Sched) (rows : Option Nat), σ.Valid →
            (∀ p ∈ ps, p.config.rowsToDiscard ≤ BaseTree.effectiveDiscard (b ^ k) b rows) →
            n'.leafs = n.leafs ∧ n'.root = n.root ∧ ∀ i, i < n.leafs →
              ∃ p, (Tree2.top n).genProof b sub top fs i = .ok p ∧
                (Tree2.top n').genCachedProof A b sub top σ i rows fs' = (.ok p, fs') := by
  obtain ⟨fs', h1, h2, h3⟩ := compactAll_run hb hk (hf k (by omega)) version (fs := fs) h.tree h.discard
    h.distinct (fun _ _ => rfl)
  obtain ⟨bs, hr, hl⟩ := h.replica
  refine ⟨fs', h1, h3, fun sub top n hn => ?_⟩
  obtain ⟨n', xs, us, g1, g2, g3, hmem, g4⟩ := openPartsTop hb hk (hf k (by omega)) hv h.discard h2
    (by rw [h3 _ fun p hp => (h.apart p hp).symm]; exact hr) hl hn
  refine ⟨n', g1, fun σ rows hσ hrows => ?_⟩
  have htrees : ∀ x ∈ xs, List.Forall₂ (BaseTree.IsTree A b fs) (x.1.map ArchivePart.tree)
      (x.1.map ArchivePart.leaves) := by
    intro x hx
    rw [List.forall₂_map_left_iff, List.forall₂_map_right_iff, List.forall₂_same]
    intro p hp
    obtain ⟨f, hf⟩ := h.tree p (hmem x hx p hp)
    exact ⟨k, hk, hf.isTreeOf⟩
  have hok : ∀ x ∈ xs, fromTrees A sub (x.1.map ArchivePart.tree) = .ok x.2 := fun x hx => by
    obtain ⟨_, _, hg⟩ := Forall₂.exists_right g4 hx; exact hg.1
  refine C28_compound_top (lss := xs.map fun x => (x.1.map ArchivePart.leaves).flatten) hb g2 g3 ?_ ?_
  · rw [List.forall₂_map_left_iff, List.forall₂_map_right_iff, List.forall₂_same]
    intro x hx
    exact ⟨_, _, _, rfl, hok x hx, htrees x hx, rfl⟩
  · refine forall₂_map_imp g4 fun x hx u hu => ?_
    obtain ⟨e, m, vs, rfl, e2, e3⟩ := hu
    exact C28_compound e e2 (htrees x hx) (forall₂_map_imp e3 fun p hp u hu =>
      OpenedAs.agree hb hb' hk hf hσ hu (hrows p (hmem x hx p hp)))

end

/-! Concrete instances: four trees of four leaves, one row discarded in the first two and none in the
others, the leaves in the replica `r` in another order than the trees. -/
section
attribute [local instance] idealRows

def toyPart (id : String) (d o : Nat) (nodes : List UInt8) : ArchivePart UInt8 :=
  ⟨⟨⟨7, (StoreConfig.new "d" id d).file, false, 7⟩, 4, 7, 3, nodes.getD 6 0⟩, .new "d" id d, nodes.take 4, o⟩
def toyNodesA : List UInt8 := [72, 73, 74, 75, 91, 155, 250]
def toyNodesB : List UInt8 := [76, 77, 78, 81, 219, 29, 252]

def toyParts : List (ArchivePart UInt8) :=
  [toyPart "a" 1 5 toyNodesA, toyPart "b" 1 1 toyNodesB, toyPart "c" 0 5 toyNodesA, toyPart "e" 0 1 toyNodesB]

def toyPartsFs : FS :=
  ((((FS.empty.set (StoreConfig.new "d" "a" 1).file (some toyNodesA)).set
    (StoreConfig.new "d" "b" 1).file (some toyNodesB)).set
    (StoreConfig.new "d" "c" 0).file (some toyNodesA)).set
    (StoreConfig.new "d" "e" 0).file (some toyNodesB)).set
    (.named "r") (some [0, 76, 77, 78, 81, 72, 73, 74, 75])

theorem toyPart_isFileTree {id : String} {d o : Nat} {ns : List UInt8}
    (hn : ns = toyNodesA ∨ ns = toyNodesB)
    (h : toyPartsFs.file (StoreConfig.new "d" id d).file = some ns) :
    ∃ f, (toyPart id d o ns).tree.IsFileTree toyAlg 2 2 (toyPart id d o ns).leaves f
      (toyPart id d o ns).config toyPartsFs := by
  refine ⟨fun i => ns.getD i 0, rfl, rfl, rfl, ⟨?_, ?_, ?_⟩, ?_, rfl, rfl, ?_⟩
  · rcases hn with rfl | rfl <;> rfl
  · intro i hi
    have hi' : i < 4 := by rcases hn with rfl | rfl <;> exact hi
    rcases hn with rfl | rfl <;> interval_cases i <;> rfl
  · intro l j hl hj
    interval_cases l
    · have hj' : j < 2 := hj
      rcases hn with rfl | rfl <;> interval_cases j <;> decide +kernel
    · have hj' : j < 1 := hj
      rcases hn with rfl | rfl <;> interval_cases j <;> decide +kernel
  · rcases hn with rfl | rfl <;> rfl
  · rw [show (toyPart id d o ns).config.file = (StoreConfig.new "d" id d).file from rfl, h]
    rcases hn with rfl | rfl <;> decide +kernel

/-- The hypotheses of C63 can be met. -/
theorem toyParts_archivable : Archivable toyAlg 2 2 "r" toyParts toyPartsFs where
  tree p hp := by
    simp only [toyParts, List.mem_cons, List.not_mem_nil, or_false] at hp
    rcases hp with rfl | rfl | rfl | rfl
    · exact toyPart_isFileTree (.inl rfl) (by decide +kernel)
    · exact toyPart_isFileTree (.inr rfl) (by decide +kernel)
    · exact toyPart_isFileTree (.inl rfl) (by decide +kernel)
    · exact toyPart_isFileTree (.inr rfl) (by decide +kernel)
  discard p hp := by
    simp only [toyParts, List.mem_cons, List.not_mem_nil, or_false] at hp
    rcases hp with rfl | rfl | rfl | rfl <;> decide
  distinct := by decide +kernel
  apart p hp := by
    simp only [toyParts, List.mem_cons, List.not_mem_nil, or_false] at hp
    rcases hp with rfl | rfl | rfl | rfl <;> decide +kernel
  replica := ⟨_, rfl, fun p hp => by
    simp only [toyParts, List.mem_cons, List.not_mem_nil, or_false] at hp
    rcases hp with rfl | rfl | rfl | rfl <;> decide +kernel⟩

/-- The root and the proofs of the full tree with a top layer of two groups of two parts. -/
def toyTopFull : Option (UInt8 × List (Option (Proof UInt8))) :=
  match fromSubTreesAsTrees toyAlg 2 2 (toyParts.map ArchivePart.tree) with
  | .ok n => some (n.root, (List.range n.leafs).map fun i => match (Tree2.top n).genProof 2 2 2 toyPartsFs i with
    | .ok p => some p
    | .error _ => none)
  | .error _ => none

/-- The same for the archived tree. -/
def toyTopArchived : Option (UInt8 × List (Option (Proof UInt8))) :=
  match compactAll 2 2 toyParts toyPartsFs with
  | (true, fs) => match fromSubTreeStoreConfigsAndReplica toyAlg 2 2 2 4 (toyParts.map ArchivePart.config)
      ⟨"r", toyParts.map ArchivePart.offset⟩ fs with
    | (.ok n, fs) => some (n.root, (List.range n.leafs).map fun i =>
        match (Tree2.top n).genCachedProof toyAlg 2 2 2 Sched.sequential i (some 1) fs with
        | (.ok p, _) => some p
        | _ => none)
    | _ => none
  | _ => none
example : toyTopArchived = toyTopFull := by decide +kernel
example : (toyTopFull.map fun x => x.2.length) = some 16 := by decide +kernel
example : (toyTopFull.bind fun x => x.2[13]?) = some (some
    (.nested (.nested (.base 0 0 [77, 76, 29, 252] [1, 0]) 0 2 [250, 156] [1]) 2 2 [156, 218] [1])) := by
  decide +kernel
example : BaseTree.effectiveDiscard (2 ^ 2) 2 (some 1) = 1 := by decide +kernel

end
end Verif
