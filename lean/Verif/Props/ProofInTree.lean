import Verif.Props.ProofEdit
/-
C69: what a valid proof says about a tree that has the same root.
-/
namespace Verif
open Spec

section
variable {E : Type} [Element E] [DecidableEq E] {A : Alg E} {b : Nat}

/-- **C69**, nodes.  Any proof made by `Proof::new` or by setting `sub_tree_proof` that validates and has the root of a tree of the
library (base or compound, of whatever arities and stores).  Followed from the root down, its layers
have the arities of the tree's rows, and its innermost item is the node of the tree that its path leads
to; or the proof goes on below a leaf of the tree, and this leaf is the hash of a list the proof shows;
or two different lists hashed for the tree and for the proof collide.  For every algorithm that ignores
the height argument. -/
theorem C69_node (hA : A.LawfulReset) (hI : A.IgnoresHeight) {shape : List Nat} {leaves : List E} {r : E}
    (ht : TreeRoot A shape leaves r) {p : Proof E} (hp : Obtainable b p)
    (hv : p.validate A b = .ok true) (hr : p.root = .ok r) :
    (proofArities b p <+: shape ∧
      (innermost p).item = .ok (walk (fun ns => A.nodeHash ns 0) shape leaves (proofPath p))) ∨
    (shape <+: proofArities b p ∧ shape.length < (proofArities b p).length ∧
      ∃ z h, (z, h) ∈ proofTranscript A.nodeHash b p ∧
        walk (fun ns => A.nodeHash ns 0) shape leaves ((proofPath p).take shape.length)
          = A.nodeHash z 0) ∨
    ∃ y z h, LayersHashed (fun ns => A.nodeHash ns 0) shape leaves y ∧
      (z, h) ∈ proofTranscript A.nodeHash b p ∧ y ≠ z ∧ A.nodeHash y 0 = A.nodeHash z 0 := by
  obtain ⟨hb, ht'⟩ := C84_trim hp hv
  have := C84_node hA hI ht hb hv hr
  rwa [ht'] at this

/-- **C69**, leaves.  If such a proof has as many layers as the tree has rows above the leaves, then its
arities are those of the tree, its path leads to a leaf of the tree and its innermost item is this leaf,
or two different lists hashed for the tree and for the proof collide. -/
theorem C69_leaf (hA : A.LawfulReset) (hI : A.IgnoresHeight) {shape : List Nat} {leaves : List E} {r : E}
    (ht : TreeRoot A shape leaves r) {p : Proof E} (hp : Obtainable b p)
    (hv : p.validate A b = .ok true) (hr : p.root = .ok r)
    (hd : (proofArities b p).length = shape.length) :
    (proofArities b p = shape ∧ position shape (proofPath p) < leaves.length ∧
      ∃ x, (innermost p).item = .ok x ∧ leaves[position shape (proofPath p)]? = some x) ∨
    ∃ y z h, LayersHashed (fun ns => A.nodeHash ns 0) shape leaves y ∧
      (z, h) ∈ proofTranscript A.nodeHash b p ∧ y ≠ z ∧ A.nodeHash y 0 = A.nodeHash z 0 := by
  obtain ⟨hb, ht'⟩ := C84_trim hp hv
  have := C84_leaf hA hI ht hb hv hr (by rw [ht']; exact hd)
  rwa [ht'] at this

/-- **C69**: two trees with the same arities row for row and the same leaves have the same root, also
when one is a base tree and the other a compound tree; for every algorithm that ignores the height
argument. -/
theorem C69_same_shape {A : Alg E} (hI : A.IgnoresHeight) {shape : List Nat} {leaves : List E} {r r' : E}
    (h : TreeRoot A shape leaves r) (h' : TreeRoot A shape leaves r') : r = r' :=
  (h.layers hI).2.2.trans (h'.layers hI).2.2.symm

end

section
variable {E : Type} [Element E] [LawfulElement E] [DecidableEq E] {σ : Type} {init : σ}
  {write : σ → Bytes → σ} {hash : σ → E × σ} {b : Nat}

/-- **C69**, data.  With the default hash methods and a streaming hasher, a proof that validates, has the
root of a tree over the items `xs` and shows the leaf hash of `e`, has the arities of the tree (so the
depth is bound as well), and `e` is the item at the position its path leads to; or two different byte
strings hashed for the tree and for the proof collide. -/
theorem C69_item (hw : Streaming write) {shape : List Nat} {xs : List E} {r : E}
    (ht : TreeRoot (Alg.ofHasher σ init write hash) shape
      (xs.map (Alg.ofHasher σ init write hash).leafHash) r) {p : Proof E} (hp : Obtainable b p)
    (hv : p.validate (Alg.ofHasher σ init write hash) b = .ok true) (hr : p.root = .ok r) {e : E}
    (he : (innermost p).item = .ok ((Alg.ofHasher σ init write hash).leafHash e)) :
    (proofArities b p = shape ∧ xs[position shape (proofPath p)]? = some e) ∨
    ∃ u v, ShapeHashed (digest init write hash) shape xs u ∧
      (v = leafInput e ∨ ∃ z h, (z, h) ∈ proofTranscript (Alg.ofHasher σ init write hash).nodeHash b p ∧
        v = nodeInput z) ∧
      u ≠ v ∧ digest init write hash u = digest init write hash v := by
  obtain ⟨hb, ht'⟩ := C84_trim hp hv
  have := C84_item hw ht hb hv hr he
  rwa [ht'] at this

/-- **C69**, `validate_with_data` of a base proof: if it answers `true` for the data `d` and the proof
has the root of a tree over the items `xs`, then the tree has the proof's arity in every row, and `d`
hashes to the item at the position the path leads to, or there is a collision. -/
theorem C69_data (hw : Streaming write) {shape : List Nat} {xs : List E} {r : E}
    (ht : TreeRoot (Alg.ofHasher σ init write hash) shape
      (xs.map (Alg.ofHasher σ init write hash).leafHash) r)
    {top subn : Nat} {l : List E} {path : List Nat} (hp : Obtainable b (.base top subn l path))
    {d : HashableVal (Alg.ofHasher σ init write hash)}
    (hv : Proof.validateWithData (Alg.ofHasher σ init write hash) b (.base top subn l path) d = .ok true)
    (hr : (Proof.base top subn l path).root = .ok r) :
    (shape = List.replicate path.length b ∧
      xs[position shape path.reverse]? = some (hash (d init)).1) ∨
    ∃ u v, ShapeHashed (digest init write hash) shape xs u ∧
      (v = leafInput (hash (d init)).1 ∨
        ∃ z h, (z, h) ∈ baseTranscript (Alg.ofHasher σ init write hash).nodeHash b l path ∧
          v = nodeInput z) ∧
      u ≠ v ∧ digest init write hash u = digest init write hash v := by
  unfold Proof.validateWithData at hv
  simp only [bind_ok_iff] at hv
  obtain ⟨x, hx, hv⟩ := hv
  split at hv
  · rename_i hlx
    have he : (innermost (.base top subn l path)).item
        = .ok ((Alg.ofHasher σ init write hash).leafHash (hash (d init)).1) := by
      rw [innermost, hx, ← hlx]
      rfl
    rcases C69_item hw ht hp hv hr he with ⟨h1, h2⟩ | h
    · exact Or.inl ⟨h1.symm, h2⟩
    · exact Or.inr h
  · simp at hv

end

/-- The rows from `l` up are laid out like a tree over the nodes of row `l`. -/
theorem Spec.IsLayout.upper {E : Type} {A : Alg E} (hI : A.IgnoresHeight) {b k l : Nat} (hl : l ≤ k) {leaves : List E}
    {f : Nat → E} (h : IsLayout A.nodeHash b k leaves f) :
    IsLayout A.nodeHash b (k - l) ((List.range (b ^ (k - l))).map fun j => f (rowStart b k l + j))
      fun i => f (rowStart b k l + i) where
  count := by simp
  leaf i hi := by simp
  step m j hm hj := by
    have e : ∀ m, m ≤ k - l → rowStart b k l + rowStart b (k - l) m = rowStart b k (l + m) := by
      intro m
      induction m with
      | zero => intro _; rfl
      | succ m ih =>
        intro hm
        have := ih (by omega)
        rw [show l + (m + 1) = (l + m) + 1 by omega, rowStart, rowStart, ← this,
          show k - (l + m) = k - l - m by omega]
        omega
    have hs := h.step (l + m) j (by omega) (by rw [show k - (l + m + 1) = k - l - (m + 1) by omega]; exact hj)
    rw [← Nat.add_assoc, e (m + 1) (by omega), ← Nat.add_assoc l m 1, hs, hI _ (l + m) m]
    congr 1
    apply List.map_congr_left
    intro c _
    rw [← e m (by omega), Nat.add_assoc]

/-- The depth in C69_leaf cannot be left out, on any tree: `validate` does not know how deep the tree
is.  For every node between the leaves and the root there is a proof, made by `Proof::new`, that
validates with the root of the tree and has this node as its item. -/
theorem C69_depth_every_refuted {S E : Type} [StoreOps S E] [DecidableEq E] {A : Alg E}
    (hA : A.LawfulReset) (hI : A.IgnoresHeight) {b k : Nat} (hb : 2 ≤ b) {leaves : List E} {fs : FS}
    {t : BaseTree S E} (ht : t.IsTreeOf A b k leaves fs) {l j : Nat} (hlk : l < k)
    (hj : j < b ^ (k - l)) :
    ∃ p : Proof E, Obtainable b p ∧ p.validate A b = .ok true ∧ p.root = .ok t.root ∧
      p.item = t.readAt fs (rowStart b k l + j) ∧ (proofArities b p).length = k - l := by
  obtain ⟨f, hf, hr, hroot⟩ := ht.nodes
  have hu := hf.upper hI (Nat.le_of_lt hlk)
  have hn := rowStart_le_nodes b k l (Nat.le_of_lt hlk)
  have hpos := nodes_pos b (k - l)
  refine ⟨honestProof (fun i => f (rowStart b k l + i)) b (k - l) j, ?_, ?_, ?_, ?_, ?_⟩
  · exact .base (honest_new _ hb (by omega) j)
  · exact honest_validates hA hb (.inl hI) hu hj
  · rw [hroot, Proof.root, honestProof, Proof.lem, List.getLast?_append]
    simp only [List.getLast?_singleton, Option.some_or]
    congr 2
    omega
  · rw [hr _ (by have := pow_le_nodes b (k - l); omega)]
    rfl
  · rw [honestProof, proofArities, List.length_replicate, digits_length]

section examples
local instance : FloatRows := idealRows

theorem smallTree_root :
    TreeRoot toyAlg [2, 2] ([1, 2, 3, 4].map toyAlg.leafHash) smallTree.root := by
  obtain ⟨k, _, h⟩ := smallTree_isTree
  have hk : k = 2 := by
    have h1 := h.rows
    have h2 : smallTree.rowCount = 3 := by decide +kernel
    omega
  subst hk
  exact .base (by decide) h

/-- The depth in C69_leaf cannot be left out: `validate` does not know how deep the tree is.  A proof of
one layer, made by `Proof::new`, validates with the root of a tree of two layers; its item is a node of
the tree but none of its leaves. -/
theorem C69_depth_refuted : ∃ (p : Proof UInt8) (x : UInt8),
    TreeRoot toyAlg [2, 2] ([1, 2, 3, 4].map toyAlg.leafHash) smallTree.root ∧ Obtainable 2 p ∧
    p.validate toyAlg 2 = .ok true ∧ p.root = .ok smallTree.root ∧ p.item = .ok x ∧
    x ∉ [1, 2, 3, 4].map toyAlg.leafHash := by
  refine ⟨.base 0 0 [toyAlg.nodeHash ([1, 2].map toyAlg.leafHash) 0,
      toyAlg.nodeHash ([3, 4].map toyAlg.leafHash) 0, smallTree.root] [0], _, smallTree_root,
    .base (top := 0) (subn := 0) (l := [toyAlg.nodeHash ([1, 2].map toyAlg.leafHash) 0,
      toyAlg.nodeHash ([3, 4].map toyAlg.leafHash) 0, smallTree.root]) (path := [0]) (by decide +kernel), ?_, ?_, rfl, ?_⟩ <;> decide +kernel

/-- C69_same_shape needs an algorithm that ignores the height: `from_trees` hashes its top node with
height 1 (src/merkle.rs:560), whatever the height of the trees below.  Here a compound tree over two
trees of four leaves and a base tree of eight, both with two children per node, have different roots. -/
theorem C69_same_shape_height_refuted : ∃ t t' n,
    (BaseTree.new (S := VecStore UInt8) toyAlgH 2 Sched.sequential [1, 2, 3, 4] FS.empty).1 = .ok t ∧
    fromTrees toyAlgH 2 [t, t] = .ok n ∧
    (BaseTree.new (S := VecStore UInt8) toyAlgH 2 Sched.sequential [1, 2, 3, 4, 1, 2, 3, 4] FS.empty).1
      = .ok t' ∧ t'.root ≠ n.root :=
  ⟨_, _, _, rfl, rfl, rfl, by decide +kernel⟩

-- C69_node, C69_leaf, C69_item: the honest proof of the third leaf
example : ∃ p, smallTree.genProof 2 0 0 FS.empty 2 = .ok p ∧ p.validate toyAlg 2 = .ok true ∧
    p.root = .ok smallTree.root ∧ proofArities 2 p = [2, 2] ∧ proofPath p = [1, 0] ∧
    position [2, 2] (proofPath p) = 2 ∧ (innermost p).item = .ok (toyAlg.leafHash 3) :=
  ⟨_, rfl, by decide +kernel⟩
-- C69_data: data whose hash is the third item
example : ∃ p, smallTree.genProof 2 0 0 FS.empty 2 = .ok p ∧
    p.validateWithData toyAlg 2 (fun _ => (3 : UInt8)) = .ok true := ⟨_, rfl, by decide +kernel⟩
-- C69_leaf for a compound tree
example : ∃ n p, fromTrees toyAlg 2 [smallTree, smallTree] = .ok n ∧
    (Tree1.sub n).genProof 2 2 FS.empty 6 = .ok p ∧ proofArities 2 p = [2, 2, 2] ∧
    proofPath p = [1, 1, 0] ∧ position [2, 2, 2] (proofPath p) = 6 := ⟨_, _, rfl, rfl, by decide +kernel⟩

-- C69_depth_every_refuted: the interior node 4 of the small tree as item
example : ∃ p : Proof UInt8, Obtainable 2 p ∧ p.validate toyAlg 2 = .ok true ∧
    p.root = .ok smallTree.root ∧ p.item = smallTree.readAt FS.empty 4 := by
  obtain ⟨k, _, h⟩ := smallTree_isTree
  have hk : k = 2 := by
    have h1 := h.rows
    have h2 : smallTree.rowCount = 3 := by decide +kernel
    omega
  subst hk
  obtain ⟨p, h1, h2, h3, h4, -⟩ := C69_depth_every_refuted (l := 1) (j := 0) toyAlg_reset toyAlg_height
    (by decide) h
    (by decide) (by decide)
  exact ⟨p, h1, h2, h3, h4⟩

end examples
end Verif
