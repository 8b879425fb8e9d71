import Verif.Lemmas.Shape
import Verif.Props.Compound
/-
C59: what the root of a compound tree says about the items below it.
-/
namespace Verif
open Spec

section
variable {E : Type} [Element E] {σ : Type} {init : σ} {write : σ → Bytes → σ} {hash : σ → E × σ}

/-- **C59**, the root: with the default hash methods and a streaming hasher, the root of a base tree, of
a tree made by `from_trees` and of a tree made by `from_sub_trees`, built over the items `xs`, is the
root of the tree over `xs` whose rows have the arities of its layers. -/
theorem C59_root (hw : Streaming write) {shape : List Nat} {xs : List E} {r : E}
    (h : TreeRoot (Alg.ofHasher σ init write hash) shape
      (xs.map (Alg.ofHasher σ init write hash).leafHash) r) :
    xs.length = shape.prod ∧ r = shapeRoot (digest init write hash) shape xs :=
  ⟨(h.eq hw rfl).1, (h.eq hw rfl).2.2⟩

/-- **C59**.  Two trees, each a base tree or a compound tree of whatever arities, sizes and stores, that
have the same root have the same arities row for row and were built over the same items, or two
different byte strings hashed in the two trees collide. -/
theorem C59_binding [LawfulElement E] (hw : Streaming write) {shape shape' : List Nat} {xs ys : List E}
    {r : E}
    (h : TreeRoot (Alg.ofHasher σ init write hash) shape
      (xs.map (Alg.ofHasher σ init write hash).leafHash) r)
    (h' : TreeRoot (Alg.ofHasher σ init write hash) shape'
      (ys.map (Alg.ofHasher σ init write hash).leafHash) r) :
    (shape = shape' ∧ xs = ys) ∨
      ∃ x y, ShapeHashed (digest init write hash) shape xs x ∧
        ShapeHashed (digest init write hash) shape' ys y ∧ x ≠ y ∧
        digest init write hash x = digest init write hash y := by
  obtain ⟨a1, a2, a3⟩ := h.eq hw rfl
  obtain ⟨b1, b2, b3⟩ := h'.eq hw rfl
  exact shapeRoot_binds _ _ _ _ a2 b2 a1 b1 (a3.symm.trans b3)

/-- **C59** for two trees made by `from_sub_trees`: all three arities are bound as well. -/
theorem C59_top [LawfulElement E] (hw : Streaming write) {S S' : Type} [StoreOps S E] [StoreOps S' E]
    {b sub top b' sub' top' : Nat} (hb : 0 < b) (hb' : 0 < b') {fs fs' : FS} {cs : List (Tree1 S E)}
    {cs' : List (Tree1 S' E)} {t : Node (Tree1 S E) E} {t' : Node (Tree1 S' E) E}
    {lss lss' : List (List E)} {xs ys : List E}
    (h : fromSubTrees (Alg.ofHasher σ init write hash) top cs = .ok t)
    (hcs : List.Forall₂ (Tree1.IsCompound (Alg.ofHasher σ init write hash) b sub fs) cs lss)
    (hx : lss.flatten = xs.map (Alg.ofHasher σ init write hash).leafHash)
    (h' : fromSubTrees (Alg.ofHasher σ init write hash) top' cs' = .ok t')
    (hcs' : List.Forall₂ (Tree1.IsCompound (Alg.ofHasher σ init write hash) b' sub' fs') cs' lss')
    (hy : lss'.flatten = ys.map (Alg.ofHasher σ init write hash).leafHash) (hr : t.root = t'.root) :
    (b = b' ∧ sub = sub' ∧ top = top' ∧ xs = ys) ∨
      ∃ shape shape' x y, ShapeHashed (digest init write hash) shape xs x ∧
        ShapeHashed (digest init write hash) shape' ys y ∧ x ≠ y ∧
        digest init write hash x = digest init write hash y := by
  obtain ⟨k, hk, hrk, _⟩ := fromSubTrees_shapeRoot hw h hcs hx.symm
  obtain ⟨k', hk', hrk', _⟩ := fromSubTrees_shapeRoot hw h' hcs' hy.symm
  have g : TreeRoot (Alg.ofHasher σ init write hash) _ _ t.root := TreeRoot.top hb h hcs
  have g' : TreeRoot (Alg.ofHasher σ init write hash) _ _ t'.root := TreeRoot.top hb' h' hcs'
  rw [hx, hrk, Nat.add_sub_cancel] at g
  rw [hy, hrk', Nat.add_sub_cancel, ← hr] at g'
  rcases C59_binding hw g g' with ⟨e1, e2⟩ | ⟨x, y, e⟩
  · simp only [List.cons.injEq] at e1
    obtain ⟨rfl, rfl, e3⟩ := e1
    obtain ⟨n, rfl⟩ : ∃ n, k = n + 1 := ⟨k - 1, by omega⟩
    obtain ⟨n', rfl⟩ : ∃ n, k' = n + 1 := ⟨k' - 1, by omega⟩
    simp only [List.replicate_succ, List.cons.injEq] at e3
    exact Or.inl ⟨e3.1, rfl, rfl, e2⟩
  · exact Or.inr ⟨_, _, x, y, e⟩

end

section examples
local instance : FloatRows := idealRows

-- a compound tree over two trees of four leaves, and its root
example : ∃ n, fromTrees toyAlg 2 [smallTree, smallTree] = .ok n ∧
    TreeRoot toyAlg [2, 2, 2] ([1, 2, 3, 4, 1, 2, 3, 4].map toyAlg.leafHash) n.root := by
  obtain ⟨n, h, hr⟩ : ∃ n, fromTrees toyAlg 2 [smallTree, smallTree] = .ok n ∧ n.rowCount = 4 :=
    ⟨_, rfl, by decide +kernel⟩
  refine ⟨n, h, ?_⟩
  have := TreeRoot.compound (S := VecStore UInt8) (A := toyAlg) (fs := FS.empty) (b := 2) (sub := 2)
    (t := .sub n) (by decide)
    ⟨_, _, _, rfl, h, .cons smallTree_isTree (.cons smallTree_isTree .nil), rfl⟩
  simp only [Tree1.rowCount, hr] at this
  exact this
-- a tree of one layer and a tree of two can have the same shape, and then have the same root
example : ∃ n, fromTrees toyAlg 2 [smallTree, smallTree] = .ok n ∧
    (BaseTree.new (S := VecStore UInt8) toyAlg 2 Sched.sequential [1, 2, 3, 4, 1, 2, 3, 4] FS.empty).1.map
      (·.root) = .ok n.root :=
  ⟨_, rfl, by decide +kernel⟩

end examples
end Verif
