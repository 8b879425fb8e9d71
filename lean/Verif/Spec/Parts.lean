import Verif.Spec.Compound
/-
Vocabulary for statements about compound trees put together from stored trees.
-/
namespace Verif

/-- `u`, in the file system `fs'`, is the same tree as `t` in `fs` to everybody who asks it for its
root and sizes, reads its nodes, or has it prove something.  The two may be in different kinds of
stores. -/
structure BaseTree.SameIn {S S' E : Type} [Element E] [StoreOps S E] [StoreOps S' E] (b : Nat)
    (fs fs' : FS) (t : BaseTree S E) (u : BaseTree S' E) : Prop where
  summary : u.summary = t.summary
  reads : ∀ i, i < t.length → u.readAt fs' i = t.readAt fs i
  proofs : ∀ i, u.genProof b 0 0 fs' i = t.genProof b 0 0 fs i

/-- The same for compound trees of two layers.  Reads and proofs agree at every index, in range or
not. -/
structure Node.SameIn {S S' E : Type} [Element E] [StoreOps S E] [StoreOps S' E] (b sub : Nat)
    (fs fs' : FS) (t : Node (BaseTree S E) E) (u : Node (BaseTree S' E) E) : Prop where
  root : u.root = t.root
  leafs : u.leafs = t.leafs
  len : u.len = t.len
  rowCount : u.rowCount = t.rowCount
  reads : ∀ i, Tree1.readAt sub fs' (.sub u) i = Tree1.readAt sub fs (.sub t) i
  proofs : ∀ i, Tree1.genProof b sub fs' (.sub u) i = Tree1.genProof b sub fs (.sub t) i

/-- The same for compound trees of three layers. -/
structure Node.SameIn₂ {S S' E : Type} [Element E] [StoreOps S E] [StoreOps S' E] (b sub top : Nat)
    (fs fs' : FS) (t : Node (Tree1 S E) E) (u : Node (Tree1 S' E) E) : Prop where
  root : u.root = t.root
  leafs : u.leafs = t.leafs
  len : u.len = t.len
  rowCount : u.rowCount = t.rowCount
  reads : ∀ i, Tree2.readAt sub top fs' (.top u) i = Tree2.readAt sub top fs (.top t) i
  proofs : ∀ i, Tree2.genProof b sub top fs' (.top u) i = Tree2.genProof b sub top fs (.top t) i

/-- `t` is a Merkle tree of height `k`, and `d` are the bytes of its nodes, from the first leaf to the
root. -/
def BaseTree.WrittenAs {S E : Type} [Element E] [StoreOps S E] (A : Alg E) (b k : Nat) (fs : FS)
    (t : BaseTree S E) (d : Bytes) : Prop :=
  (∃ leaves, t.IsTreeOf A b k leaves fs) ∧ ∃ ns : List E, ns.length = t.length ∧
    (∀ i (h : i < ns.length), t.readAt fs i = .ok ns[i]) ∧ d = encodeAll ns

/-- `d` is what compacting the tree `t` to version 1 with `rows` discarded rows must leave in the file: the
leaves and the rows from `rows + 1` up. -/
def BaseTree.CompactedAs {S E : Type} [Element E] [StoreOps S E] (A : Alg E) (b k rows : Nat) (fs : FS)
    (t : BaseTree S E) (d : Bytes) : Prop :=
  (∃ leaves, t.IsTreeOf A b k leaves fs) ∧ ∃ ns : List E, ns.length = t.length ∧
    (∀ i (h : i < ns.length), t.readAt fs i = .ok ns[i]) ∧
    d = encodeAll (ns.take (b ^ k) ++ ns.drop (Spec.rowStart b k (rows + 1)))

/-- Two calls end alike: both succeed with related results, or both fail in the same way. -/
def Res.Alike {α β : Type} (R : α → β → Prop) : Res α → Res β → Prop
  | .ok a, .ok b => R a b
  | .error e, .error e' => e = e'
  | _, _ => False

end Verif
