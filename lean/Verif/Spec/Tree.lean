import Verif.Spec.Sizes
/-
What a Merkle tree over given leaves is, independent of the code.
-/
namespace Verif.Spec

variable {E : Type}

/-- Node `j` of row `l` of the `b`-ary Merkle tree over the leaves `leaf 0, leaf 1, ...`: a leaf in
row 0, otherwise the hash of its `b` children.  `H children height` is the node hash; the height
passed for a node of row `l + 1` is `l`. -/
def node (H : List E → Nat → E) (b : Nat) (leaf : Nat → E) : Nat → Nat → E
  | 0, j => leaf j
  | l + 1, j => H ((List.range b).map fun c => node H b leaf l (b * j + c)) l

/-- Root of the tree of height `k`. -/
def root (H : List E → Nat → E) (b k : Nat) (leaf : Nat → E) : E := node H b leaf k 0

/-- The node at position `i` when the rows of a tree of height `k`, starting with row `l`, are laid
out one after the other. -/
def flatFrom (H : List E → Nat → E) (b : Nat) (leaf : Nat → E) : (k l i : Nat) → E
  | 0, l, i => node H b leaf l i
  | k + 1, l, i =>
    if i < b ^ (k + 1) then node H b leaf l i else flatFrom H b leaf k (l + 1) (i - b ^ (k + 1))

/-- The node at position `i` of the whole layout, leaves first, root last. -/
def flat (H : List E → Nat → E) (b k : Nat) (leaf : Nat → E) (i : Nat) : E :=
  flatFrom H b leaf k 0 i

end Verif.Spec
