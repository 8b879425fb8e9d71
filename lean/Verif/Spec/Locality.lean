import Verif.Spec.Honest
import Verif.Spec.Build64
import Verif.Spec.MayFail
/-
Which nodes of a tree a proof is made of, independent of the code.
-/
namespace Verif
open Spec

namespace Spec

/-- The positions of the nodes the proof for leaf `i` of a tree of height `k` shows: the leaf, and in every
row below the root the other children of the parent, from the leaves upwards. -/
def proofPositions (b k i : Nat) : List Nat := i :: auth id b k k i

/-- The tree that holds item `i`, if the items of a list of trees are counted from the first tree to the
last, and which of its items it is. -/
def holder {C : Type} (leafsOf : C → Nat) : List C → Nat → Option (C × Nat)
  | [], _ => none
  | c :: cs, i => if i < leafsOf c then some (c, i) else holder leafsOf cs (i - leafsOf c)

end Spec

/-- A layer of `arity` trees with equally many leaves. -/
structure Node.Even {C E : Type} (leafsOf : C → Nat) (arity : Nat) (t : Node C E) : Prop where
  count : t.children.length = arity
  same : ∃ m, 0 < m ∧ t.leafs = arity * m ∧ ∀ c ∈ t.children, leafsOf c = m

/-- The tree fits its type: without sub-tree layers it is a base tree, with them it has as many trees as the
arity says, with equally many leaves. -/
def Tree1.Shaped {S E : Type} (sub : Nat) : Tree1 S E → Prop
  | .base _ => sub = 0
  | .sub t => t.Even BaseTree.leafs sub
/-- The same, in every layer. -/
def Tree2.Shaped {S E : Type} (sub top : Nat) : Tree2 S E → Prop
  | .base _ => sub = 0 ∧ top = 0
  | .sub t => t.Even BaseTree.leafs sub
  | .top t => t.Even Tree1.leafs top ∧ ∀ c ∈ t.children, c.Shaped sub

/-- The base trees of a tree, from left to right. -/
def Tree1.bases {S E : Type} : Tree1 S E → List (BaseTree S E)
  | .base t => [t]
  | .sub t => t.children
/-- The base trees of a tree, from left to right. -/
def Tree2.bases {S E : Type} : Tree2 S E → List (BaseTree S E)
  | .base t => [t]
  | .sub t => t.children
  | .top t => t.children.flatMap Tree1.bases

end Verif
