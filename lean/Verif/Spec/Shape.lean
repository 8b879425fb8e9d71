import Verif.Spec.Digest
import Verif.Spec.Compound
/-
Merkle trees whose arity may change from row to row, as compound trees are.
-/
namespace Verif
variable {E : Type}

namespace Spec

/-- The `c`-th of the groups of `n` elements `xs` is cut into. -/
def group (n c : Nat) (xs : List E) : List E := (xs.drop (n * c)).take n

variable [Element E]

/-- The root over `items` of the tree with the arities `shape`, topmost first, made with the hash
function `D` on byte strings. -/
def shapeRoot (D : Bytes → E) : List Nat → List E → E
  | [], items => D (leafInput (items.headD Element.default))
  | a :: as, items =>
    D (nodeInput ((List.range a).map fun c => shapeRoot D as (group as.prod c items)))

/-- The byte strings hashed for it: one for the root and those of the groups below. -/
def ShapeHashed (D : Bytes → E) : List Nat → List E → Bytes → Prop
  | [], items, x => x = leafInput (items.headD Element.default)
  | a :: as, items, x =>
    x = nodeInput ((List.range a).map fun c => shapeRoot D as (group as.prod c items)) ∨
    ∃ c, c < a ∧ ShapeHashed D as (group as.prod c items) x

/-- `r` is the root of a tree of the library over the leaves `leaves`, of arities `shape`: a base tree,
or a compound tree with one or two layers above its base trees. -/
inductive TreeRoot (A : Alg E) : (shape : List Nat) → (leaves : List E) → (r : E) → Prop where
  | base {S : Type} [StoreOps S E] {b k : Nat} {leaves : List E} {fs : FS} {t : BaseTree S E} :
      0 < b → t.IsTreeOf A b k leaves fs → TreeRoot A (List.replicate k b) leaves t.root
  | compound {S : Type} [StoreOps S E] {b sub : Nat} {leaves : List E} {fs : FS} {t : Tree1 S E} :
      0 < b → t.IsCompound A b sub fs leaves →
      TreeRoot A (sub :: List.replicate (t.rowCount - 2) b) leaves t.root
  | top {S : Type} [StoreOps S E] {b sub top : Nat} {lss : List (List E)} {fs : FS}
      {cs : List (Tree1 S E)} {t : Node (Tree1 S E) E} :
      0 < b → fromSubTrees A top cs = .ok t →
      List.Forall₂ (Tree1.IsCompound A b sub fs) cs lss →
      TreeRoot A (top :: sub :: List.replicate (t.rowCount - 3) b) lss.flatten (Tree2.top t).root

end Spec
end Verif
