import Verif.Spec.Shape
import Verif.Spec.ProofTranscript
/-
Walking down a tree of layers along the path of a proof.
-/
namespace Verif
variable {E : Type}

namespace Spec

/-- The arities of the layers a proof goes through, topmost first. -/
def proofArities (b : Nat) : Proof E → List Nat
  | .base _ _ _ path => List.replicate path.length b
  | .nested s top subn _ _ => layerArity top subn :: proofArities b s

/-- The path of a proof, from the root down. -/
def proofPath : Proof E → List Nat
  | .base _ _ _ path => path.reverse
  | .nested s _ _ _ path => path.headD 0 :: proofPath s

/-- The number of leaves left of the leaf that `path` leads to, in a tree of arities `shape`. -/
def position : (shape path : List Nat) → Nat
  | _ :: as, p :: ps => as.prod * p + position as ps
  | _, _ => 0

variable [Element E]

/-- The root over `leaves` of the tree with the arities `shape`, topmost first, made with `H`. -/
def layersRoot (H : List E → E) : List Nat → List E → E
  | [], leaves => leaves.headD Element.default
  | a :: as, leaves => H ((List.range a).map fun c => layersRoot H as (group as.prod c leaves))

/-- The lists of children hashed for it. -/
def LayersHashed (H : List E → E) : List Nat → List E → List E → Prop
  | [], _, _ => False
  | a :: as, leaves, x =>
    x = ((List.range a).map fun c => layersRoot H as (group as.prod c leaves)) ∨
    ∃ c, c < a ∧ LayersHashed H as (group as.prod c leaves) x

/-- The node of the tree that `path` leads to from the root down. -/
def walk (H : List E → E) : (shape : List Nat) → (leaves : List E) → (path : List Nat) → E
  | as, leaves, [] => layersRoot H as leaves
  | _ :: as, leaves, p :: ps => walk H as (group as.prod p leaves) ps
  | [], _, _ :: _ => Element.default

end Spec
end Verif
