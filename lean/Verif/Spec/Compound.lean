import Verif.Spec.Source
import Verif.Spec.ProofTranscript
import Mathlib.Data.List.Forall2
/-
Vocabulary for statements about compound trees.
-/
namespace Verif
open Spec
variable {S E : Type} [Element E] [StoreOps S E]

/-- `t` is the Merkle tree (of height at least one) of `leaves` and can be read back. -/
def BaseTree.IsTree (A : Alg E) (b : Nat) (fs : FS) (t : BaseTree S E) (leaves : List E) : Prop :=
  ∃ k, 1 ≤ k ∧ t.IsTreeOf A b k leaves fs

/-- `t` was assembled by `from_trees` from Merkle trees whose leaves, one tree after the other, are
`leaves`. -/
def Tree1.IsCompound (A : Alg E) (b sub : Nat) (fs : FS) (t : Tree1 S E) (leaves : List E) : Prop :=
  ∃ (cs : List (BaseTree S E)) (lss : List (List E)) (n : Node (BaseTree S E) E),
    t = .sub n ∧ fromTrees A sub cs = .ok n ∧ List.Forall₂ (BaseTree.IsTree A b fs) cs lss ∧
      leaves = lss.flatten

end Verif
