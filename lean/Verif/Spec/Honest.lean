import Verif.Spec.Tree
import Verif.Model.Proof
/-
The inclusion proof an honest prover gives for a tree laid out by `f`, independent of the code.
-/
namespace Verif.Spec
variable {E : Type}

/-- The `n` lowest digits of `j` in base `b`, least significant first. -/
def digits (b : Nat) : Nat → Nat → List Nat
  | 0, _ => []
  | n + 1, j => j % b :: digits b n (j / b)

/-- The siblings of node `j` of the row that starts at `base`, from left to right. -/
def sibs (f : Nat → E) (b base j : Nat) : List E :=
  ((List.range b).filter (· ≠ j % b)).map fun c => f (base + (j / b * b + c))

/-- The siblings along the way from node `j` of row `k - n` to the root. -/
def auth (f : Nat → E) (b k : Nat) : Nat → Nat → List E
  | 0, _ => []
  | n + 1, j => sibs f b (rowStart b k (k - (n + 1))) j ++ auth f b k n (j / b)

/-- The proof for leaf `i` of the tree of height `k` laid out by `f`. -/
def honestProof (f : Nat → E) (b k i : Nat) : Proof E :=
  .base 0 0 (f i :: auth f b k k i ++ [f (nodes b k - 1)]) (digits b k i)

/-- Wherever `build` and `validate` of a base tree pass different heights (row `l` against
`l * (b - 1)`), the algorithm does not see the difference. -/
def _root_.Verif.Alg.HeightsAgree (A : Alg E) (b : Nat) : Prop := A.IgnoresHeight ∨ b = 2

end Verif.Spec
