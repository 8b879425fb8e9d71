import Verif.Model.Proof
import Verif.Spec.Compound
/-
When a proof fits into the memory of a 64-bit machine, independent of the code.
-/
namespace Verif.Spec

/-- No list in the proof, and no list of nodes made to validate it, has more than `isize::MAX` bytes.
`m` is the size of an element in memory; an entry of a path takes eight bytes. -/
def ProofFits {E : Type} (m b : Nat) : Proof E → Prop
  | .base _ _ l path => b * m < 2 ^ 63 ∧ l.length * m < 2 ^ 63 ∧ path.length * 8 < 2 ^ 63
  | .nested s top subn l path => ProofFits m b s ∧ layerArity top subn * m < 2 ^ 63 ∧ l.length * m < 2 ^ 63 ∧
      path.length * 8 < 2 ^ 63

end Verif.Spec
