import Verif.Spec.ProofTranscript
/-
Proofs whose lemma was changed through `lemma_mut` (src/proof.rs:223), so that its length need not match
the path.
-/
namespace Verif.Spec
variable {E : Type}

/-- The proof with another lemma. -/
def withLemma (l : List E) : Proof E → Proof E
  | .base t n _ p => .base t n l p
  | .nested s t n _ p => .nested s t n l p

/-- Whatever safe code can make: results of `Proof::new`, proofs whose public field `sub_tree_proof` was set, and
proofs whose lemma was changed through `lemma_mut`. -/
inductive Reachable (b : Nat) : Proof E → Prop where
  | base {top subn l path p} : Proof.new b top subn none l path = .ok p → Reachable b p
  | nested {s top subn l path p} :
      Reachable b s → Proof.new b top subn (some s) l path = .ok p → Reachable b p
  | clear {p} : Reachable b p → Reachable b (.base p.top p.subn p.lem p.path)
  | set {s p} : Reachable b s → Reachable b p → Reachable b (.nested s p.top p.subn p.lem p.path)
  | edit {p} (l : List E) : Reachable b p → Reachable b (withLemma l p)

/-- Every layer without extra arities has an arity of at least 2 and a path. -/
def Pathed (b : Nat) : Proof E → Prop
  | .base t n _ path => layerArity t n = 0 → 2 ≤ b ∧ path ≠ []
  | .nested s t n _ path => Pathed b s ∧ (layerArity t n = 0 → 2 ≤ b ∧ path ≠ [])

/-- Every layer without extra arities has the lemma length that `Proof::new` asks for. -/
def ExactLengths (b : Nat) : Proof E → Prop
  | .base t n l path => layerArity t n = 0 → l.length = 2 + (b - 1) * path.length
  | .nested s t n l path => ExactLengths b s ∧ (layerArity t n = 0 → l.length = 2 + (b - 1) * path.length)

/-- The number of hashing steps for a base lemma of length `n`: the elements between the first and the last, in
groups of `b - 1`, the last group perhaps incomplete. -/
def stepCount (b n : Nat) : Nat := (n - 2 + (b - 2)) / (b - 1)

/-- All steps can be done: the path has an entry in range for each, and the lemma has all siblings.  (In the last
step the root may have to serve as a sibling.) -/
def Complete (b n : Nat) (path : List Nat) : Prop :=
  stepCount b n ≤ path.length ∧ (∀ p ∈ path.take (stepCount b n), p < b) ∧ stepCount b n * (b - 1) < n

/-- A step is reached whose path entry is out of range, and the lemma has `b` more elements there. -/
def Rejected (b n : Nat) (path : List Nat) : Prop :=
  ∃ t p, t < stepCount b n ∧ (∀ q ∈ path.take t, q < b) ∧ path[t]? = some p ∧ b ≤ p ∧ (t + 1) * (b - 1) + 2 ≤ n

/-- The proof without the path entries that validation does not get to. -/
def trim (b : Nat) : Proof E → Proof E
  | .base t n l path => .base t n l (path.take (stepCount b l.length))
  | .nested s t n l path => .nested (trim b s) t n l path

/-- The same data wherever validation of trimmed proofs looks. -/
def SameRead (b : Nat) : Proof E → Proof E → Prop
  | .base _ _ l path, .base _ _ l' _ =>
    l.take (1 + path.length * (b - 1)) = l'.take (1 + path.length * (b - 1)) ∧ l.getLast? = l'.getLast?
  | .nested s t n l _, .nested s' _ _ l' _ =>
    SameRead b s s' ∧ l.take (layerArity t n - 1) = l'.take (layerArity t n - 1) ∧ l.getLast? = l'.getLast?
  | _, _ => False

/-- Every layer that validation gets to can be checked. -/
def CheckableAny [DecidableEq E] (A : Alg E) (b : Nat) : Proof E → Prop
  | .base t n l path => 0 < layerArity t n ∨ l.length < 2 ∨ Complete b l.length path ∨ Rejected b l.length path
  | .nested s t n l path => layerArity t n = 0 ∨ (CheckableAny A b s ∧ (s.validate A b = .ok true →
      ∃ p0, path.head? = some p0 ∧ LayerFits (layerArity t n) n p0 l.length))

end Verif.Spec
