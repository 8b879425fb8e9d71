import Verif.Spec.Honest
import Verif.Spec.ProofTranscript
import Verif.Model.Merkle
/-
What changes in a tree when a leaf changes, independent of the code.
-/
namespace Verif.Spec

/-- The positions of leaf `i` and of the nodes above it, up to the root. -/
def pathPositions (b k i : Nat) : List Nat := (List.range (k + 1)).map fun l => rowStart b k l + i / b ^ l

/-- The lists have the same length and agree everywhere except, possibly, at `m`. -/
def AgreeBut {α : Type} (m : Nat) (xs ys : List α) : Prop :=
  xs.length = ys.length ∧ ∀ n, n ≠ m → xs[n]? = ys[n]?

/-- All that is hashed with the item when a proof is validated: the lemmas of all layers, innermost first,
without the item and the roots recorded in them. -/
def siblingsOf {E : Type} : Proof E → List E
  | .base _ _ l _ => l.tail.dropLast
  | .nested s _ _ l _ => siblingsOf s ++ l.dropLast

/-- The arities and paths of all layers, innermost first. -/
def placesOf {E : Type} : Proof E → List (Nat × Nat × List Nat)
  | .base top subn _ path => [(top, subn, path)]
  | .nested s top subn _ path => placesOf s ++ [(top, subn, path)]

/-- Two trees with the same root that generate the same proofs for their `n` leaves. -/
structure Alike {E : Type} (n : Nat) (gen gen' : Nat → Res (Proof E)) (root root' : E) : Prop where
  root : root = root'
  proof : ∀ j, j < n → ∃ p, gen j = .ok p ∧ gen' j = .ok p

/-- What changing leaf `d` does to the proofs of a tree of `n` leaves: the proof of the changed leaf keeps its
siblings; the proof of another leaf keeps its item, and at most one of its siblings changes; no path and no
arity changes. -/
structure Changed {E : Type} (n d : Nat) (gen gen' : Nat → Res (Proof E)) : Prop where
  self : ∃ p p', gen d = .ok p ∧ gen' d = .ok p' ∧ placesOf p = placesOf p' ∧ siblingsOf p = siblingsOf p'
  other : ∀ j, j < n → j ≠ d → ∃ p p' m, gen j = .ok p ∧ gen' j = .ok p' ∧ placesOf p = placesOf p' ∧
    (innermost p).item = (innermost p').item ∧ AgreeBut m (siblingsOf p) (siblingsOf p')

section
variable {E : Type} [Element E] {S S' : Type} [StoreOps S E] [StoreOps S' E]

/-- Two different lists that are hashed to the same value at height `h`. -/
def HashClash (A : Alg E) (h : Nat) (u v : List E) : Prop := u ≠ v ∧ A.nodeHash u h = A.nodeHash v h

/-- On the path of leaf `i`, two different lists of nodes, one from each tree, are hashed to the same value. -/
def BaseClash (A : Alg E) (b i : Nat) (fs fs' : FS) (t : BaseTree S E) (t' : BaseTree S' E) : Prop :=
  ∃ k l u v, t.leafs = b ^ k ∧ l < k ∧
    (List.range b).mapM (fun c => t.readAt fs (rowStart b k l + (b * (i / b ^ (l + 1)) + c))) = .ok u ∧
    (List.range b).mapM (fun c => t'.readAt fs' (rowStart b k l + (b * (i / b ^ (l + 1)) + c))) = .ok v ∧
    HashClash A l u v

/-- The same in two compound trees: the roots of the parts, or the parts that leaf `i` is in. -/
def SubClash (A : Alg E) (b i : Nat) (fs fs' : FS) (t : Node (BaseTree S E) E) (t' : Node (BaseTree S' E) E) : Prop :=
  HashClash A 1 (t.children.map BaseTree.root) (t'.children.map BaseTree.root) ∨
    ∃ n c c', t.leafs = n * t.children.length ∧ t.children[i / n]? = some c ∧ t'.children[i / n]? = some c' ∧
      BaseClash A b (i % n) fs fs' c c'

/-- The same in two compound trees of compound trees. -/
def TopClash (A : Alg E) (b i : Nat) (fs fs' : FS) (t : Node (Tree1 S E) E) (t' : Node (Tree1 S' E) E) : Prop :=
  HashClash A 1 (t.children.map Tree1.root) (t'.children.map Tree1.root) ∨
    ∃ n c c', t.leafs = n * t.children.length ∧ t.children[i / n]? = some (.sub c) ∧
      t'.children[i / n]? = some (.sub c') ∧ SubClash A b (i % n) fs fs' c c'

end

end Verif.Spec
