import Verif.Model.Proof
import Verif.Spec.Proof
/-
Specification vocabulary for proofs as the library represents them.
-/
namespace Verif
open Spec
variable {E : Type}

namespace Spec

/-- The lists hashed when a base proof (item, siblings, root in `lem`) is checked; level `j` is
hashed with height `j * (b - 1)`, which is what the code passes. -/
def baseTranscript (H : List E → Nat → E) (b : Nat) (lem : List E) (path : List Nat) :
    List (List E × Nat) :=
  match lem with
  | [] => []
  | x :: rest => transcript H (fun j => j * (b - 1)) 0 x (steps b path rest)

end Spec

namespace Spec

/-- Number of children at a compound layer: the top arity if there is one, else the sub arity. -/
def layerArity (top subn : Nat) : Nat := if top > 0 then top else subn

/-- The lists hashed when a (nested) proof is checked: those of the innermost base proof, then one
list per compound layer (hashed with height 0, which is what the code passes). -/
def proofTranscript (H : List E → Nat → E) (b : Nat) : Proof E → List (List E × Nat)
  | .base _ _ lem path => baseTranscript H b lem path
  | .nested s top subn lem path =>
    proofTranscript H b s ++
      (match s.lem.getLast?, path.head? with
        | some r, some p => [(insertAt p r (lem.take (layerArity top subn - 1)), 0)]
        | _, _ => [])

/-- The innermost (base) proof. -/
def innermost : Proof E → Proof E
  | .base t n l p => .base t n l p
  | .nested s _ _ _ _ => innermost s

/-- Same nesting, same arities and same path at every layer. -/
def SameShape : Proof E → Proof E → Prop
  | .base t n _ p, .base t' n' _ p' => t = t' ∧ n = n' ∧ p = p'
  | .nested s t n _ p, .nested s' t' n' _ p' => SameShape s s' ∧ t = t' ∧ n = n' ∧ p = p'
  | _, _ => False

/-- The same data wherever validation looks: the whole lemma of the base proof, and at each compound
layer the siblings at the front of the lemma and the root at its end. -/
def SameData : Proof E → Proof E → Prop
  | .base _ _ l _, .base _ _ l' _ => l = l'
  | .nested s t n l _, .nested s' _ _ l' _ =>
    SameData s s' ∧ l.take (layerArity t n - 1) = l'.take (layerArity t n - 1) ∧
      l.getLast? = l'.getLast?
  | _, _ => False

/-- The lemma of every compound layer has one element per node of the layer: the other nodes and the
root. -/
def HonestLengths : Proof E → Prop
  | .base .. => True
  | .nested s t n l _ => l.length = layerArity t n ∧ 0 < layerArity t n ∧ HonestLengths s

/-- Built by calls of `Proof::new`, innermost first. -/
inductive Made (b : Nat) : Proof E → Prop where
  | base {top subn l path p} : Proof.new b top subn none l path = .ok p → Made b p
  | nested {s top subn l path p} :
      Made b s → Proof.new b top subn (some s) l path = .ok p → Made b p

/-- What can be made without `lemma_mut` (for which see `Reachable`): results of `Proof::new`, and proofs whose public
field `sub_tree_proof` (src/proof.rs:23) was set to another such proof or to `None`. -/
inductive Obtainable (b : Nat) : Proof E → Prop where
  | base {top subn l path p} : Proof.new b top subn none l path = .ok p → Obtainable b p
  | nested {s top subn l path p} :
      Obtainable b s → Proof.new b top subn (some s) l path = .ok p → Obtainable b p
  | clear {p} : Obtainable b p → Obtainable b (.base p.top p.subn p.lem p.path)
  | set {s p} : Obtainable b s → Obtainable b p → Obtainable b (.nested s p.top p.subn p.lem p.path)

/-- A compound layer of `ar` nodes, with path entry `p0` and lemma length `n`, can be checked: the
lemma holds the siblings the path entry asks for, and a root. -/
def LayerFits (ar subn p0 n : Nat) : Prop :=
  if p0 < ar then 0 < subn ∧ ar - 1 ≤ n ∧ 1 ≤ n else ar ≤ n

instance (ar subn p0 n : Nat) : Decidable (LayerFits ar subn p0 n) := by
  unfold LayerFits; infer_instance

/-- Every compound layer that validation gets to has a path entry and a lemma that fits. -/
def Checkable [DecidableEq E] (A : Alg E) (b : Nat) : Proof E → Prop
  | .base .. => True
  | .nested s t n l path => layerArity t n = 0 ∨ (Checkable A b s ∧ (s.validate A b = .ok true →
      ∃ p0, path.head? = some p0 ∧ LayerFits (layerArity t n) n p0 l.length))

/-- The first layer from outside that is a compound layer without sub-proof, or a base layer with
one, if there is any. -/
def Mismatched : Proof E → Prop
  | .base t n _ _ => 0 < layerArity t n
  | .nested s t n _ _ => layerArity t n = 0 ∨ Mismatched s

end Spec

end Verif
