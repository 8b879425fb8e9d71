import Verif.Model.ParIter
/-
A list consumed from both ends.
-/
namespace Verif.Spec
open ParIter (End)
variable {E : Type}

/-- The elements `a` to `b - 1`. -/
def segment (f : Nat → E) (a b : Nat) : List E := (List.range (b - a)).map fun i => f (a + i)

/-- The results of taking elements from a list, one per entry of `ws`, from the front or the back. -/
def deque : List End → List E → List (Option E)
  | [], _ => []
  | .front :: ws, xs => xs.head? :: deque ws xs.tail
  | .back :: ws, xs => xs.getLast? :: deque ws xs.dropLast

/-- What is then left of the list. -/
def dequeRest : List End → List E → List E
  | [], xs => xs
  | .front :: ws, xs => dequeRest ws xs.tail
  | .back :: ws, xs => dequeRest ws xs.dropLast

/-- The elements among the results `os` of the calls `ws` that came from end `w`, in the order of the
calls. -/
def takenFrom (w : End) (ws : List End) (os : List (Option E)) : List E :=
  (ws.zip os).filterMap fun p => if p.1 = w then p.2 else none

/-- The indices are within what there is to split, `n` elements. -/
def _root_.Verif.SplitTree.Fits : SplitTree → Nat → Prop
  | .leaf, _ => True
  | .node i l r, n => i ≤ n ∧ l.Fits i ∧ r.Fits (n - i)

/-- The index of the first element of every piece as rayon counts it: what is split off at `i` on the right begins
`i` elements later.  This is what `enumerate`, `chunks`, `zip` and `collect` go by. -/
def _root_.Verif.SplitTree.offsets : SplitTree → Nat → List Nat
  | .leaf, o => [o]
  | .node i l r, o => l.offsets o ++ r.offsets (o + i)

end Verif.Spec
