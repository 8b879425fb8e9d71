import Verif.Model.Store
/-
A plain growable array, and sequences of operations on it and on a store.
-/
namespace Verif

/-- An operation on a store. -/
inductive StoreOp (E : Type) where
  | write (e : E) (i : Nat)
  | copy (es : List E) (start : Nat)
  | push (e : E)
  | read (i : Nat)
  | range (start stop : Nat)
  | len

/-- What an operation returns when it succeeds. -/
inductive StoreObs (E : Type) where
  | done
  | elem (e : E)
  | elems (es : List E)
  | count (n : Nat)
  deriving DecidableEq

/-- An array with its length; writing past the end leaves a gap of slots without value. -/
structure Spec.Arr (E : Type) where
  len : Nat
  slot : Nat → Option E

namespace Spec.Arr
variable {E : Type}

/-- The array of length zero. -/
def empty : Arr E := ⟨0, fun _ => none⟩

/-- The array with `es` from position `start` on. -/
def put (a : Arr E) (start : Nat) (es : List E) : Arr E :=
  ⟨max a.len (start + es.length),
    fun i => if start ≤ i ∧ i < start + es.length then es[i - start]? else a.slot i⟩

/-- One operation on an array with room for `cap` elements.  `none`: the operation does not fit, or
reads something never written. -/
def step (cap : Nat) (a : Arr E) : StoreOp E → Option (StoreObs E × Arr E)
  | .write e i => if i < cap then some (.done, a.put i [e]) else none
  | .copy es start => if start + es.length ≤ cap then some (.done, a.put start es) else none
  | .push e => if a.len < cap then some (.done, a.put a.len [e]) else none
  | .read i => if i < a.len then (a.slot i).map fun e => (.elem e, a) else none
  | .range s e =>
    if s < e ∧ e ≤ a.len then
      ((List.range (e - s)).mapM fun c => a.slot (s + c)).map fun es => (.elems es, a)
    else none
  | .len => some (.count a.len, a)

/-- A sequence of operations. -/
def run (cap : Nat) : Arr E → List (StoreOp E) → Option (List (StoreObs E) × Arr E)
  | a, [] => some ([], a)
  | a, op :: ops => do
    let (o, a) ← a.step cap op
    let (os, a) ← a.run cap ops
    some (o :: os, a)

end Spec.Arr

section
variable {S E : Type} [Element E] [StoreOps S E]
open StoreOps

/-- The operation on a store.  `copy` passes the bytes of the elements. -/
def StoreOp.run (s : S) : StoreOp E → M (StoreObs E × S)
  | .write e i => do
    let s ← writeAt s e i
    pure (.done, s)
  | .copy es start => do
    let s ← copyFromSlice s (encodeAll es) start
    pure (.done, s)
  | .push e => do
    let s ← StoreOps.push s e
    pure (.done, s)
  | .read i => do
    let e ← M.get fun fs => readAt fs s i
    pure (.elem e, s)
  | .range a b => do
    let es ← M.get fun fs => readRange fs s a b
    pure (.elems es, s)
  | .len => pure (.count (StoreOps.len (E := E) s), s)

/-- A sequence of operations on a store. -/
def StoreOp.runAll : S → List (StoreOp E) → M (List (StoreObs E) × S)
  | s, [] => pure ([], s)
  | s, op :: ops => do
    let (o, s) ← StoreOp.run s op
    let (os, s) ← StoreOp.runAll s ops
    pure (o :: os, s)

end
end Verif
