import Verif.Model.Store
/-
The parallel iterators of `VecStore` and `DiskStore` (src/store/mod.rs:427-625, one macro used for
both).  Rayon itself is not modelled: `bridge` splits a producer with `split_at` as often as it
likes, at indices of its choice, and consumes every piece through its iterator; `SplitTree` stands for
all its choices.
-/
namespace Verif

/-- `struct $producer` (src/store/mod.rs:498-503) without the reference to the store. -/
structure ParProducer where
  current : Nat
  stop : Nat
  deriving DecidableEq, Repr

namespace ParProducer

/-- `with_producer` (src/store/mod.rs:470-475, 490-495): the producer of the whole store. -/
def ofStore {S E : Type} [StoreOps S E] (s : S) : ParProducer := ⟨0, StoreOps.len (E := E) s⟩

/-- `len` (src/store/mod.rs:514-516). -/
def len (p : ParProducer) : Res Nat := subP p.stop p.current

/-- `split_at` (src/store/mod.rs:542-562). -/
def splitAt (p : ParProducer) (index : Nat) : Res (ParProducer × ParProducer) := do
  let n ← p.len
  if n = 0 then .ok (⟨0, 0⟩, ⟨0, 0⟩)
  else
    let firstEnd := p.current + min n index
    .ok (⟨p.current, firstEnd⟩, ⟨firstEnd, p.current + n⟩)

end ParProducer

/-- `struct $iter` (src/store/mod.rs:564-570) without the reference to the store. -/
structure ParIter where
  current : Nat
  stop : Nat
  err : Bool
  deriving DecidableEq, Repr

/-- `into_iter` (src/store/mod.rs:527-540). -/
def ParProducer.intoIter (p : ParProducer) : ParIter := ⟨p.current, p.stop, false⟩

namespace ParIter
variable {E : Type}

/-- `ExactSizeIterator::len` (src/store/mod.rs:599-604). -/
def len (it : ParIter) : Res Nat := subP it.stop it.current

/-- `is_done` (src/store/mod.rs:572-576).  After an error the length is not looked at. -/
def isDone (it : ParIter) : Res Bool :=
  if it.err then .ok false
  else do
    let n ← it.len
    .ok (n == 0)

/-- What `next` and `next_back` make of the outcome of `read_at`: `Err` sets `err` and gives `None`
(a panic goes on). -/
def afterRead (r : Res E) (it it' : ParIter) : Res (Option E × ParIter) :=
  match r with
  | .ok e => .ok (some e, it')
  | .error (.err _) => .ok (none, { it with err := true })
  | .error f => .error f

/-- `next` (src/store/mod.rs:578-597).  `rd` is `self.store.read_at` at the time of the call. -/
def next (rd : Nat → Res E) (it : ParIter) : Res (Option E × ParIter) := do
  let done ← it.isDone
  if done then .ok (none, it)
  else afterRead (rd it.current) it { it with current := it.current + 1 }

/-- `next_back` (src/store/mod.rs:606-625). -/
def nextBack (rd : Nat → Res E) (it : ParIter) : Res (Option E × ParIter) := do
  let done ← it.isDone
  if done then .ok (none, it)
  else do
    let i ← subP it.stop 1
    afterRead (rd i) it { it with stop := it.stop - 1 }

/-- Which end of the iterator a call asks. -/
inductive End where
  | front
  | back
  deriving DecidableEq, Repr

def step (rd : Nat → Res E) : End → ParIter → Res (Option E × ParIter)
  | .front => next rd
  | .back => nextBack rd

/-- A sequence of calls of `next` and `next_back`, and their results. -/
def run (rd : Nat → Res E) : List End → ParIter → Res (List (Option E) × ParIter)
  | [], it => .ok ([], it)
  | w :: ws, it => do
    let (o, it) ← step rd w it
    let (os, it) ← run rd ws it
    .ok (o :: os, it)

/-- `for x in iter`: calls `next` until it gives `None`. -/
def collect (rd : Nat → Res E) : Nat → ParIter → Res (List E)
  | 0, _ => .error .diverge
  | fuel + 1, it => do
    let (o, it) ← next rd it
    match o with
    | none => .ok []
    | some e => do
      let es ← collect rd fuel it
      .ok (e :: es)

end ParIter

/-- How rayon splits a producer: not at all, or at an index, going on with both halves. -/
inductive SplitTree where
  | leaf
  | node (index : Nat) (left right : SplitTree)

/-- The pieces, from left to right. -/
def SplitTree.pieces : SplitTree → ParProducer → Res (List ParProducer)
  | .leaf, p => .ok [p]
  | .node i l r, p => do
    let (a, b) ← p.splitAt i
    let as ← l.pieces a
    let bs ← r.pieces b
    .ok (as ++ bs)

end Verif
