import Verif.Model.Sizing64
import Verif.Model.Proof
/-
Inclusion proofs on 64-bit words: src/proof.rs.

As in `Sizing64`, arithmetic that overflows panics or wraps around, depending on how the crate was
compiled.  `m` is the size of an element in memory, `size_of::<T>()`: a `Vec` never holds more than
`isize::MAX` bytes.
-/
namespace Verif
open Word

/-- `vec![0; n]`: no allocation is larger than `isize::MAX` bytes. -/
def allocLen (n : Nat) : Res Nat :=
  if n < 2 ^ 63 then .ok n else .error (.panic "capacity overflow")

namespace Proof
variable {E : Type}

/-- `Proof::new` (src/proof.rs:36-59) -/
def new64 (o : Overflow) (b top subn : Nat) (s : Option (Proof E)) (l : List E) (p : List Nat) :
    Res (Proof E) :=
  if top = 0 ∧ subn = 0 then do
    ensure (l.length > 2) "Invalid lemma length (short)"
    let rows ← add o p.length 1
    let n ← merkleProofLemmaLen64 o rows b
    ensure (l.length = n) "Invalid lemma length"
    .ok (mk s top subn l p)
  else .ok (mk s top subn l p)

/-- The inner loop of validation (src/proof.rs:109-116 and 176-183), see `gather`. -/
def gather64 (o : Overflow) (h : Res E) (p : Nat) (l : List E) (base : Nat) : Nat → Nat → Nat → Res (List E × Nat)
  | 0, _, cur => .ok ([], cur)
  | n + 1, j, cur =>
    if j = p then do
      let x ← h
      let (rest, c) ← gather64 o h p l base n (j + 1) cur
      .ok (x :: rest, c)
    else do
      let k ← add o base cur
      let x ← idxP l k
      let cur ← add o cur 1
      let (rest, c) ← gather64 o h p l base n (j + 1) cur
      .ok (x :: rest, c)

/-- The loop of base validation (src/proof.rs:171-192), see `validateLoop`.  `step_by` on a range of
`usize` counts its steps first, so it ends at the end of the range even if the next value would overflow.
`pi` is `path_index - 1`; `path_index` itself is added to (line 190). -/
def validateLoop64 (o : Overflow) (m : Nat) (A : Alg E) (b step : Nat) (l : List E) (path : List Nat) :
    Nat → Nat → Nat → A.σ → E → Res (Option E)
  | 0, _, _, _, _ => .error .diverge
  | f + 1, i, pi, a, h =>
    if i < l.length - 1 then do
      let a := A.reset a
      let _ ← allocLen (b * m)
      let (ns, cur) ← (if b = 0 then .ok ([], 0) else do
        let p ← idxP path pi
        gather64 o (.ok h) p l i b 0 0)
      let last ← Word.sub o b 1
      if cur ≠ last then .ok none
      else do
        let _ ← add o (pi + 1) 1
        let (h, a) := A.multiNode a ns (i - 1)
        validateLoop64 o m A b step l path f (i + step) (pi + 1) a h
    else .ok (some h)

/-- Base part of `Proof::validate` (src/proof.rs:161-194) -/
def validateBase64 [DecidableEq E] (o : Overflow) (m : Nat) (A : Alg E) (b : Nat) (p : Proof E) : Res Bool :=
  if p.lem.length < 2 then .ok false
  else do
    let h ← p.item
    let step ← Word.sub o b 1
    if step = 0 then .error (.panic "assertion failed: step != 0")
    else do
      match ← validateLoop64 o m A b step p.lem p.path p.lem.length 1 0 A.init h with
      | none => .ok false
      | some h => do
        let r ← p.root
        .ok (h = r)

/-- `validate_sub_tree_proof` (src/proof.rs:97-125), see `validateTopLayer`. -/
def validateTopLayer64 [DecidableEq E] (o : Overflow) (m : Nat) (A : Alg E) (arity : Nat) (s p : Proof E) :
    Res Bool := do
  let _ ← allocLen (arity * m)
  let p0 ← idxP p.path 0
  let (ns, cur) ← gather64 o (subTreeRoot s p) p0 p.lem 0 arity 0 0
  let last ← Word.sub o arity 1
  if cur ≠ last then .ok false
  else do
    let (h, _) := A.multiNode (A.reset A.init) ns 0
    let r ← p.root
    .ok (h = r)

/-- `Proof::validate` (src/proof.rs:129-195) -/
def validate64 [DecidableEq E] (o : Overflow) (m : Nat) (A : Alg E) (b : Nat) : Proof E → Res Bool
  | base top subn l path =>
    if top > 0 then .error (.err "Sub tree proof must be present for validation")
    else if subn > 0 then .error (.err "Sub tree proof must be present for validation")
    else validateBase64 o m A b (base top subn l path)
  | nested s top subn l path =>
    if top > 0 then do
      let v ← validate64 o m A b s
      if !v then .ok false
      else validateTopLayer64 o m A top s (nested s top subn l path)
    else if subn > 0 then do
      let v ← validate64 o m A b s
      if !v then .ok false
      else validateTopLayer64 o m A subn s (nested s top subn l path)
    else .error (.err "Sub tree proof must be None")

/-- `Proof::validate_with_data` (src/proof.rs:198-210) -/
def validateWithData64 [DecidableEq E] (o : Overflow) (m : Nat) (A : Alg E) (b : Nat) (p : Proof E)
    (d : HashableVal A) : Res Bool := do
  let a := d A.init
  let (it, a) := A.hash a
  let a := A.reset a
  let (lh, _) := A.leaf a it
  let x ← p.item
  if lh = x then p.validate64 o m A b else .ok false

end Proof
end Verif
