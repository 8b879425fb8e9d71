import Verif.Model.Sizing
import Verif.Model.Hash
/-
Inclusion proofs: src/proof.rs.
-/
namespace Verif

/-- `struct Proof` (src/proof.rs:20-32).  `base` is a proof whose `sub_tree_proof` is `None`,
`nested` one with `Some(sub)`.  `top` is `top_layer_nodes`, `subn` is `sub_tree_layer_nodes`,
`lem` is `lemma` (a keyword here).  The base arity is a type parameter in Rust; here it is an
argument of `new` and `validate`. -/
inductive Proof (E : Type) where
  | base (top subn : Nat) (lem : List E) (path : List Nat)
  | nested (sub : Proof E) (top subn : Nat) (lem : List E) (path : List Nat)
  deriving Repr, DecidableEq

namespace Proof
variable {E : Type}

/-- `sub_tree_proof` -/
def sub : Proof E → Option (Proof E)
  | base .. => none
  | nested s _ _ _ _ => some s
/-- `top_layer_nodes` (src/proof.rs:227) -/
def top : Proof E → Nat
  | base t _ _ _ => t
  | nested _ t _ _ _ => t
/-- `sub_layer_nodes` (src/proof.rs:231) -/
def subn : Proof E → Nat
  | base _ n _ _ => n
  | nested _ _ n _ _ => n
/-- `lemma` (src/proof.rs:218) -/
def lem : Proof E → List E
  | base _ _ l _ => l
  | nested _ _ _ l _ => l
/-- `path` (src/proof.rs:213) -/
def path : Proof E → List Nat
  | base _ _ _ p => p
  | nested _ _ _ _ p => p

/-- Builds the struct from its fields. -/
def mk (s : Option (Proof E)) (t n : Nat) (l : List E) (p : List Nat) : Proof E :=
  match s with
  | none => base t n l p
  | some s => nested s t n l p

/-- `Proof::new` (src/proof.rs:36-59): the lemma length is checked only when both extra arities are
zero. -/
def new (b top subn : Nat) (s : Option (Proof E)) (l : List E) (p : List Nat) : Res (Proof E) :=
  if top = 0 ∧ subn = 0 then do
    ensure (l.length > 2) "Invalid lemma length (short)"
    let n ← merkleProofLemmaLen (p.length + 1) b
    ensure (l.length = n) "Invalid lemma length"
    .ok (mk s top subn l p)
  else .ok (mk s top subn l p)

/-- `Proof::item` (src/proof.rs:62-67). -/
def item (p : Proof E) : Res E :=
  match p.lem.head? with
  | some x => .ok x
  | none => .error (.panic "[item] requested element is empty")

/-- `Proof::root` (src/proof.rs:77-82). -/
def root (p : Proof E) : Res E :=
  match p.lem.getLast? with
  | some x => .ok x
  | none => .error (.panic "[root] requested element is empty")

/-- The inner loop of validation (src/proof.rs:109-116 and 176-183): for `j` in the next `n`
positions push `h` when `j` is the path entry `p`, else the next lemma element after `base`.
`h` is evaluated where Rust evaluates it, so a panic in it shows only if that position is reached.
Returns the nodes and `cur_index`. -/
def gather (h : Res E) (p : Nat) (l : List E) (base : Nat) : Nat → Nat → Nat → Res (List E × Nat)
  | 0, _, cur => .ok ([], cur)
  | n + 1, j, cur =>
    if j = p then do
      let x ← h
      let (rest, c) ← gather h p l base n (j + 1) cur
      .ok (x :: rest, c)
    else do
      let x ← idxP l (base + cur)
      let (rest, c) ← gather h p l base n (j + 1) (cur + 1)
      .ok (x :: rest, c)

/-- The loop of base validation (src/proof.rs:171-192), `i` running over
`(1..size - 1).step_by(branches - 1)`.  `none` is the early `return Ok(false)`.  `pi` is
`path_index - 1`. -/
def validateLoop (A : Alg E) (b : Nat) (l : List E) (path : List Nat) :
    Nat → Nat → Nat → A.σ → E → Res (Option E)
  | 0, _, _, _, _ => .error .diverge
  | f + 1, i, pi, a, h =>
    if i < l.length - 1 then do
      let a := A.reset a
      let p ← idxP path pi
      let (ns, cur) ← gather (.ok h) p l i b 0 0
      if cur ≠ b - 1 then .ok none
      else
        let (h, a) := A.multiNode a ns (i - 1)
        validateLoop A b l path f (i + (b - 1)) (pi + 1) a h
    else .ok (some h)

/-- Base part of `Proof::validate` (src/proof.rs:161-194).  `step_by(0)` panics. -/
def validateBase [DecidableEq E] (A : Alg E) (b : Nat) (p : Proof E) : Res Bool :=
  if p.lem.length < 2 then .ok false
  else do
    let h ← p.item
    let step ← subP b 1
    if step = 0 then .error (.panic "assertion failed: step != 0")
    else do
      match ← validateLoop A b p.lem p.path p.lem.length 1 0 A.init h with
      | none => .ok false
      | some h => do
        let r ← p.root
        .ok (h = r)

/-- `Proof::sub_tree_root` (src/proof.rs:70-74) of a proof `p` whose sub-proof is `s`. -/
def subTreeRoot (s p : Proof E) : Res E :=
  if p.subn > 0 then s.root
  else .error (.panic "assertion failed: self.sub_tree_layer_nodes > 0")

/-- `validate_sub_tree_proof` (src/proof.rs:85-126) after the sub-proof was found valid:
lines 97-125.  `arity > 0`, so the first iteration reads `path[0]`, which panics on an
empty path. -/
def validateTopLayer [DecidableEq E] (A : Alg E) (arity : Nat) (s p : Proof E) : Res Bool := do
  let p0 ← idxP p.path 0
  let (ns, cur) ← gather (subTreeRoot s p) p0 p.lem 0 arity 0 0
  if cur ≠ arity - 1 then .ok false
  else do
    let (h, _) := A.multiNode (A.reset A.init) ns 0
    let r ← p.root
    .ok (h = r)

/-- `Proof::validate` (src/proof.rs:129-195). -/
def validate [DecidableEq E] (A : Alg E) (b : Nat) : Proof E → Res Bool
  | base top subn l path =>
    if top > 0 then .error (.err "Sub tree proof must be present for validation")
    else if subn > 0 then .error (.err "Sub tree proof must be present for validation")
    else validateBase A b (base top subn l path)
  | nested s top subn l path =>
    if top > 0 then do
      let v ← validate A b s
      if !v then .ok false
      else validateTopLayer A top s (nested s top subn l path)
    else if subn > 0 then do
      let v ← validate A b s
      if !v then .ok false
      else validateTopLayer A subn s (nested s top subn l path)
    else .error (.err "Sub tree proof must be None")

/-- `Proof::validate_with_data` (src/proof.rs:198-210). -/
def validateWithData [DecidableEq E] (A : Alg E) (b : Nat) (p : Proof E) (d : HashableVal A) :
    Res Bool := do
  let a := d A.init
  let (it, a) := A.hash a
  let a := A.reset a
  let (lh, _) := A.leaf a it
  let x ← p.item
  if lh = x then p.validate A b else .ok false

end Proof
end Verif
