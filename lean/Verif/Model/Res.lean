/-
Outcomes of modelled Rust functions.

Rust's `anyhow::Result` (src/merkle.rs:5, src/store/mod.rs:9) distinguishes only `Ok`/`Err`;
the two other ways a call can end, a panic and not ending at all, are made explicit here.
-/
namespace Verif

/-- How a Rust call can fail to return `Ok`.
* `err`     -- it returns `Err(_)` (an `ensure!`, `bail!`, `?` on an I/O error);
* `panic`   -- it unwinds (slice index out of range, `expect`, `unimplemented!`, integer underflow
               in a debug build, division by zero);
* `diverge` -- it never returns (a loop whose fuel, chosen larger than the length of every
               terminating run, ran out). -/
inductive Fault where
  | err (msg : String)
  | panic (msg : String)
  | diverge
  deriving DecidableEq, Repr

/-- Result of a modelled call. -/
abbrev Res (α : Type) := Except Fault α

instance {α : Type} [DecidableEq α] : DecidableEq (Res α) := fun a b =>
  match a, b with
  | .ok x, .ok y => if h : x = y then isTrue (h ▸ rfl) else isFalse (fun e => h (by injection e))
  | .error x, .error y =>
      if h : x = y then isTrue (h ▸ rfl) else isFalse (fun e => h (by injection e))
  | .ok _, .error _ => isFalse (fun e => by cases e)
  | .error _, .ok _ => isFalse (fun e => by cases e)

/-- The call returned `Err(_)`: an ordinary, reportable error. -/
def Res.IsErr {α : Type} (r : Res α) : Prop := ∃ m, r = .error (.err m)

/-- The call returned `Ok(_)`. -/
def Res.IsOk {α : Type} (r : Res α) : Prop := ∃ a, r = .ok a

/-- The call returned (did neither panic nor run forever). -/
def Res.Returns {α : Type} (r : Res α) : Prop := r.IsOk ∨ r.IsErr

/-- `anyhow::ensure!(c, msg)`. -/
def ensure (c : Prop) [Decidable c] (msg : String) : Res Unit :=
  if c then .ok () else .error (.err msg)

/-- `usize` subtraction; panics on underflow (debug-build semantics; a release build wraps). -/
def subP (a b : Nat) : Res Nat :=
  if b ≤ a then .ok (a - b) else .error (.panic "attempt to subtract with overflow")

/-- `.with_context(|| format!(.., end - start, start))` on a read (src/store/disk.rs:529-535): the
difference is only computed when the read fails, and can then underflow itself. -/
def readContext {α : Type} (start stop : Nat) (r : Res α) : Res α :=
  match r with
  | .error (.err m) => do
    let _ ← subP stop start
    .error (.err m)
  | r => r

/-- `usize` division; panics on a zero divisor. -/
def divP (a b : Nat) : Res Nat :=
  if b = 0 then .error (.panic "attempt to divide by zero") else .ok (a / b)

/-- `usize` remainder; panics on a zero divisor. -/
def modP (a b : Nat) : Res Nat :=
  if b = 0 then .error (.panic "attempt to calculate the remainder with a divisor of zero")
  else .ok (a % b)

/-- Indexing `xs[i]`; panics when out of bounds. -/
def idxP {α : Type} (xs : List α) (i : Nat) : Res α :=
  match xs[i]? with
  | some x => .ok x
  | none => .error (.panic "index out of bounds")

end Verif
