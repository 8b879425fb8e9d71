/-
Specification of tree sizes, independent of the code.
-/
namespace Verif.Spec

/-- Number of nodes of a perfect `b`-ary tree with `b^k` leaves: `1 + b + ... + b^k`. -/
def nodes (b : Nat) : Nat → Nat
  | 0 => 1
  | k + 1 => nodes b k + b ^ (k + 1)

/-- Position of the first node of row `l` when the rows of a perfect tree of height `k` are stored
one after the other, leaves first: `b^k + b^(k-1) + ... + b^(k-l+1)`. -/
def rowStart (b k : Nat) : Nat → Nat
  | 0 => 0
  | l + 1 => rowStart b k l + b ^ (k - l)

/-- `n` is a power of two. -/
def IsPow2 (n : Nat) : Prop := ∃ m, n = 2 ^ m

/-- An arity the library supports: a power of two, at least two. -/
def Arity (b : Nat) : Prop := ∃ s, 1 ≤ s ∧ b = 2 ^ s

end Verif.Spec
