import Verif.Model.Sizing
import Mathlib.Analysis.SpecialFunctions.Log.Deriv
/-
Floating point: `(branches as f64 * leafs as f64).log(branches as f64) as usize` (src/merkle.rs:1950).

`f64::log(self, base)` is `self.ln() / base.ln()`.  IEEE 754 prescribes the conversions, the product
and the quotient: each is a double nearest to the exact result.  It does not prescribe `ln`, which
Rust takes from the platform; what is assumed about it is a field of the structure below.
-/
namespace Verif

/-- The finite doubles (binary64). -/
def IsDouble (x : ℚ) : Prop :=
  ∃ m e : ℤ, x = m * 2 ^ e ∧ |m| < 2 ^ 53 ∧ -1074 ≤ e ∧ e ≤ 971

/-- `x` is a double and no double is closer to `r`.  (Which of two equally close doubles is taken is
left open; IEEE 754 takes the one with the even mantissa.) -/
def NearestDouble (r : ℝ) (x : ℚ) : Prop :=
  IsDouble x ∧ ∀ y, IsDouble y → |(x : ℝ) - r| ≤ |(y : ℝ) - r|

/-- The largest double. -/
def maxDouble : ℚ := (2 ^ 53 - 1) * 2 ^ 971

/-- Double precision arithmetic, with a natural logarithm that is correctly rounded at the powers of
two up to `2^127`. -/
structure Ieee where
  /-- `as f64` on a `usize` -/
  ofNat : Nat → ℚ
  mul : ℚ → ℚ → ℚ
  div : ℚ → ℚ → ℚ
  /-- `f64::ln` -/
  ln : ℚ → ℚ
  ofNat_nearest : ∀ n : Nat, n < 2 ^ 64 → NearestDouble (n : ℝ) (ofNat n)
  mul_nearest : ∀ x y, IsDouble x → IsDouble y → |x * y| ≤ maxDouble →
    NearestDouble ((x * y : ℚ) : ℝ) (mul x y)
  div_nearest : ∀ x y, IsDouble x → IsDouble y → y ≠ 0 → |x / y| ≤ maxDouble →
    NearestDouble ((x / y : ℚ) : ℝ) (div x y)
  ln_nearest : ∀ m, 1 ≤ m → m ≤ 127 → NearestDouble (Real.log (2 ^ m)) (ln (2 ^ m))

/-- `as usize` on a double: the integer part, saturating. -/
def doubleToUsize (x : ℚ) : Nat := min ⌊x⌋.toNat (2 ^ 64 - 1)

/-- The float branch of `get_merkle_tree_row_count` (src/merkle.rs:1950). -/
@[instance_reducible] def Ieee.rows (F : Ieee) : FloatRows where
  rows leafs branches :=
    doubleToUsize (F.div (F.ln (F.mul (F.ofNat branches) (F.ofNat leafs))) (F.ln (F.ofNat branches)))

end Verif
