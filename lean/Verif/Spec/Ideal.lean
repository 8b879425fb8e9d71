import Verif.Lemmas.Sizing
/-
A floating point logarithm that never errs, used only to show that hypotheses about `FloatRows`
can be met.
-/
namespace Verif
open Spec

/-- The mathematically exact row count. -/
@[reducible] def idealRows : FloatRows := ⟨fun n b => Nat.log b (b * n)⟩

theorem idealRows_exact {b : Nat} (hb : 2 ≤ b) (k : Nat) : @FloatRows.ExactAt idealRows b k := by
  intro _
  show Nat.log b (b * b ^ k) = k + 1
  rw [Nat.mul_comm, ← Nat.pow_succ, Nat.log_pow (by omega)]

end Verif
