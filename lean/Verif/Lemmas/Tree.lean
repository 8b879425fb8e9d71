import Verif.Spec.Tree
import Verif.Lemmas.Sizing
/-! Positions of nodes in the flat layout. -/
namespace Verif
open Spec
variable {E : Type}

theorem rowStart_le_nodes (b k : Nat) : ∀ l, l ≤ k → rowStart b k l + nodes b (k - l) = nodes b k
  | 0, _ => by simp [rowStart]
  | l + 1, h => by
    have ih := rowStart_le_nodes b k l (by omega)
    rw [show k - l = (k - (l + 1)) + 1 by omega, nodes] at ih
    rw [rowStart, show k - l = (k - (l + 1)) + 1 by omega]
    omega

theorem rowStart_top (b k : Nat) : rowStart b k k + 1 = nodes b k := by
  have := rowStart_le_nodes b k k (Nat.le_refl _)
  simpa [nodes] using this

theorem rowStart_end (b k : Nat) : rowStart b k (k + 1) = nodes b k := by
  rw [rowStart, Nat.sub_self, Nat.pow_zero, rowStart_top]

theorem rowStart_mono {b k l m : Nat} (h : l ≤ m) : rowStart b k l ≤ rowStart b k m := by
  induction h with
  | refl => exact Nat.le_refl _
  | step _ ih => simp only [rowStart]; omega

theorem rowStart_succ_eq {b k l : Nat} (_h : l ≤ k) :
    rowStart b (k + 1) (l + 1) = b ^ (k + 1) + rowStart b k l := by
  induction l with
  | zero => simp [rowStart]
  | succ l ih =>
    rw [rowStart, ih (by omega), rowStart, show k + 1 - (l + 1) = k - l by omega]
    omega

theorem flatFrom_eq (H : List E → Nat → E) (b : Nat) (leaf : Nat → E) :
    ∀ k l m j, m ≤ k → j < b ^ (k - m) →
      flatFrom H b leaf k l (rowStart b k m + j) = node H b leaf (l + m) j
  | 0, l, m, j, hm, hj => by
    have : m = 0 := by omega
    subst this
    simp [flatFrom, rowStart]
  | k + 1, l, 0, j, hm, hj => by
    simp only [flatFrom, rowStart, Nat.zero_add, Nat.add_zero]
    rw [if_pos (by simpa using hj)]
  | k + 1, l, m + 1, j, hm, hj => by
    rw [rowStart_succ_eq (by omega)]
    unfold flatFrom
    rw [if_neg (by omega)]
    have := flatFrom_eq H b leaf k (l + 1) m j (by omega)
      (by rwa [show k + 1 - (m + 1) = k - m by omega] at hj)
    rw [show b ^ (k + 1) + rowStart b k m + j - b ^ (k + 1) = rowStart b k m + j by omega, this]
    congr 1; omega

theorem flat_eq (H : List E → Nat → E) (b : Nat) (leaf : Nat → E) {k l j : Nat} (hl : l ≤ k)
    (hj : j < b ^ (k - l)) : flat H b k leaf (rowStart b k l + j) = node H b leaf l j := by
  have := flatFrom_eq H b leaf k 0 l j hl hj
  simpa [flat] using this

theorem flat_leaf (H : List E → Nat → E) (b : Nat) (leaf : Nat → E) {k i : Nat} (hi : i < b ^ k) :
    flat H b k leaf i = leaf i := by
  have := flat_eq H b leaf (k := k) (l := 0) (j := i) (by omega) (by simpa using hi)
  simpa [rowStart, node] using this

theorem flat_root (H : List E → Nat → E) (b : Nat) (leaf : Nat → E) (k : Nat) :
    flat H b k leaf (nodes b k - 1) = root H b k leaf := by
  have := flat_eq H b leaf (k := k) (l := k) (j := 0) (by omega) (by simp)
  rw [← rowStart_top, Nat.add_sub_cancel, Nat.add_zero] at *
  exact this

/-- The hashing equation in terms of the layout. -/
theorem flat_step (H : List E → Nat → E) {b : Nat} (leaf : Nat → E) {k l j : Nat}
    (hl : l < k) (hj : j < b ^ (k - l - 1)) :
    flat H b k leaf (rowStart b k l + b ^ (k - l) + j)
      = H ((List.range b).map fun c => flat H b k leaf (rowStart b k l + (b * j + c))) l := by
  have h1 := flat_eq H b leaf (k := k) (l := l + 1) (j := j) (by omega)
    (by rwa [show k - (l + 1) = k - l - 1 by omega])
  rw [rowStart] at h1
  rw [h1, node]
  congr 1
  apply List.map_congr_left
  intro c hc
  have hc := List.mem_range.1 hc
  rw [flat_eq H b leaf (by omega)]
  rw [show k - l = (k - l - 1) + 1 by omega, Nat.pow_succ]
  calc b * j + c < b * j + b := by omega
    _ = b * (j + 1) := by ring
    _ ≤ b * b ^ (k - l - 1) := Nat.mul_le_mul_left b hj
    _ = b ^ (k - l - 1) * b := by ring

/-- Every position below the size belongs to a row. -/
theorem row_of_pos (b : Nat) : ∀ k i, i < nodes b k →
    ∃ l j, l ≤ k ∧ j < b ^ (k - l) ∧ i = rowStart b k l + j
  | 0, i, h => ⟨0, 0, Nat.le_refl _, by simp, by simp [nodes] at h; simp [rowStart, h]⟩
  | k + 1, i, h => by
    by_cases h1 : i < b ^ (k + 1)
    · exact ⟨0, i, by omega, by simpa using h1, by simp [rowStart]⟩
    · obtain ⟨l, j, hl, hj, he⟩ := row_of_pos b k (i - b ^ (k + 1)) (by rw [nodes] at h; omega)
      refine ⟨l + 1, j, by omega, by rwa [show k + 1 - (l + 1) = k - l by omega], ?_⟩
      rw [rowStart_succ_eq hl]; omega

end Verif
