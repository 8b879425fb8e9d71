import Verif.Model.Float
import Mathlib.Tactic.Linarith
import Mathlib.Tactic.Ring
import Mathlib.Tactic.NormNum
import Mathlib.Tactic.Positivity
import Mathlib.Tactic.FieldSimp
import Mathlib.Data.Set.Finite.Lattice
/-! Helper lemmas: doubles next to each other, and `ln` of powers of two. -/
namespace Verif

/-! ### Doubles -/

theorem double_gap {M e : ℤ} (hM : 2 ^ 52 < M) {y : ℚ} (hy : IsDouble y) (hne : y ≠ M * 2 ^ e) :
    (2 : ℚ) ^ e ≤ |y - M * 2 ^ e| := by
  obtain ⟨m, f, rfl, hm, -, -⟩ := hy
  have h2e : (0 : ℚ) < 2 ^ e := by positivity
  rcases le_or_gt e f with h | h
  · obtain ⟨d, rfl⟩ : ∃ d : ℕ, f = e + d := ⟨(f - e).toNat, by omega⟩
    have hz : (m : ℚ) * 2 ^ (e + (d : ℤ)) - M * 2 ^ e = ((m * 2 ^ d - M : ℤ) : ℚ) * 2 ^ e := by
      rw [zpow_add₀ (by norm_num)]
      push_cast
      rw [zpow_natCast]
      ring
    rw [hz, abs_mul, abs_of_pos h2e]
    have hne' : (m * 2 ^ d - M : ℤ) ≠ 0 := by
      intro h0
      apply hne
      rw [← sub_eq_zero, hz, h0]; simp
    have h1 : (1 : ℚ) ≤ |((m * 2 ^ d - M : ℤ) : ℚ)| := by
      exact_mod_cast Int.one_le_abs hne'
    nlinarith
  · have hf : (2 : ℚ) ^ f * 2 ≤ 2 ^ e := by
      rw [← zpow_add_one₀ (by norm_num)]
      exact zpow_le_zpow_right₀ (by norm_num) (by omega)
    have h2f : (0 : ℚ) < 2 ^ f := by positivity
    have hm' : (m : ℚ) ≤ 2 ^ 53 := by
      have : m ≤ 2 ^ 53 := le_trans (le_abs_self m) hm.le
      exact_mod_cast this
    have hM' : (2 : ℚ) ^ 52 + 1 ≤ M := by exact_mod_cast hM
    have h1 : (m : ℚ) * 2 ^ f ≤ 2 ^ 52 * 2 ^ e := by nlinarith
    have h2 : ((2 : ℚ) ^ 52 + 1) * 2 ^ e ≤ M * 2 ^ e := mul_le_mul_of_nonneg_right hM' h2e.le
    rw [abs_sub_comm]
    refine le_trans ?_ (le_abs_self _)
    linarith

/-- A double closer to `r` than half the distance to its neighbours is the nearest one. -/
theorem NearestDouble.eq_of_close {r : ℝ} {q : ℚ} (h : NearestDouble r q) {M e : ℤ} (hM : 2 ^ 52 < M)
    (hx : IsDouble (M * 2 ^ e)) (hc : |((M * 2 ^ e : ℚ) : ℝ) - r| < 2 ^ e / 2) : q = M * 2 ^ e := by
  by_contra hne
  have h1 := h.2 _ hx
  have h2 : ((2 : ℚ) ^ e : ℝ) ≤ |((q - M * 2 ^ e : ℚ) : ℝ)| := by
    have := double_gap hM h.1 hne
    exact_mod_cast this
  have h3 : ((q - M * 2 ^ e : ℚ) : ℝ) = ((q : ℝ) - r) - (((M * 2 ^ e : ℚ) : ℝ) - r) := by
    push_cast; ring
  rw [h3] at h2
  have h4 := abs_sub ((q : ℝ) - r) (((M * 2 ^ e : ℚ) : ℝ) - r)
  have h5 : (((2 : ℚ) ^ e : ℚ) : ℝ) = (2 : ℝ) ^ e := by push_cast; rfl
  push_cast at *
  linarith

/-- The nearest double is not below a double that is closer than half the distance to its lower
neighbour. -/
theorem NearestDouble.ge_of_close {r : ℝ} {q : ℚ} (h : NearestDouble r q) {M e : ℤ} (hM : 2 ^ 52 < M)
    (hx : IsDouble (M * 2 ^ e)) (hc : ((M * 2 ^ e : ℚ) : ℝ) - r < 2 ^ e / 2) :
    (M : ℚ) * 2 ^ e ≤ q := by
  by_contra hlt
  rw [not_le] at hlt
  have h1 := h.2 _ hx
  have h2 : (2 : ℚ) ^ e ≤ M * 2 ^ e - q := by
    have := double_gap hM h.1 hlt.ne
    rwa [abs_sub_comm, abs_of_pos (by linarith)] at this
  have h2' : (2 : ℝ) ^ e ≤ ((M * 2 ^ e : ℚ) : ℝ) - q := by
    have : (((2 : ℚ) ^ e : ℚ) : ℝ) ≤ ((M * 2 ^ e - q : ℚ) : ℝ) := by exact_mod_cast h2
    push_cast at this ⊢
    exact this
  have hpos : (0 : ℝ) < 2 ^ e := by positivity
  have hq : |(q : ℝ) - r| ≥ r - q := by rw [abs_sub_comm]; exact le_abs_self _
  rcases le_or_gt (((M * 2 ^ e : ℚ) : ℝ)) r with hle | hgt
  · rw [abs_of_nonpos (by linarith : ((M * 2 ^ e : ℚ) : ℝ) - r ≤ 0)] at h1
    have hq2 : (q : ℝ) - r ≤ 0 := by linarith
    rw [abs_of_nonpos hq2] at h1
    linarith
  · rw [abs_of_pos (by linarith : (0 : ℝ) < ((M * 2 ^ e : ℚ) : ℝ) - r)] at h1
    linarith

theorem NearestDouble.le_of_le {r : ℝ} {q z : ℚ} (h : NearestDouble r q) (hz : IsDouble z)
    (hr : r ≤ z) : q ≤ z := by
  by_contra hlt
  rw [not_le] at hlt
  have h1 := h.2 _ hz
  have hlt' : (z : ℝ) < q := by exact_mod_cast hlt
  rw [abs_of_nonneg (by linarith : (0 : ℝ) ≤ (z : ℝ) - r), abs_of_pos (by linarith)] at h1
  linarith

/-- The nearest double is below `k` if `r` is closer to a double below. -/
theorem NearestDouble.lt_of_closer {r : ℝ} {q z : ℚ} (h : NearestDouble r q) (hz : IsDouble z) {k : ℚ}
    (hzk : z < k) (hr : 2 * r < z + k) : q < k := by
  by_contra hge
  rw [not_lt] at hge
  have h1 := h.2 _ hz
  have hge' : (k : ℝ) ≤ q := by exact_mod_cast hge
  have hzk' : (z : ℝ) < k := by exact_mod_cast hzk
  have h2 : (q : ℝ) - r ≤ |(q : ℝ) - r| := le_abs_self _
  have h3 : |(z : ℝ) - r| < k - r := by
    rw [abs_lt]; constructor <;> linarith
  linarith

/-- A double is the only nearest one to itself. -/
theorem NearestDouble.self {x q : ℚ} (hx : IsDouble x) (h : NearestDouble (x : ℝ) q) : q = x := by
  have := h.2 x hx
  rw [sub_self, abs_zero] at this
  have h0 := abs_nonpos_iff.1 this
  have : (q : ℝ) = x := by linarith
  exact_mod_cast this

theorem isDouble_nat_mul {m : Nat} {e : ℤ} (hm : m < 2 ^ 53) (h1 : -1074 ≤ e) (h2 : e ≤ 971) :
    IsDouble ((m : ℤ) * 2 ^ e) :=
  ⟨m, e, rfl, by rw [abs_of_nonneg (by positivity)]; exact_mod_cast hm, h1, h2⟩

theorem isDouble_two_pow {n : Nat} (h : n ≤ 971) : IsDouble (2 ^ n) :=
  ⟨1, n, by simp, by norm_num, by omega, by exact_mod_cast h⟩

theorem doubles_finite : {x : ℚ | IsDouble x}.Finite := by
  have : {x : ℚ | IsDouble x} ⊆
      (fun p : ℤ × ℤ => (p.1 : ℚ) * 2 ^ p.2) '' (Set.Icc (-2 ^ 53) (2 ^ 53) ×ˢ Set.Icc (-1074) 971) := by
    rintro x ⟨m, e, rfl, hm, h1, h2⟩
    rw [abs_lt] at hm
    exact ⟨(m, e), ⟨⟨by linarith, by linarith⟩, h1, h2⟩, rfl⟩
  exact (((Set.finite_Icc _ _).prod (Set.finite_Icc _ _)).image _).subset this

/-- Every real number has a nearest double. -/
theorem exists_nearest (r : ℝ) : ∃ x, NearestDouble r x := by
  obtain ⟨x, hx, hmin⟩ := Set.exists_min_image {x : ℚ | IsDouble x} (fun x => |(x : ℝ) - r|)
    doubles_finite ⟨0, 0, 0, by simp, by norm_num, by norm_num, by norm_num⟩
  exact ⟨x, hx, fun y hy => hmin y hy⟩

/-! ### The natural logarithm of two -/

/-- `2^230` times the first `n` terms of the series of `log 2`, each rounded down. -/
def ln2Sum : Nat → Nat
  | 0 => 0
  | n + 1 => ln2Sum n + 2 ^ 230 / ((n + 1) * 2 ^ (n + 1))

theorem ln2Sum_bounds (n : Nat) :
    (ln2Sum n : ℝ) ≤ 2 ^ 230 * ∑ i ∈ Finset.range n, (1 / 2 : ℝ) ^ (i + 1) / (i + 1) ∧
    2 ^ 230 * ∑ i ∈ Finset.range n, (1 / 2 : ℝ) ^ (i + 1) / (i + 1) ≤ (ln2Sum n : ℝ) + n := by
  induction n with
  | zero => simp [ln2Sum]
  | succ n ih =>
    rw [Finset.sum_range_succ, ln2Sum]
    set d : Nat := (n + 1) * 2 ^ (n + 1) with hd
    have hdpos : 0 < d := by positivity
    have hdr : (0 : ℝ) < d := by exact_mod_cast hdpos
    have hterm : (2 : ℝ) ^ 230 * ((1 / 2 : ℝ) ^ (n + 1) / (n + 1)) = 2 ^ 230 / d := by
      rw [hd]; push_cast; rw [one_div, inv_pow]; field_simp
    have h1 : ((2 ^ 230 / d : ℕ) : ℝ) ≤ 2 ^ 230 / d := by
      have := @Nat.cast_div_le ℝ _ _ _ (2 ^ 230) d
      rw [Nat.cast_pow, Nat.cast_ofNat] at this; exact this
    have h2 : (2 : ℝ) ^ 230 / d ≤ ((2 ^ 230 / d : ℕ) : ℝ) + 1 := by
      rw [div_le_iff₀ hdr]
      have := Nat.lt_div_mul_add (a := 2 ^ 230) hdpos
      have h3 : 2 ^ 230 ≤ (2 ^ 230 / d + 1) * d := by rw [Nat.add_mul, Nat.one_mul]; exact this.le
      exact_mod_cast h3
    rw [mul_add, hterm]
    push_cast at h1 h2 ⊢
    constructor <;> linarith [ih.1, ih.2]

/-- `2^230 * log 2`, to within 300. -/
def ln2Scaled : Nat := ln2Sum 230

theorem ln2Scaled_near : |(ln2Scaled : ℝ) - 2 ^ 230 * Real.log 2| ≤ 300 := by
  obtain ⟨h1, h2⟩ := ln2Sum_bounds 230
  have h3 := Real.abs_log_sub_add_sum_range_le (x := 1 / 2) (by rw [abs_of_pos] <;> norm_num) 230
  have h4 : Real.log (1 - 1 / 2) = -Real.log 2 := by
    rw [show (1 - 1 / 2 : ℝ) = 2⁻¹ by norm_num, Real.log_inv]
  rw [h4, abs_of_pos (by norm_num : (0 : ℝ) < 1 / 2)] at h3
  have h5 : ((1 / 2 : ℝ) ^ (230 + 1) / (1 - 1 / 2)) * 2 ^ 230 = 1 := by norm_num
  rw [abs_le] at h3 ⊢
  set S := ∑ i ∈ Finset.range 230, (1 / 2 : ℝ) ^ (i + 1) / (i + 1)
  have h6 := mul_le_mul_of_nonneg_right h3.1 (by positivity : (0 : ℝ) ≤ 2 ^ 230)
  have h7 := mul_le_mul_of_nonneg_right h3.2 (by positivity : (0 : ℝ) ≤ 2 ^ 230)
  rw [neg_mul, h5, add_mul, mul_comm S] at h6
  rw [h5, add_mul, mul_comm S] at h7
  rw [Nat.cast_ofNat] at h2
  unfold ln2Scaled
  generalize (2 : ℝ) ^ 230 = P at *
  constructor <;> linarith

end Verif
