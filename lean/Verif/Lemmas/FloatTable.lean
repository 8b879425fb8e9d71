import Verif.Lemmas.Float
/-! Helper lemmas: the doubles nearest to the logarithms of `2^1 … 2^127`, and their quotients. -/
namespace Verif

/-- The value of `ln2Scaled`. -/
def ln2Lit : Nat :=
  1195981505304445458385853532050700046628574544364064136238736920139398

theorem ln2Scaled_eq : ln2Scaled = ln2Lit := by decide +kernel

/-- Exponent and mantissa of the double nearest to `m * log 2`. -/
def lnShift (m : Nat) : Nat := Nat.log2 (m * ln2Lit) - 52
def lnMant (m : Nat) : Nat := (m * ln2Lit + 2 ^ (lnShift m - 1)) / 2 ^ lnShift m
/-- That double times `2^230`. -/
def lnVal (m : Nat) : Nat := lnMant m * 2 ^ lnShift m
/-- That double. -/
def lnDouble (m : Nat) : ℚ := (lnMant m : ℤ) * 2 ^ ((lnShift m : ℤ) - 230)

theorem ln_table : ∀ m < 128, 1 ≤ m → 2 ^ 52 < lnMant m ∧ lnMant m < 2 ^ 53 ∧ lnShift m ≤ 230 ∧
    2 * (lnVal m - m * ln2Lit + (m * ln2Lit - lnVal m) + 300 * m) < 2 ^ lnShift m := by
  decide +kernel

/-- The quotient of `ln(2^(a+j))` and `ln(2^a)` rounds to a double with the right integer part, for
all sizes but one. -/
theorem quotient_table : ∀ a < 64, ∀ j < 64, a < 2 ∨ j < a ∨ (a = 21 ∧ j = 42) ∨
    (lnVal a * ((a + j) / a * 2 ^ 53)
      < lnVal (a + j) * 2 ^ 53 + lnVal a * 2 ^ Nat.log2 ((a + j) / a - 1) ∧
    128 * lnVal (a + j) ≤ (128 * ((a + j) / a) + 127) * lnVal a) := by
  decide +kernel

theorem quotient_exception :
    lnVal 63 * 2 ^ 52 < lnVal 21 * (3 * 2 ^ 52 - 1) ∧ 2 * lnVal 21 ≤ lnVal 63 := by decide +kernel

theorem maxDouble_big : (2 : ℚ) ^ 127 ≤ maxDouble := by
  unfold maxDouble
  calc (2 : ℚ) ^ 127 ≤ 2 ^ 971 := pow_le_pow_right₀ (by norm_num) (by norm_num)
    _ = 1 * 2 ^ 971 := (one_mul _).symm
    _ ≤ (2 ^ 53 - 1) * 2 ^ 971 := mul_le_mul_of_nonneg_right (by norm_num) (by positivity)

theorem lnDouble_isDouble {m : Nat} (h1 : 1 ≤ m) (h2 : m < 128) : IsDouble (lnDouble m) := by
  obtain ⟨_, h4, h5, _⟩ := ln_table m h2 h1
  exact isDouble_nat_mul h4 (by omega) (by omega)

theorem lnDouble_val (m : Nat) : lnDouble m * 2 ^ 230 = lnVal m := by
  unfold lnDouble lnVal
  rw [zpow_sub₀ (by norm_num), mul_assoc]
  rw [zpow_natCast, Int.cast_natCast, Nat.cast_mul, Nat.cast_pow, Nat.cast_ofNat]
  congr 1
  exact div_mul_cancel₀ _ (by positivity)

theorem lnVal_pos {m : Nat} (h1 : 1 ≤ m) (h2 : m < 128) : 0 < lnVal m := by
  obtain ⟨h3, _⟩ := ln_table m h2 h1
  unfold lnVal
  have : 0 < lnMant m := by omega
  positivity

theorem Ieee.ln_eq (F : Ieee) {m : Nat} (h1 : 1 ≤ m) (h2 : m < 128) : F.ln (2 ^ m) = lnDouble m := by
  obtain ⟨h3, h4, h5, h6⟩ := ln_table m h2 h1
  refine (F.ln_nearest m h1 (by omega)).eq_of_close (by exact_mod_cast h3) (lnDouble_isDouble h1 h2) ?_
  have hv : ((lnDouble m : ℚ) : ℝ) * 2 ^ 230 = lnVal m := by exact_mod_cast lnDouble_val m
  change |((lnDouble m : ℚ) : ℝ) - _| < _
  rw [Real.log_pow]
  have hp : (0 : ℝ) < 2 ^ 230 := by positivity
  have h7 := ln2Scaled_near
  rw [ln2Scaled_eq] at h7
  have hs : (2 : ℝ) ^ ((lnShift m : ℤ) - 230) * 2 ^ 230 = 2 ^ lnShift m := by
    rw [zpow_sub₀ (by norm_num), zpow_natCast, show (2 : ℝ) ^ (230 : ℤ) = 2 ^ 230 from rfl]
    exact div_mul_cancel₀ _ hp.ne'
  have hd : |(lnVal m : ℝ) - m * ln2Lit| ≤ ((lnVal m - m * ln2Lit + (m * ln2Lit - lnVal m) : ℕ) : ℝ) := by
    rcases le_total (lnVal m) (m * ln2Lit) with h | h
    · rw [Nat.sub_eq_zero_of_le h, Nat.zero_add, Nat.cast_sub h, abs_sub_comm]
      push_cast
      rw [abs_of_nonneg]
      have : ((lnVal m : ℕ) : ℝ) ≤ ((m * ln2Lit : ℕ) : ℝ) := by exact_mod_cast h
      push_cast at this
      linarith
    · rw [Nat.sub_eq_zero_of_le h, Nat.add_zero, Nat.cast_sub h]
      push_cast
      rw [abs_of_nonneg]
      have : ((m * ln2Lit : ℕ) : ℝ) ≤ ((lnVal m : ℕ) : ℝ) := by exact_mod_cast h
      push_cast at this
      linarith
  have h8 : 2 * (((lnVal m - m * ln2Lit + (m * ln2Lit - lnVal m) : ℕ) : ℝ) + 300 * m) < 2 ^ lnShift m := by
    exact_mod_cast h6
  have h9 : |(m : ℝ) * (ln2Lit : ℝ) - (m : ℝ) * ((2 : ℝ) ^ 230 * Real.log 2)| ≤ (m : ℝ) * 300 := by
    rw [← mul_sub, abs_mul, abs_of_nonneg (by positivity : (0 : ℝ) ≤ m)]
    exact mul_le_mul_of_nonneg_left h7 (by positivity)
  have h10 : |(lnVal m : ℝ) - (m : ℝ) * ((2 : ℝ) ^ 230 * Real.log 2)| < 2 ^ lnShift m / 2 := by
    have := abs_sub_le (lnVal m : ℝ) ((m : ℝ) * ln2Lit) ((m : ℝ) * ((2 : ℝ) ^ 230 * Real.log 2))
    refine lt_of_le_of_lt (this.trans (add_le_add hd h9)) ?_
    generalize ((lnVal m - m * ln2Lit + (m * ln2Lit - lnVal m) : ℕ) : ℝ) = D at h8
    linarith
  have h11 : (|((lnDouble m : ℚ) : ℝ) - m * Real.log 2|) * 2 ^ 230
      < (2 ^ ((lnShift m : ℤ) - 230) / 2) * 2 ^ 230 := by
    have e1 : (|((lnDouble m : ℚ) : ℝ) - m * Real.log 2|) * 2 ^ 230
        = |(lnVal m : ℝ) - (m : ℝ) * ((2 : ℝ) ^ 230 * Real.log 2)| := by
      rw [← abs_of_pos hp, ← abs_mul, abs_of_pos hp, sub_mul, hv]
      congr 1; ring
    have e2 : ((2 : ℝ) ^ ((lnShift m : ℤ) - 230) / 2) * 2 ^ 230 = 2 ^ lnShift m / 2 := by
      rw [div_mul_eq_mul_div, hs]
    rw [e1, e2]; exact h10
  exact lt_of_mul_lt_mul_right h11 hp.le

/-- The quotient the library computes for `2^j` leaves and arity `2^a`. -/
theorem Ieee.rows_eq (F : Ieee) {a j : Nat} (ha : 1 ≤ a) (ha' : a < 64) (hj : j < 64) :
    F.rows.rows (2 ^ j) (2 ^ a) = doubleToUsize (F.div (lnDouble (a + j)) (lnDouble a)) := by
  have hof : ∀ n, n < 64 → F.ofNat (2 ^ n) = 2 ^ n := by
    intro n hn
    refine NearestDouble.self (x := 2 ^ n) (isDouble_two_pow (by omega)) ?_
    have := F.ofNat_nearest (2 ^ n) (Nat.pow_lt_pow_right (by norm_num) hn)
    push_cast at this ⊢
    exact this
  have hmul : F.mul (2 ^ a) (2 ^ j) = 2 ^ (a + j) := by
    refine NearestDouble.self (x := 2 ^ (a + j)) (isDouble_two_pow (by omega)) ?_
    rw [pow_add]
    refine F.mul_nearest _ _ (isDouble_two_pow (by omega)) (isDouble_two_pow (by omega)) ?_
    rw [← pow_add, abs_of_pos (by positivity)]
    calc (2 : ℚ) ^ (a + j) ≤ 2 ^ 127 := pow_le_pow_right₀ (by norm_num) (by omega)
      _ ≤ maxDouble := maxDouble_big
  change doubleToUsize (F.div (F.ln (F.mul (F.ofNat (2 ^ a)) (F.ofNat (2 ^ j)))) (F.ln (F.ofNat (2 ^ a)))) = _
  rw [hof a ha', hof j hj, hmul, F.ln_eq (by omega) (by omega), F.ln_eq ha (by omega)]

theorem Ieee.div_nearest_ln (F : Ieee) {m a : Nat} (hm : 1 ≤ m) (hm' : m < 128) (ha : 1 ≤ a)
    (ha' : a < 128) (hle : (lnVal m : ℚ) / lnVal a ≤ 128) :
    NearestDouble (((lnVal m : ℚ) / lnVal a : ℚ) : ℝ) (F.div (lnDouble m) (lnDouble a)) := by
  have hva : (0 : ℚ) < lnVal a := by exact_mod_cast lnVal_pos ha ha'
  have hvm : (0 : ℚ) < lnVal m := by exact_mod_cast lnVal_pos hm hm'
  have hda := lnDouble_val a
  have hdm := lnDouble_val m
  have hne : lnDouble a ≠ 0 := by
    intro h0; rw [h0, zero_mul] at hda; exact hva.ne hda
  have hq : lnDouble m / lnDouble a = (lnVal m : ℚ) / lnVal a := by
    have e : (lnVal m : ℚ) / lnVal a = (lnDouble m * 2 ^ 230) / (lnDouble a * 2 ^ 230) := by
      rw [hda, hdm]
    rw [e]
    exact (mul_div_mul_right _ _ (pow_ne_zero _ two_ne_zero)).symm
  rw [← hq]
  refine F.div_nearest _ _ (lnDouble_isDouble hm hm') (lnDouble_isDouble ha ha') hne ?_
  rw [hq, abs_of_pos (div_pos hvm hva)]
  exact hle.trans (le_trans (by norm_num) maxDouble_big)

theorem doubleToUsize_eq {x : ℚ} {k : Nat} (hk : k < 2 ^ 64) (h1 : (k : ℚ) ≤ x) (h2 : x < k + 1) :
    doubleToUsize x = k := by
  have : ⌊x⌋ = (k : ℤ) := by
    rw [Int.floor_eq_iff]
    exact ⟨by exact_mod_cast h1, by exact_mod_cast h2⟩
  unfold doubleToUsize
  rw [this, Int.toNat_natCast]
  omega

/-- The row count of `2^j` leaves with arity `2^a`. -/
theorem Ieee.rows_pow (F : Ieee) {a j : Nat} (ha : 2 ≤ a) (ha' : a < 64) (hj : a ≤ j) (hj' : j < 64)
    (hne : ¬ (a = 21 ∧ j = 42)) : F.rows.rows (2 ^ j) (2 ^ a) = (a + j) / a := by
  rw [F.rows_eq (by omega) ha' hj']
  obtain ⟨h1, h2⟩ := ((quotient_table a ha' j hj').resolve_left (by omega)).resolve_left (by omega)
    |>.resolve_left hne
  set k := (a + j) / a with hkdef
  have hk2 : 2 ≤ k := by
    rw [hkdef, Nat.le_div_iff_mul_le (by omega)]; omega
  have hk127 : k ≤ 127 := by
    rw [hkdef]; exact (Nat.div_le_self _ _).trans (by omega)
  have hva : (0 : ℚ) < lnVal a := by exact_mod_cast lnVal_pos (by omega) (by omega : a < 128)
  have h1q : (lnVal a : ℚ) * (k * 2 ^ 53)
      < lnVal (a + j) * 2 ^ 53 + lnVal a * 2 ^ Nat.log2 (k - 1) := by exact_mod_cast h1
  have h2q : 128 * (lnVal (a + j) : ℚ) ≤ (128 * k + 127) * lnVal a := by exact_mod_cast h2
  have hup : (lnVal (a + j) : ℚ) / lnVal a ≤ k + 127 / 128 := by
    rw [div_le_iff₀ hva]; linarith
  have hkq : (k : ℚ) ≤ 127 := by exact_mod_cast hk127
  have hn := F.div_nearest_ln (m := a + j) (a := a) (by omega) (by omega) (by omega) (by omega)
    (by linarith)
  -- below
  set l := Nat.log2 (k - 1) with hl
  have hl6 : l < 7 := (Nat.log2_lt (by omega)).2 (by omega)
  have hlk : 2 ^ l ≤ k - 1 := Nat.log2_self_le (by omega)
  have hkl : k - 1 < 2 ^ (l + 1) := (Nat.log2_lt (by omega)).1 (by omega)
  have hkM : ((k * 2 ^ (52 - l) : ℕ) : ℤ) * (2 : ℚ) ^ ((l : ℤ) - 52) = k := by
    have e : (2 : ℚ) ^ ((l : ℤ) - 52) = (2 ^ (52 - l))⁻¹ := by
      rw [show (l : ℤ) - 52 = -((52 - l : ℕ) : ℤ) by omega, zpow_neg, zpow_natCast]
    rw [e]
    push_cast
    field_simp
  have hsplit : 2 ^ l * 2 ^ (52 - l) = 2 ^ 52 := by rw [← pow_add]; congr 1; omega
  have hpos52 : 0 < 2 ^ (52 - l) := by positivity
  have hM1 : 2 ^ 52 < k * 2 ^ (52 - l) := by
    rw [← hsplit]; exact Nat.mul_lt_mul_of_pos_right (by omega) hpos52
  have hM2 : k * 2 ^ (52 - l) < 2 ^ 54 := by
    calc k * 2 ^ (52 - l) ≤ 2 ^ (l + 1) * 2 ^ (52 - l) := Nat.mul_le_mul_right _ (by omega)
      _ = 2 * (2 ^ l * 2 ^ (52 - l)) := by rw [pow_succ]; ring
      _ < 2 ^ 54 := by rw [hsplit]; norm_num
  have hdk : IsDouble (k : ℚ) := ⟨k, 0, by simp, by rw [abs_of_nonneg (by positivity)]; norm_cast; omega,
    by norm_num, by norm_num⟩
  have hlow : (k : ℚ) ≤ F.div (lnDouble (a + j)) (lnDouble a) := by
    have := hn.ge_of_close (M := ((k * 2 ^ (52 - l) : ℕ) : ℤ)) (e := (l : ℤ) - 52)
      (by exact_mod_cast hM1) (by rw [hkM]; exact hdk) (by
        rw [hkM]
        have hr : ((k : ℚ) - (lnVal (a + j) : ℚ) / lnVal a) < 2 ^ ((l : ℤ) - 52) / 2 := by
          rw [sub_lt_iff_lt_add, ← sub_lt_iff_lt_add', lt_div_iff₀ hva]
          have e : (2 : ℚ) ^ ((l : ℤ) - 52) / 2 = 2 ^ l / 2 ^ 53 := by
            rw [zpow_sub₀ (by norm_num), zpow_natCast, show (2 : ℚ) ^ (52 : ℤ) = 2 ^ 52 from rfl,
              div_div]
            norm_num
          rw [e]
          have : (0 : ℚ) < 2 ^ 53 := by positivity
          rw [← mul_lt_mul_iff_of_pos_right this]
          have e2 : ((k : ℚ) - 2 ^ l / 2 ^ 53) * lnVal a * 2 ^ 53
              = lnVal a * (k * 2 ^ 53) - lnVal a * 2 ^ l := by
            rw [sub_mul, sub_mul, div_mul_eq_mul_div, div_mul_cancel₀ _ this.ne']; ring
          rw [e2]; linarith
        have hr' := (Rat.cast_lt (K := ℝ)).2 hr
        push_cast at hr' ⊢
        exact hr')
    rw [hkM] at this
    exact this
  -- above
  have hhigh : F.div (lnDouble (a + j)) (lnDouble a) ≤ k + 127 / 128 := by
    refine hn.le_of_le (z := (k : ℚ) + 127 / 128) ?_ (by exact_mod_cast hup)
    refine ⟨128 * k + 127, -7, ?_, ?_, by norm_num, by norm_num⟩
    · push_cast; norm_num; ring
    · rw [abs_of_nonneg (by positivity)]; norm_cast; omega
  exact doubleToUsize_eq (by omega) hlow (by linarith)

/-- The exception. -/
theorem Ieee.rows_exception (F : Ieee) : F.rows.rows (2 ^ 42) (2 ^ 21) = 2 := by
  rw [F.rows_eq (by norm_num) (by norm_num) (by norm_num)]
  obtain ⟨h1, h2⟩ := quotient_exception
  have hva : (0 : ℚ) < lnVal 21 := by exact_mod_cast lnVal_pos (by norm_num) (by norm_num : 21 < 128)
  have h1q : (lnVal 63 : ℚ) * 2 ^ 52 < lnVal 21 * (3 * 2 ^ 52 - 1) := by
    have : ((lnVal 63 * 2 ^ 52 : ℕ) : ℚ) < ((lnVal 21 * (3 * 2 ^ 52 - 1) : ℕ) : ℚ) := by exact_mod_cast h1
    norm_num at this ⊢
    exact this
  have h2q : 2 * (lnVal 21 : ℚ) ≤ lnVal 63 := by exact_mod_cast h2
  have hr3 : (lnVal 63 : ℚ) / lnVal 21 < 3 - 1 / 2 ^ 52 := by
    rw [div_lt_iff₀ hva]
    have : (0 : ℚ) < 2 ^ 52 := by positivity
    rw [← mul_lt_mul_iff_of_pos_right this]
    have e : (3 - 1 / 2 ^ 52 : ℚ) * lnVal 21 * 2 ^ 52 = lnVal 21 * (3 * 2 ^ 52 - 1) := by ring
    rw [e]; exact h1q
  have hr2 : 2 ≤ (lnVal 63 : ℚ) / lnVal 21 := by rw [le_div_iff₀ hva]; exact h2q
  have hn := F.div_nearest_ln (m := 63) (a := 21) (by norm_num) (by norm_num) (by norm_num) (by norm_num)
    (by linarith [show (0 : ℚ) < 1 / 2 ^ 52 by positivity])
  refine doubleToUsize_eq (by norm_num) ?_ ?_
  · by_contra hlt
    rw [not_le] at hlt
    have hz : IsDouble (2 : ℚ) := ⟨2, 0, by norm_num, by norm_num, by norm_num, by norm_num⟩
    have h3 := hn.2 2 hz
    have h4 : (2 : ℝ) ≤ (((lnVal 63 : ℚ) / lnVal 21 : ℚ) : ℝ) := by exact_mod_cast hr2
    have h5 : ((F.div (lnDouble 63) (lnDouble 21) : ℚ) : ℝ) < 2 := by exact_mod_cast hlt
    rw [abs_of_neg (by linarith), Rat.cast_ofNat, abs_of_nonpos (by linarith)] at h3
    linarith
  · have hz : IsDouble (3 - 1 / 2 ^ 51 : ℚ) :=
      ⟨3 * 2 ^ 51 - 1, -51, by norm_num, by norm_num, by norm_num, by norm_num⟩
    have hr3' : (((lnVal 63 : ℚ) / lnVal 21 : ℚ) : ℝ) < ((3 - 1 / 2 ^ 52 : ℚ) : ℝ) := by
      exact_mod_cast hr3
    have := hn.lt_of_closer hz (k := 3) (by norm_num) (by
      push_cast at hr3' ⊢
      norm_num at hr3' ⊢
      linarith)
    push_cast
    norm_num
    exact this

end Verif
