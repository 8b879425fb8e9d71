import Verif.Lemmas.FloatTable
import Verif.Props.ProofComplete
/-
C58: the row count computed with floating point logarithms (src/merkle.rs:1945-1952) is exact for all
64-bit sizes but one, provided `ln` is correctly rounded at powers of two.
-/
namespace Verif
open Spec

theorem log_two_pow {a j : Nat} (ha : 1 ≤ a) : Nat.log (2 ^ a) (2 ^ j) = j / a := by
  apply Nat.log_eq_of_pow_le_of_lt_pow
  · rw [← Nat.pow_mul]
    exact Nat.pow_le_pow_right (by norm_num) (by rw [Nat.mul_comm]; exact Nat.div_mul_le_self j a)
  · rw [← Nat.pow_mul]
    refine Nat.pow_lt_pow_right (by norm_num) ?_
    rw [Nat.mul_comm]
    have := Nat.lt_div_mul_add (a := j) ha
    rw [Nat.add_mul, Nat.one_mul]
    exact this

/-- **C58.** For every arity and every number of leaves that fit in 64 bits, except arity `2^21` with
`2^42` leaves, the computed row count is the integer part of the logarithm plus one. -/
theorem C58_row_count (F : Ieee) {b n : Nat} (hb : Arity b) (hb' : b < 2 ^ 64) (hn : n < 2 ^ 64)
    (hne : ¬ (b = 2 ^ 21 ∧ n = 2 ^ 42)) : @FloatRows.FloorAt F.rows b n := by
  rintro h2 ⟨j, rfl⟩ hle
  obtain ⟨a, ha, rfl⟩ := hb
  have ha' : a < 64 := (Nat.pow_lt_pow_iff_right (by norm_num)).1 hb'
  have hj' : j < 64 := (Nat.pow_lt_pow_iff_right (by norm_num)).1 hn
  have hj : a ≤ j := (Nat.pow_le_pow_iff_right (by norm_num)).1 hle
  have ha2 : 2 ≤ a := by
    by_contra hc
    obtain rfl : a = 1 := by omega
    exact h2 rfl
  rw [F.rows_pow ha2 ha' hj hj' (by rintro ⟨rfl, rfl⟩; exact hne ⟨rfl, rfl⟩), log_two_pow ha,
    Nat.add_div_left _ (by omega)]

/-- **C58.** So full trees get the right row count. -/
theorem C58_full_trees (F : Ieee) {b k : Nat} (hb : Arity b) (hk : 1 ≤ k) (hn : b ^ k < 2 ^ 64)
    (hne : ¬ (b = 2 ^ 21 ∧ k = 2)) : @merkleTreeRowCount F.rows (b ^ k) b = k + 1 := by
  let _ := F.rows
  have h2 := hb.two_le
  have hbk : b ≤ b ^ k := Nat.le_self_pow (by omega) b
  refine rowCount_pow (FloatRows.FloorAt.exact hb hk (C58_row_count F hb (by omega) hn ?_))
  rintro ⟨rfl, h⟩
  rw [← Nat.pow_mul] at h
  have := Nat.pow_right_injective (le_refl 2) h
  exact hne ⟨rfl, by omega⟩

/-- **C58 fails** for arity `2^21` and `2^42` leaves: a full tree of three rows gets two.  The quotient
of the two logarithms, both correctly rounded, is closer to the double below 3. -/
theorem C58_exception_refuted (F : Ieee) :
    @merkleTreeRowCount F.rows ((2 ^ 21) ^ 2) (2 ^ 21) = 2 := by
  unfold merkleTreeRowCount
  rw [if_neg (by norm_num), ← Nat.pow_mul]
  exact F.rows_exception

section
variable {E : Type} [Element E] [LawfulElement E] {A : Alg E} {S : Type} [Store S E]
  [RejectingStore S E] [NoArityOne S E]

/-- **C58.** What this means for construction and proofs (C08, C11, C14), for all arities the library
can build and all leaf counts of 64 bits, without a hypothesis on the row count: a build succeeds
exactly for full trees, the result is the Merkle tree of its leaves, and its proofs are valid. -/
theorem C58_trees [DecidableEq E] (F : Ieee) (hA : A.LawfulReset) {b : Nat} (hb : Arity b)
    (hb' : b ≤ 4096) {σ : Sched} (hσ : σ.Valid) {src : Source A} (hs : src.Valid)
    (hn : src.leaves.length < 2 ^ 64) {cfg : Option StoreConfig} {fs : FS}
    (hc : ∀ c ∈ cfg, fs.file c.file = none) :
    letI := F.rows
    (Res.IsOk (src.build (S := S) b σ cfg fs).1 ↔ ∃ k, 1 ≤ k ∧ src.leaves.length = b ^ k) ∧
    ∀ (t : BaseTree S E) fs', src.build b σ cfg fs = (.ok t, fs') →
      ∃ k, 1 ≤ k ∧ t.IsTreeOf A b k src.leaves fs' ∧
        ∀ i (hi : i < src.leaves.length), ∃ p, t.genProof b 0 0 fs' i = .ok p ∧
          p.item = .ok src.leaves[i] ∧ p.root = .ok t.root ∧ p.path = digits b k i ∧
          (A.HeightsAgree b → p.validate A b = .ok true) := by
  let _ := F.rows
  have hf : FloatRows.FloorAt b src.leaves.length :=
    C58_row_count F hb (by omega) hn (by rintro ⟨rfl, _⟩; norm_num at hb')
  refine ⟨C11_ok_iff_full hA hb hb' hσ hs hf hc, fun t fs' h => ?_⟩
  obtain ⟨k, hk, ht⟩ := C08_built_tree hA hσ hs hf hc h
  refine ⟨k, hk, ht, fun i hi => ?_⟩
  obtain ⟨p, h1, h2, h3, h4, h5⟩ := C14_proof_complete hb hk ht hi
  exact ⟨p, h1, h2, h3, h4, h5 hA⟩

end

/-- There is such an arithmetic. -/
theorem Ieee.nonempty : Nonempty Ieee := by
  choose near hnear using exists_nearest
  refine ⟨⟨fun n => near (n : ℝ), fun x y => near ((x * y : ℚ) : ℝ), fun x y => near ((x / y : ℚ) : ℝ),
    fun x => near (Real.log x), fun n _ => hnear _, fun x y _ _ _ => hnear _,
    fun x y _ _ _ _ => hnear _, fun m _ _ => ?_⟩⟩
  have := hnear (Real.log (((2 ^ m : ℚ)) : ℝ))
  push_cast at this ⊢
  exact this

/-- Arity 8 and `2^60` leaves: 21 rows. -/
example (F : Ieee) : @merkleTreeRowCount F.rows (8 ^ 20) 8 = 21 :=
  C58_full_trees F ⟨3, by norm_num, by norm_num⟩ (by norm_num) (by norm_num) (by norm_num)

/-- Arity 4096 and `2^60` leaves: 6 rows. -/
example (F : Ieee) : @merkleTreeRowCount F.rows (4096 ^ 5) 4096 = 6 :=
  C58_full_trees F ⟨12, by norm_num, by norm_num⟩ (by norm_num) (by norm_num) (by norm_num)

end Verif
