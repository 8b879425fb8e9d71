import Verif.Lemmas.ProofGen
import Verif.Lemmas.ProofSound
import Verif.Lemmas.Update
import Verif.Spec.Hashed
/-! Helper lemmas: a valid proof and the tree's own proof. -/
namespace Verif
open Spec
variable {E : Type}

/-- The last list hashed while climbing gives the value reached. -/
theorem climb_end (H : List E → Nat → E) (hgt : Nat → Nat) : ∀ (st : List (Nat × List E)) (l : Nat) (x : E),
    st ≠ [] → ∃ z, (z, hgt (l + st.length - 1)) ∈ transcript H hgt l x st ∧
      climb H hgt l x st = H z (hgt (l + st.length - 1))
  | [], _, _, h => (h rfl).elim
  | [(p, s)], l, x, _ => ⟨insertAt p x s, by simp [transcript], by simp [climb]⟩
  | (p, s) :: q :: st, l, x, _ => by
    obtain ⟨z, h1, h2⟩ := climb_end H hgt (q :: st) (l + 1) (H (insertAt p x s) (hgt l)) (by simp)
    have e : l + 1 + (q :: st).length - 1 = l + ((p, s) :: q :: st).length - 1 := by simp; omega
    rw [e] at h1 h2
    exact ⟨z, by rw [transcript]; exact List.mem_cons_of_mem _ h1, by rw [climb]; exact h2⟩

/-- The lists hashed along the honest siblings are nodes of the tree. -/
theorem transcript_auth {H : List E → Nat → E} {hgt : Nat → Nat} {b k : Nat} (hb : 0 < b) {leaves : List E}
    {f : Nat → E} (hf : IsLayout H b k leaves f) (hh : ∀ l, l < k → ∀ ns, H ns (hgt l) = H ns l) :
    ∀ n j, n ≤ k → j < b ^ n → ∀ z h,
    (z, h) ∈ transcript H hgt (k - n) (f (rowStart b k (k - n) + j)) (steps b (digits b n j) (auth f b k n j)) →
    ∃ l i, l < k ∧ i < b ^ (k - (l + 1)) ∧ h = hgt l ∧
      z = (List.range b).map fun c => f (rowStart b k l + (i * b + c))
  | 0, _, _, _, _, _, hz => by simp [digits, steps, transcript] at hz
  | n + 1, j, hn, hj, z, h, hz => by
    have hj' : j / b < b ^ n := by
      rw [Nat.div_lt_iff_lt_mul hb, ← Nat.pow_succ]; exact hj
    have ih := transcript_auth hb hf hh n (j / b) (by omega) hj' z h
    simp only [digits, auth, steps, transcript] at hz
    rw [List.take_left' (sibs_length f hb _ _), List.drop_left' (sibs_length f hb _ _),
      insertAt_sibs f hb, hh _ (by omega)] at hz
    have hs := hf.step (k - (n + 1)) (j / b) (by omega) (by
      rw [show k - (k - (n + 1) + 1) = n by omega]; exact hj')
    rw [show k - (n + 1) + 1 = k - n by omega] at hs hz
    rcases List.mem_cons.1 hz with hz | hz
    · simp only [Prod.mk.injEq] at hz
      obtain ⟨rfl, rfl⟩ := hz
      exact ⟨k - (n + 1), j / b, by omega, by rw [show k - (k - (n + 1) + 1) = n by omega]; exact hj', rfl, rfl⟩
    · apply ih
      rw [hs]
      simpa only [Nat.mul_comm b] using hz

theorem digits_surj {b : Nat} : ∀ (path : List Nat), (∀ p ∈ path, p < b) →
    ∃ i, i < b ^ path.length ∧ digits b path.length i = path
  | [], _ => ⟨0, by simp, rfl⟩
  | p :: ps, h => by
    obtain ⟨i, hi, e⟩ := digits_surj ps fun q hq => h q (by simp [hq])
    have hp : p < b := h p (by simp)
    refine ⟨i * b + p, ?_, ?_⟩
    · rw [List.length_cons, Nat.pow_succ]
      calc i * b + p < i * b + b := by omega
        _ = (i + 1) * b := by ring
        _ ≤ b ^ ps.length * b := Nat.mul_le_mul_right _ hi
    · rw [List.length_cons, digits]
      have h1 : (i * b + p) % b = p := by rw [Nat.mul_comm, Nat.mul_add_mod, Nat.mod_eq_of_lt hp]
      have h2 : (i * b + p) / b = i := by
        rw [Nat.mul_comm, Nat.mul_add_div (by omega), Nat.div_eq_of_lt hp, Nat.add_zero]
      rw [h1, h2, e]

end Verif
