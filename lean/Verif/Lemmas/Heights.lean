import Verif.Lemmas.Compound
/-! What `validate` says about the proofs of a tree when the hash algorithm looks at the height. -/
namespace Verif
open Spec

variable {E : Type}

theorem climb_last {H : List E → Nat → E} {hgt : Nat → Nat} :
    ∀ (st : List (Nat × List E)) (l : Nat) (x : E), st ≠ [] →
    ∃ ns, climb H hgt l x st = H ns (hgt (l + st.length - 1))
  | [], _, _, h => absurd rfl h
  | [(p, s)], l, x, _ => ⟨_, rfl⟩
  | (p, s) :: q :: st, l, x, _ => by
    obtain ⟨ns, h⟩ := climb_last (q :: st) (l + 1) (H (insertAt p x s) (hgt l)) (by simp)
    refine ⟨ns, ?_⟩
    rw [climb, h]
    congr 2
    simp only [List.length_cons]
    omega

/-- The verdict on an honest proof is a verdict on the value its steps climb to. -/
theorem honest_validate [DecidableEq E] {A : Alg E} (hA : A.LawfulReset) {b k : Nat} (hb : 2 ≤ b)
    (f : Nat → E) (i : Nat) :
    (honestProof f b k i).validate A b = .ok (decide
      (climb A.nodeHash (fun j => j * (b - 1)) 0 (f i) (steps b (digits b k i) (auth f b k k i))
        = f (nodes b k - 1))) := by
  unfold honestProof
  rw [validateBase_spec A hA hb _ _ _ _ (by
    rw [auth_length f (by omega : 0 < b), digits_length])]
  congr 1
  simp only [decide_eq_decide]
  exact ⟨fun h => h.2, fun h => ⟨digits_lt (by omega) _ _, h⟩⟩

/-- The root of a tree is hashed with height `k - 1`. -/
theorem Spec.IsLayout.root_hashed {H : List E → Nat → E} {b k : Nat} (hk : 1 ≤ k) {leaves : List E}
    {f : Nat → E} (hf : IsLayout H b k leaves f) : ∃ ns, f (nodes b k - 1) = H ns (k - 1) := by
  have h := hf.step (k - 1) 0 (by omega) (by rw [show k - (k - 1 + 1) = 0 by omega]; simp)
  have h2 := rowStart_top b k
  rw [show k - 1 + 1 = k by omega, Nat.add_zero, show rowStart b k k = nodes b k - 1 by omega] at h
  exact ⟨_, h⟩

/-- A compound proof whose root and whose hash at the top have different values. -/
theorem validate_nested_false [DecidableEq E] {A : Alg E} (hA : A.LawfulReset) {b : Nat}
    {roots : List E} {p top subn : Nat} (hp : p < roots.length) (hs : 0 < subn)
    (har : roots.length = layerArity top subn) {s : Proof E} (hr : s.root = .ok roots[p]) {v : Bool}
    (hv : s.validate A b = .ok v) {r : E} (hne : A.nodeHash roots 0 ≠ r) :
    Proof.validate A b (.nested s top subn (roots.eraseIdx p ++ [r]) [p]) = .ok false := by
  cases v with
  | true =>
    rw [validate_nested_honest hA hp hs har hr hv r, decide_eq_false hne]
  | false =>
    simp only [Proof.validate, hv, Res.ok_bind]
    split
    · rfl
    · rfl

end Verif
