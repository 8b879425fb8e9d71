import Verif.Lemmas.ProofCompound
import Verif.Spec.Toy
/-
C16, C17, C22, C23: soundness of proof validation (src/proof.rs).
-/
namespace Verif
open Spec
variable {E : Type}


/-! ### C16 -/

/-- C16.  Two base proofs with the same path that both validate and have the same root are equal
lemma by lemma (so they have the same item), or the two transcripts contain a collision. -/
theorem C16_binding [DecidableEq E] (A : Alg E) (hA : A.LawfulReset) (b : Nat)
    (l₁ l₂ : List E) (path : List Nat) (p q : Proof E)
    (hp : Proof.new b 0 0 none l₁ path = .ok p) (hq : Proof.new b 0 0 none l₂ path = .ok q)
    (vp : p.validate A b = .ok true) (vq : q.validate A b = .ok true) (hr : p.root = q.root) :
    (l₁ = l₂ ∧ p.item = q.item) ∨
      Collision A.nodeHash (baseTranscript A.nodeHash b l₁ path)
        (baseTranscript A.nodeHash b l₂ path) :=
  C16_aux A hA b l₁ l₂ path p q hp hq vp vq hr

example : ∃ (p : Proof UInt8), Proof.new 2 0 0 none [5, 6, 251] [0] = .ok p ∧
    p.validate toyAlg 2 = .ok true := ⟨.base 0 0 [5, 6, 251] [0], by decide, by decide⟩

/-! ### C17 -/

/-- C17.  Replace any element of a validating base proof's lemma (item, sibling or root) by a
different one: the altered proof does not validate, unless the two transcripts contain a
collision; if the altered element is the root it never validates. -/
theorem C17_tampering_detected [DecidableEq E] (A : Alg E) (hA : A.LawfulReset) (b : Nat)
    (l : List E) (path : List Nat) (p p' : Proof E) (j : Nat) (hj : j < l.length) (z : E)
    (hz : z ≠ l[j])
    (hp : Proof.new b 0 0 none l path = .ok p) (vp : p.validate A b = .ok true)
    (hp' : Proof.new b 0 0 none (l.set j z) path = .ok p') :
    (p'.validate A b = .ok false ∨
      Collision A.nodeHash (baseTranscript A.nodeHash b l path)
        (baseTranscript A.nodeHash b (l.set j z) path)) ∧
    (j + 1 = l.length → p'.validate A b = .ok false) := by
  have hne : l ≠ l.set j z := by
    intro h
    have h2 : l[j]? = (l.set j z)[j]? := by rw [← h]
    rw [List.getElem?_set_self hj, List.getElem?_eq_getElem hj] at h2
    exact hz (Option.some.inj h2).symm
  obtain ⟨hb, _, e2, hp2⟩ := Proof.new_base_ok hp'
  obtain ⟨_, _, e1, hp1⟩ := Proof.new_base_ok hp
  obtain ⟨x, m, r, rfl, hm⟩ := lemma_split e1
  have hlen : (x :: m ++ [r]).length = m.length + 2 := by simp
  by_cases hjl : j = m.length + 1
  · -- the root
    subst hjl
    have hset : (x :: m ++ [r]).set (m.length + 1) z = x :: m ++ [z] := by
      rw [List.set_append_right _ _ (by simp)]; simp
    rw [hset] at hp' hp2 ⊢
    have hzr : z ≠ r := by
      intro h; subst h; exact hne hset.symm
    subst hp2 hp1
    simp only [Proof.mk] at vp ⊢
    rw [validateBase_spec A hA hb x r m path hm] at vp
    rw [validateBase_spec A hA hb x z m path hm]
    simp only [Except.ok.injEq, decide_eq_true_eq] at vp
    have : ¬ ((∀ p ∈ path, p < b) ∧
        climb A.nodeHash (fun j => j * (b - 1)) 0 x (steps b path m) = z) := by
      rintro ⟨_, h⟩
      exact hzr (h.symm.trans vp.2)
    rw [decide_eq_false this]
    exact ⟨Or.inl rfl, fun _ => rfl⟩
  · refine ⟨?_, fun h => by omega⟩
    obtain ⟨y, n, r', h', hn⟩ := lemma_split e2
    have hr' : r' = r := by
      have h1 : ((x :: m ++ [r]).set j z).getLast? = some r' := by
        rw [h', List.getLast?_append]; simp
      have h2 : ((x :: m ++ [r]).set j z).getLast? = some r := by
        rw [List.set_append_left _ _ (by simp; omega), List.getLast?_append]; simp
      rw [h1] at h2; exact Option.some.inj h2
    have hroot : p.root = p'.root := by
      rw [hp1, hp2, h', hr']
      exact (Proof.root_split ..).trans (Proof.root_split ..).symm
    have hv : ∃ v, p'.validate A b = .ok v := by
      rw [hp2, h']; exact ⟨_, validateBase_spec A hA hb y r' n path hn⟩
    obtain ⟨v, hv⟩ := hv
    cases v with
    | false => exact Or.inl hv
    | true =>
      rcases C16_binding A hA b _ _ path p p' hp hp' vp hv hroot with h | h
      · exact absurd h.1 hne
      · exact Or.inr h

example : ∃ (p p' : Proof UInt8), Proof.new 2 0 0 none [5, 6, 251] [0] = .ok p ∧
    p.validate toyAlg 2 = .ok true ∧ Proof.new 2 0 0 none ([5, 6, 251].set 1 7) [0] = .ok p' ∧
    p'.validate toyAlg 2 = .ok false :=
  ⟨.base 0 0 [5, 6, 251] [0], .base 0 0 [5, 7, 251] [0], by decide, by decide, by decide, by decide⟩

/-! ### C22 -/

/-- C22.  A base proof accepted by `Proof::new` validates to a boolean (no panic, no error) for
every lemma, every path and every algorithm; a path entry outside the arity gives `false`. -/
theorem C22_base_validate_total [DecidableEq E] (A : Alg E) (b : Nat) (l : List E)
    (path : List Nat) (p : Proof E) (hp : Proof.new b 0 0 none l path = .ok p) :
    (∃ v, p.validate A b = .ok v) ∧ ((∃ d ∈ path, b ≤ d) → p.validate A b = .ok false) := by
  obtain ⟨hb, _, e1, rfl⟩ := Proof.new_base_ok hp
  obtain ⟨x, m, r, rfl, hm⟩ := lemma_split e1
  have hpl : path.length ≤ m.length := by
    rw [hm]; exact Nat.le_mul_of_pos_right _ (by omega)
  have hlen : (x :: m ++ [r]).length = m.length + 2 := by simp
  have h2 : ¬ ((x :: m ++ [r]).length < 2) := by omega
  obtain ⟨o, ho, hn⟩ := validateLoop_returns A hb (x :: m ++ [r]) path path
    (x :: m ++ [r]).length 0 0 A.init x rfl (by omega) (by omega)
  have hs : b - 1 ≠ 0 := by omega
  have hl : (x :: (m ++ [r])).getLast? = some r := by
    rw [← List.cons_append, List.getLast?_append]; simp
  rw [Nat.zero_mul, Nat.add_zero, List.cons_append] at ho
  have hval : Proof.validate A b (Proof.mk none 0 0 (x :: m ++ [r]) path) =
      .ok (o.elim false (fun h => decide (h = r))) := by
    simp only [Proof.mk, Proof.validate, Nat.lt_irrefl, gt_iff_lt, ↓reduceIte]
    unfold Proof.validateBase
    simp only [Proof.lem, Proof.path, h2, ↓reduceIte, Proof.item, Proof.root]
    rw [subP_ok (by omega)]
    simp only [List.cons_append, List.head?_cons, Res.ok_bind, hs, ↓reduceIte]
    simp only [ho, Res.ok_bind]
    cases o with
    | none => rfl
    | some h => simp [hl]
  rw [hval]
  refine ⟨⟨_, rfl⟩, fun h => ?_⟩
  rw [hn h]; rfl

example : ∃ (p : Proof UInt8), Proof.new 4 0 0 none [1, 2, 3, 4, 5] [9] = .ok p ∧
    p.validate toyAlg 4 = .ok false := ⟨.base 0 0 [1, 2, 3, 4, 5] [9], by decide, by decide⟩

/-- Not covered by C22, and false: compound proofs accepted by `Proof::new` can panic when
validated.  Here an honest base proof is wrapped with an empty lemma and path. -/
theorem C22_compound_validate_can_panic :
    ∃ (s p : Proof UInt8) (m : String), Proof.new 2 0 0 none [5, 6, 251] [0] = .ok s ∧
      Proof.new 2 0 2 (some s) [] [] = .ok p ∧ p.validate toyAlg 2 = .error (.panic m) :=
  ⟨.base 0 0 [5, 6, 251] [0], .nested (.base 0 0 [5, 6, 251] [0]) 0 2 [] [],
    "index out of bounds", by decide, by decide, by decide⟩

/-! ### C23 -/


/-- C23.  Two nested proofs made by `Proof::new`, with the same arities and the same path at every
layer, that both validate and have the same root: they have the same data wherever validation looks,
and in particular their innermost base proofs have the same item, or the two transcripts contain a
collision. -/
theorem C23_compound_binding [DecidableEq E] (A : Alg E) (hA : A.LawfulReset) (b : Nat)
    (p q : Proof E) (mp : Made b p) (mq : Made b q) (hs : SameShape p q)
    (vp : p.validate A b = .ok true) (vq : q.validate A b = .ok true) (hr : p.root = q.root) :
    (SameData p q ∧ (innermost p).lem = (innermost q).lem ∧
      (innermost p).item = (innermost q).item) ∨
      Collision A.nodeHash (proofTranscript A.nodeHash b p) (proofTranscript A.nodeHash b q) := by
  rcases compound_binding_aux A hA b p mp q mq hs vp vq hr with h | h
  · exact Or.inl ⟨h, h.innermost, by simp only [Proof.item, h.innermost]⟩
  · exact Or.inr h

/-- A nested proof that validates: the base proof above under a layer with two children. -/
example : ∃ p : Proof UInt8, Made 2 p ∧ p.validate toyAlg 2 = .ok true ∧
    p = .nested (.base 0 0 [5, 6, 251] [0]) 0 2 [9, 108] [1] := by
  refine ⟨_, .nested (.base (top := 0) (subn := 0) (l := [5, 6, 251]) (path := [0])
    (p := .base 0 0 [5, 6, 251] [0]) (by decide)) (top := 0) (subn := 2) (l := [9, 108])
    (path := [1]) (by decide), ?_, rfl⟩
  decide

end Verif
