import Verif.Model.Proof64
import Verif.Lemmas.Sizing64
import Verif.Lemmas.Res
import Verif.Spec.Proof64
/-! Proofs on 64-bit words. -/
namespace Verif
open Spec Word

section
variable {E : Type} {o : Overflow}

theorem merkleProofLemmaLen64_ok {b n : Nat} (hb : 1 ≤ b) (h : 2 + (b - 1) * n < wordSize) :
    merkleProofLemmaLen64 o (n + 1) b = .ok (2 + (b - 1) * n) := by
  unfold merkleProofLemmaLen64
  rw [Word.sub_ok hb, Res.ok_bind, Word.sub_ok (by omega), Res.ok_bind, Nat.add_sub_cancel,
    Word.mul_ok (by omega), Res.ok_bind, Word.add_ok h]

theorem merkleProofLemmaLen_ok {b n : Nat} (hb : 1 ≤ b) :
    merkleProofLemmaLen (n + 1) b = .ok (2 + (b - 1) * n) := by
  unfold merkleProofLemmaLen
  rw [subP_ok hb, Res.ok_bind, subP_ok (by omega), Res.ok_bind, Nat.add_sub_cancel]

/-- `Proof::new` is as on the natural numbers while the expected length fits. -/
theorem Proof.new64_eq {b top subn : Nat} {s : Option (Proof E)} {l : List E} {p : List Nat} (hb : 1 ≤ b)
    (hp : p.length + 1 < wordSize) (h : 2 + (b - 1) * p.length < wordSize) :
    Proof.new64 o b top subn s l p = Proof.new b top subn s l p := by
  unfold Proof.new64 Proof.new
  rw [merkleProofLemmaLen_ok hb, Word.add_ok hp, Res.ok_bind, merkleProofLemmaLen64_ok hb h]

theorem Proof.ensure_new64 {b k : Nat} {l : List E} {p : List Nat} {msg : String} (hb : 1 ≤ b)
    (hk : k + 1 < wordSize) (h : 2 + (b - 1) * k < wordSize) :
    (do ensure (p.length = k) msg; Proof.new64 o b 0 0 none l p) =
      (do ensure (p.length = k) msg; Proof.new b 0 0 none l p) := by
  by_cases hp : p.length = k
  · rw [Proof.new64_eq hb (by omega) (by rw [hp]; exact h)]
  · rw [ensure_false hp]; rfl

/-! ### Validation -/

theorem Proof.gather64_eq (h : Res E) (p : Nat) (l : List E) (base : Nat) : ∀ n j cur, base + cur + n < wordSize →
    Proof.gather64 o h p l base n j cur = Proof.gather h p l base n j cur
  | 0, _, _, _ => rfl
  | n + 1, j, cur, hw => by
    unfold Proof.gather64 Proof.gather
    split
    · simp only [Proof.gather64_eq h p l base n (j + 1) cur (by omega)]
    · rw [Word.add_ok (by omega), Res.ok_bind]
      simp only [Word.add_ok (o := o) (show cur + 1 < wordSize by omega), Res.ok_bind,
        Proof.gather64_eq h p l base n (j + 1) (cur + 1) (by omega)]

theorem Proof.validateLoop64_eq {m : Nat} (A : Alg E) {b : Nat} (hb : 1 ≤ b) (hbm : b * m < 2 ^ 63) (hb63 : b < 2 ^ 63)
    {l : List E} (hl : l.length < 2 ^ 63) {path : List Nat} (hp : path.length < 2 ^ 63) :
    ∀ f i pi (a : A.σ) h, Proof.validateLoop64 o m A b (b - 1) l path f i pi a h =
      Proof.validateLoop A b l path f i pi a h
  | 0, _, _, _, _ => rfl
  | f + 1, i, pi, a, h => by
    unfold Proof.validateLoop64 Proof.validateLoop
    split
    · rename_i hi
      have hws : wordSize = 2 ^ 64 := rfl
      dsimp only
      rw [allocLen, if_pos hbm, Res.ok_bind, if_neg (by omega : ¬ b = 0)]
      cases hpi : idxP path pi with
      | error e => rfl
      | ok p =>
        have hlt : pi < path.length := by
          unfold idxP at hpi
          cases hx : path[pi]? with
          | none => rw [hx] at hpi; cases hpi
          | some v => exact (List.getElem?_eq_some_iff.1 hx).1
        rw [Res.ok_bind, Res.ok_bind, Proof.gather64_eq _ _ _ _ _ _ _ (by omega), Word.sub_ok hb]
        simp only [Res.ok_bind, Word.add_ok (o := o) (show pi + 1 + 1 < wordSize by omega),
          Proof.validateLoop64_eq A hb hbm hb63 hl hp f]
    · rfl

variable [DecidableEq E]

theorem Proof.validateBase64_eq {m : Nat} (A : Alg E) {b : Nat} (hb : 1 ≤ b) (hbm : b * m < 2 ^ 63) (hb63 : b < 2 ^ 63)
    {p : Proof E} (hl : p.lem.length < 2 ^ 63) (hp : p.path.length < 2 ^ 63) :
    Proof.validateBase64 o m A b p = Proof.validateBase A b p := by
  unfold Proof.validateBase64 Proof.validateBase
  rw [Word.sub_ok hb, subP_ok hb]
  simp only [Res.ok_bind, Proof.validateLoop64_eq A hb hbm hb63 hl hp]
  rfl

theorem Proof.validateTopLayer64_eq {m : Nat} (A : Alg E) {arity : Nat} (ha : 0 < arity) (ham : arity * m < 2 ^ 63)
    (ha63 : arity < 2 ^ 63) (s p : Proof E) :
    Proof.validateTopLayer64 o m A arity s p = Proof.validateTopLayer A arity s p := by
  have hws : wordSize = 2 ^ 64 := rfl
  unfold Proof.validateTopLayer64 Proof.validateTopLayer
  rw [allocLen, if_pos ham, Res.ok_bind]
  simp only [Proof.gather64_eq (o := o) _ _ p.lem 0 arity 0 0 (by omega), Word.sub_ok (o := o) (show 1 ≤ arity from ha),
    Res.ok_bind]

theorem Proof.validate64_eq {m : Nat} (hm : 1 ≤ m) (A : Alg E) {b : Nat} (hb : 1 ≤ b) : ∀ {p : Proof E},
    ProofFits m b p → p.validate64 o m A b = p.validate A b
  | .base top subn l path, h => by
    obtain ⟨h1, h2, h3⟩ := h
    have e1 : b ≤ b * m := Nat.le_mul_of_pos_right _ hm
    have e2 : l.length ≤ l.length * m := Nat.le_mul_of_pos_right _ hm
    unfold Proof.validate64 Proof.validate
    rw [Proof.validateBase64_eq A hb h1 (by omega) (p := .base top subn l path)
      (show l.length < _ by omega) (show path.length < _ by omega)]
  | .nested s top subn l path, h => by
    obtain ⟨h0, h1, h2, h3⟩ := h
    have ih := Proof.validate64_eq hm A hb (p := s) h0
    have e1 : layerArity top subn ≤ layerArity top subn * m := Nat.le_mul_of_pos_right _ hm
    unfold Proof.validate64 Proof.validate
    rw [ih]
    unfold layerArity at *
    split
    · rename_i ht
      rw [if_pos ht] at h1 e1
      simp only [Proof.validateTopLayer64_eq A ht h1 (by omega)]
    · rename_i ht
      rw [if_neg ht] at h1 e1
      split
      · rename_i hs
        simp only [Proof.validateTopLayer64_eq A hs h1 (by omega)]
      · rfl

end
end Verif
