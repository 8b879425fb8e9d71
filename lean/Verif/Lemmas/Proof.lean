import Verif.Model.Proof
import Verif.Spec.Proof
import Verif.Lemmas.Res
import Mathlib.Tactic.Ring
import Mathlib.Tactic.Linarith
/-! Helper lemmas: what `Proof.validate` computes. -/
namespace Verif
open Spec
variable {E : Type}

theorem idxP_eq {α : Type} {xs : List α} {i : Nat} (h : i < xs.length) :
    idxP xs i = .ok xs[i] := idxP_ok h

theorem take_drop_cons {α : Type} {l : List α} {i n : Nat} (h : i < l.length) :
    (l.drop i).take (n + 1) = l[i] :: (l.drop (i + 1)).take n := by
  rw [List.drop_eq_getElem_cons h, List.take_succ_cons]

/-- No position matches: `gather` copies `n` lemma elements. -/
theorem gather_miss (h : Res E) (p : Nat) (l : List E) (base : Nat) :
    ∀ n j cur, (p < j ∨ j + n ≤ p) → base + cur + n ≤ l.length →
      Proof.gather h p l base n j cur = .ok ((l.drop (base + cur)).take n, cur + n)
  | 0, _, _, _, _ => by simp [Proof.gather]
  | n + 1, j, cur, hp, hl => by
    have hj : j ≠ p := by omega
    rw [Proof.gather, if_neg hj, idxP_eq (by omega), Res.ok_bind,
      gather_miss h p l base n (j + 1) (cur + 1) (by omega) (by omega), Res.ok_bind,
      take_drop_cons (by omega)]
    simp only [Except.ok.injEq, Prod.mk.injEq, List.cons.injEq, true_and]
    exact ⟨by rw [Nat.add_assoc], by omega⟩

/-- Position `p` matches: `gather` inserts `h` among `n - 1` lemma elements. -/
theorem gather_hit (x : E) (p : Nat) (l : List E) (base : Nat) :
    ∀ n j cur, j ≤ p → p < j + n → base + cur + (n - 1) ≤ l.length →
      Proof.gather (.ok x) p l base n j cur
        = .ok (insertAt (p - j) x ((l.drop (base + cur)).take (n - 1)), cur + (n - 1))
  | 0, j, _, h1, h2, _ => by omega
  | n + 1, j, cur, h1, h2, hl => by
    rw [Proof.gather]
    by_cases hj : j = p
    · subst hj
      rw [if_pos rfl, Res.ok_bind, gather_miss _ j l base n (j + 1) cur (by omega) (by omega),
        Res.ok_bind]
      simp [insertAt]
    · obtain ⟨n, rfl⟩ : ∃ m, n = m + 1 := ⟨n - 1, by omega⟩
      rw [if_neg hj, idxP_eq (by omega), Res.ok_bind,
        gather_hit x p l base (n + 1) (j + 1) (cur + 1) (by omega) (by omega) (by omega),
        Res.ok_bind]
      have e : p - j = (p - (j + 1)) + 1 := by omega
      simp only [Nat.add_sub_cancel, take_drop_cons (show base + cur < l.length by omega)]
      simp only [Except.ok.injEq, Prod.mk.injEq]
      constructor
      · rw [e]; simp [insertAt, Nat.add_assoc]
      · omega

/-- What the base validation loop computes. -/
theorem validateLoop_spec (A : Alg E) (hA : A.LawfulReset) {b : Nat} (hb : 2 ≤ b) (l : List E)
    (path : List Nat) : ∀ (ps : List Nat) (f pi k : Nat) (a : A.σ) (h : E),
      path.drop pi = ps → ps.length < f → 1 + k * (b - 1) + ps.length * (b - 1) + 1 = l.length →
      Proof.validateLoop A b l path f (1 + k * (b - 1)) pi a h =
        .ok (if ∀ p ∈ ps, p < b then
          some (climb A.nodeHash (fun j => j * (b - 1)) k h
            (steps b ps (l.drop (1 + k * (b - 1))))) else none) := by
  intro ps
  induction ps with
  | nil =>
    intro f pi k a h _ hf hl
    obtain ⟨f, rfl⟩ : ∃ g, f = g + 1 := ⟨f - 1, by simp at hf; omega⟩
    have : ¬ (1 + k * (b - 1) < l.length - 1) := by simp at hl; omega
    rw [Proof.validateLoop, if_neg this]
    simp [steps, climb]
  | cons p ps ih =>
    intro f pi k a h hd hf hl
    obtain ⟨f, rfl⟩ : ∃ g, f = g + 1 := ⟨f - 1, by simp at hf; omega⟩
    have hlen : (p :: ps).length * (b - 1) = ps.length * (b - 1) + (b - 1) := by
      simp [Nat.add_mul]
    rw [hlen] at hl
    have hi : 1 + k * (b - 1) < l.length - 1 := by omega
    have hpi : pi < path.length := by
      by_contra hc
      rw [List.drop_eq_nil_of_le (by omega)] at hd
      cases hd
    have hp : path[pi] = p := by
      rw [List.drop_eq_getElem_cons hpi] at hd
      exact (List.cons.inj hd).1
    have hd2 : path.drop (pi + 1) = ps := by
      rw [List.drop_eq_getElem_cons hpi] at hd
      exact (List.cons.inj hd).2
    rw [Proof.validateLoop, if_pos hi]
    simp only [idxP_eq hpi, Res.ok_bind, hp]
    by_cases hpb : p < b
    · rw [gather_hit h p l _ b 0 0 (by omega) (by omega) (by omega), Res.ok_bind]
      have hcur : ¬ (0 + (b - 1) ≠ b - 1) := by omega
      simp only [hcur, ↓reduceIte]
      have hstep : 1 + k * (b - 1) + (b - 1) = 1 + (k + 1) * (b - 1) := by ring
      rw [hstep, ih f (pi + 1) (k + 1) _ _ hd2 (by simp at hf; omega)
        (by rw [← hstep]; omega)]
      simp only [List.mem_cons, forall_eq_or_imp, hpb, true_and, steps, climb, Nat.add_zero,
        Nat.sub_zero, Alg.nodeHash, List.drop_drop, ← hstep]
      simp only [show 1 + k * (b - 1) - 1 = k * (b - 1) by omega]
      rw [hA a]
    · rw [gather_miss _ p l _ b 0 0 (by omega) (by omega), Res.ok_bind]
      have hcur : (0 + b ≠ b - 1) := by omega
      simp only [hcur, ↓reduceIte, ne_eq, not_false_eq_true]
      simp [hpb]

end Verif
