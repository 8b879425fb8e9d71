import Verif.Lemmas.ProofCompound
/-! Helper lemmas: how the check of a compound layer ends. -/
namespace Verif
open Spec
variable {E : Type}

/-- Returns a value or panics. -/
def Res.OkOrPanic {α : Type} (r : Res α) : Prop := (∃ x, r = .ok x) ∨ ∃ m, r = .error (.panic m)

theorem Res.OkOrPanic.bind {α β : Type} {r : Res α} (h : r.OkOrPanic) {f : α → Res β}
    (hf : ∀ x, r = .ok x → (f x).OkOrPanic) : (r >>= f).OkOrPanic := by
  rcases h with ⟨x, rfl⟩ | ⟨m, rfl⟩
  · exact hf x rfl
  · exact Or.inr ⟨m, rfl⟩

theorem idxP_okOrPanic {α : Type} (l : List α) (i : Nat) : (idxP l i).OkOrPanic := by
  unfold idxP
  cases l[i]? with
  | none => exact Or.inr ⟨_, rfl⟩
  | some x => exact Or.inl ⟨_, rfl⟩

theorem Proof.root_okOrPanic (p : Proof E) : p.root.OkOrPanic := by
  unfold Proof.root
  cases p.lem.getLast? with
  | none => exact Or.inr ⟨_, rfl⟩
  | some x => exact Or.inl ⟨_, rfl⟩

theorem gather_okOrPanic {h : Res E} (hh : h.OkOrPanic) (p : Nat) (l : List E) (base : Nat) :
    ∀ n j cur, (Proof.gather h p l base n j cur).OkOrPanic
  | 0, _, _ => Or.inl ⟨_, rfl⟩
  | n + 1, j, cur => by
    rw [Proof.gather]
    split
    · exact hh.bind fun x _ => (gather_okOrPanic hh p l base n _ _).bind fun _ _ => Or.inl ⟨_, rfl⟩
    · exact (idxP_okOrPanic _ _).bind fun x _ =>
        (gather_okOrPanic hh p l base n _ _).bind fun _ _ => Or.inl ⟨_, rfl⟩

/-- What a returning `gather` has found. -/
theorem gather_ok_needs (h : Res E) (p : Nat) (l : List E) (base : Nat) :
    ∀ n j cur o, Proof.gather h p l base n j cur = .ok o →
      (j ≤ p ∧ p < j + n → (∃ x, h = .ok x) ∧ (n = 1 ∨ base + cur + (n - 1) ≤ l.length)) ∧
      (p < j ∨ j + n ≤ p → n = 0 ∨ base + cur + n ≤ l.length)
  | 0, j, cur, o, _ => ⟨by omega, fun _ => Or.inl rfl⟩
  | n + 1, j, cur, o, hg => by
    rw [Proof.gather] at hg
    split at hg
    · rename_i hj
      simp only [bind_ok_iff] at hg
      obtain ⟨x, hx, y, hy, -⟩ := hg
      have ih := gather_ok_needs h p l base n _ _ _ hy
      refine ⟨fun _ => ⟨⟨x, hx⟩, ?_⟩, by omega⟩
      rcases ih.2 (by omega) with h0 | h0
      · left; omega
      · right; omega
    · rename_i hj
      simp only [bind_ok_iff] at hg
      obtain ⟨x, hx, y, hy, -⟩ := hg
      have hlt : base + cur < l.length := by
        unfold idxP at hx
        cases hc : l[base + cur]? with
        | none => rw [hc] at hx; cases hx
        | some y => exact (List.getElem?_eq_some_iff.1 hc).1
      have ih := gather_ok_needs h p l base n _ _ _ hy
      refine ⟨fun hp => ?_, fun hp => ?_⟩
      · obtain ⟨h1, h2⟩ := ih.1 (by omega)
        refine ⟨h1, Or.inr ?_⟩
        rcases h2 with h2 | h2 <;> omega
      · rcases ih.2 (by omega) with h0 | h0
        · right; omega
        · right; omega

/-- How the check of a compound layer ends. -/
theorem validateTopLayer_eq [DecidableEq E] {A : Alg E} (hA : A.LawfulReset) {ar : Nat}
    (har : 0 < ar) {s p : Proof E} {r : E} (hr : s.root = .ok r) {p0 : Nat}
    (h0 : p.path.head? = some p0) :
    if LayerFits ar p.subn p0 p.lem.length then
      Proof.validateTopLayer A ar s p = .ok (decide (p0 < ar ∧
        p.lem.getLast? = some (A.nodeHash (insertAt p0 r (p.lem.take (ar - 1))) 0)))
    else ∃ m, Proof.validateTopLayer A ar s p = .error (.panic m) := by
  have hi : idxP p.path 0 = .ok p0 := by
    cases hp : p.path with
    | nil => rw [hp] at h0; cases h0
    | cons a t => rw [hp] at h0; simpa [idxP] using h0
  have hsub : (Proof.subTreeRoot s p).OkOrPanic := by
    unfold Proof.subTreeRoot
    split
    · exact Or.inl ⟨r, hr⟩
    · exact Or.inr ⟨_, rfl⟩
  unfold Proof.validateTopLayer
  rw [hi, Res.ok_bind]
  split
  · rename_i hfit
    unfold LayerFits at hfit
    split at hfit
    · rename_i hp
      have hs : Proof.subTreeRoot s p = .ok r := by
        unfold Proof.subTreeRoot
        rw [if_pos hfit.1, hr]
      rw [hs, gather_hit r p0 p.lem 0 ar 0 0 (by omega) (by omega) (by omega), Res.ok_bind]
      have hcur : ¬ (0 + (ar - 1) ≠ ar - 1) := by omega
      dsimp only
      rw [if_neg hcur]
      cases hl : p.lem.getLast? with
      | none =>
        rw [List.getLast?_eq_none_iff] at hl
        rw [hl] at hfit; simp at hfit
      | some z =>
        have hroot : p.root = .ok z := by unfold Proof.root; rw [hl]
        rw [hroot, Res.ok_bind, hA A.init]
        simp only [Nat.add_zero, List.drop_zero, Nat.sub_zero, Except.ok.injEq, hp, true_and,
          Option.some.injEq, decide_eq_decide]
        exact ⟨fun h => h.symm, fun h => h.symm⟩
    · rename_i hp
      rw [gather_miss _ p0 p.lem 0 ar 0 0 (by omega) (by omega), Res.ok_bind]
      have hcur : 0 + ar ≠ ar - 1 := by omega
      dsimp only
      rw [if_pos hcur]
      simp [hp]
  · rename_i hfit
    rcases gather_okOrPanic hsub p0 p.lem 0 ar 0 0 with ⟨⟨ns, cur⟩, hg⟩ | ⟨m, hg⟩
    · have hneed := gather_ok_needs _ _ _ _ _ _ _ _ hg
      unfold LayerFits at hfit
      split at hfit
      · rename_i hp
        obtain ⟨⟨x, hx⟩, h2⟩ := hneed.1 (by omega)
        have hpos : 0 < p.subn := by
          unfold Proof.subTreeRoot at hx
          split at hx
          · assumption
          · cases hx
        have hlen : ar - 1 ≤ p.lem.length := by rcases h2 with h2 | h2 <;> omega
        have hnil : p.lem = [] := by
          by_contra hne
          exact hfit ⟨hpos, hlen, List.length_pos_iff.2 hne⟩
        rw [hnil] at hlen
        simp only [List.length_nil] at hlen
        rw [hx, gather_hit x p0 p.lem 0 ar 0 0 (by omega) (by omega) (by omega), Res.ok_bind]
        have hcur : ¬ (0 + (ar - 1) ≠ ar - 1) := by omega
        dsimp only
        rw [if_neg hcur]
        have hroot : p.root = .error (.panic "[root] requested element is empty") := by
          unfold Proof.root; rw [hnil]; rfl
        rw [hroot]
        exact ⟨_, rfl⟩
      · rename_i hp
        have := hneed.2 (by omega)
        omega
    · rw [hg]; exact ⟨m, rfl⟩

/-- A valid proof has a root. -/
theorem validate_true_root [DecidableEq E] {A : Alg E} {b : Nat} : ∀ {p : Proof E},
    p.validate A b = .ok true → ∃ r, p.root = .ok r
  | .base top subn l path, h => by
    obtain ⟨rfl, rfl⟩ := validate_base_arity h
    simp only [Proof.validate, Nat.lt_irrefl, gt_iff_lt, ↓reduceIte] at h
    unfold Proof.validateBase at h
    split at h
    · cases h
    · rename_i hl
      cases hz : l.getLast? with
      | none =>
        rw [List.getLast?_eq_none_iff] at hz
        rw [hz] at hl; simp [Proof.lem] at hl
      | some z => exact ⟨z, by unfold Proof.root; rw [Proof.lem, hz]⟩
  | .nested s top subn l path, h => by
    obtain ⟨_, _, h3⟩ := validate_nested_true h
    unfold Proof.validateTopLayer at h3
    simp only [bind_ok_iff] at h3
    obtain ⟨p0, -, ⟨ns, cur⟩, -, h4⟩ := h3
    dsimp only at h4
    split at h4
    · simp at h4
    · simp only [bind_ok_iff] at h4
      obtain ⟨r, hr, -⟩ := h4
      exact ⟨r, hr⟩

end Verif
