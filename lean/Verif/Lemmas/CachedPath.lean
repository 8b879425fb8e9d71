import Verif.Lemmas.Stale
import Verif.Lemmas.LevelProof
/-! `gen_cached_proof` when only the nodes next to the path can be read. -/
namespace Verif
open Spec

section
variable {E : Type}

/-- The loop of the cached proof depends on the siblings of the path only. -/
theorem cachedProofLoop_congr {rd rd' prd : Nat → Res E} {b k r : Nat} (hb : Arity b) :
    ∀ (n fuel j pb sw ss : Nat), n ≤ k → n < fuel → j < b ^ n →
    (∀ l, k - n ≤ l → l < k → ∀ x, j / b ^ (l - (k - n)) / b * b ≤ x →
      x < j / b ^ (l - (k - n)) / b * b + b → x ≠ j / b ^ (l - (k - n)) →
      rowStart b k l + x < b ^ k ∨ rowStart b k (r + 1) ≤ rowStart b k l + x →
      rd (rowStart b k l + x) = rd' (rowStart b k l + x)) →
    BaseTree.cachedProofLoop rd prd b (nodes b k) (b ^ k) (rowStart b k (r + 1)) fuel
        (rowStart b k (k - n)) (b ^ n) pb sw ss j
      = BaseTree.cachedProofLoop rd' prd b (nodes b k) (b ^ k) (rowStart b k (r + 1)) fuel
        (rowStart b k (k - n)) (b ^ n) pb sw ss j
  | n, 0, _, _, _, _, _, hf, _, _ => by omega
  | 0, fuel + 1, j, _, _, _, _, _, _, _ => by
    have := rowStart_top b k
    rw [BaseTree.cachedProofLoop, BaseTree.cachedProofLoop,
      if_neg (by simp only [Nat.sub_zero]; omega), if_neg (by simp only [Nat.sub_zero]; omega)]
  | n + 1, fuel + 1, j, pb, sw, ss, hn, hf, hj, h => by
    have hb2 := hb.two_le
    have hj' : j / b < b ^ n := by
      rw [Nat.div_lt_iff_lt_mul (by omega), ← Nat.pow_succ]; exact hj
    obtain ⟨hlt, hrow⟩ := cached_row hb2 hn
    rw [BaseTree.cachedProofLoop, BaseTree.cachedProofLoop, if_pos hlt, if_pos hlt]
    simp only []
    rw [siblings_congr (rd := fun c =>
          if rowStart b k (k - (n + 1)) + c < b ^ k ∨ rowStart b k (k - (n + 1)) + c ≥ rowStart b k (r + 1)
          then rd (rowStart b k (k - (n + 1)) + c)
          else do
            let p ← subP (pb + c) ss
            prd p) (rd' := fun c =>
          if rowStart b k (k - (n + 1)) + c < b ^ k ∨ rowStart b k (k - (n + 1)) + c ≥ rowStart b k (r + 1)
          then rd' (rowStart b k (k - (n + 1)) + c)
          else do
            let p ← subP (pb + c) ss
            prd p) b (j / b * b) fun x h1 h2 h3 => by
        split
        · rename_i hc
          have h0 := h (k - (n + 1)) (Nat.le_refl _) (by omega) x
          rw [Nat.sub_self, Nat.pow_zero, Nat.div_one] at h0
          exact h0 h1 h2 h3 hc
        · rfl]
    have ih := cachedProofLoop_congr (rd := rd) (rd' := rd') (prd := prd) (k := k) (r := r) hb n fuel (j / b) (pb + sw)
      (sw / b) (ss / b) (by omega) (by omega) hj' (fun l h1 h2 x => by
        have hd : j / b / b ^ (l - (k - n)) = j / b ^ (l - (k - (n + 1))) := by
          rw [Nat.div_div_eq_div_mul, Nat.mul_comm, ← Nat.pow_succ]
          congr 2; omega
        rw [hd]
        exact h l (by omega) h2 x)
    rw [hrow, hb.shiftRight, hb.shiftRight, hb.shiftRight, hb.shiftRight, Nat.pow_succ,
      Nat.mul_div_cancel _ (by omega), ih]

end

section
variable {S E : Type} [Element E] [LawfulElement E] [StoreOps S E] [FloatRows] {A : Alg E}

/-- `gen_cached_proof` on a tree that reads, next to the path above the rows taken as discarded, the
nodes `f'`. -/
theorem BaseTree.ReadsCached.genCachedProof_path {b k d : Nat} (hb : Arity b) (hb' : b ≤ buildChunkNodes)
    (hk : 1 ≤ k) {rows : Option Nat} (hf : FloatRows.ExactAt b k)
    (hf' : FloatRows.ExactAt b (k - 1 - BaseTree.effectiveDiscard (b ^ k) b rows)) {σ : Sched}
    (hσ : σ.Valid) {fs : FS} {t : BaseTree S E} {leaves : List E} {f f' : Nat → E}
    (hl : IsLayout A.nodeHash b k leaves f) (h : t.ReadsCached fs b k d leaves f) {r : Nat}
    (hr : r = BaseTree.effectiveDiscard (b ^ k) b rows) {i : Nat} (hi : i < b ^ k)
    (h0 : ∀ j, j < b ^ k → f' j = f j) (h1 : f' (nodes b k - 1) = f (nodes b k - 1))
    (h2 : ∀ l, l ≤ r + 1 → ∀ j, j < b ^ (r + 1 - l) →
      f' (rowStart b k l + (i / b ^ (r + 1) * b ^ (r + 1 - l) + j))
        = f (rowStart b k l + (i / b ^ (r + 1) * b ^ (r + 1 - l) + j)))
    (hpath : ∀ l, r < l → l < k → ∀ x, i / b ^ l / b * b ≤ x → x < i / b ^ l / b * b + b →
      x ≠ i / b ^ l → t.readAt fs (rowStart b k l + x) = .ok (f' (rowStart b k l + x))) :
    t.genCachedProof A b 0 0 σ i rows fs = (.ok (honestProof f' b k i), fs) := by
  have hb2 := hb.two_le
  obtain ⟨pt, g, hp, hfg, e⟩ := genCachedProof_loop hb hb' hk hf hf' hσ hl h hr hi
  have hpn := pow_le_nodes b k
  have hkl : k < b ^ k := Nat.lt_pow_self (by omega)
  set rd' : Nat → Res E := fun n => if n < nodes b k then .ok (f' n) else t.readAt fs n with hrd'
  have hsame := cachedProofLoop_congr (rd := t.readAt fs) (rd' := rd') (prd := pt.readAt fs) (r := r) hb k
    (nodes b k + b ^ k + 2) i 0 (b ^ (r + 1)) (i / b ^ (r + 1) * b ^ (r + 1)) (Nat.le_refl _) (by omega) hi
    (fun l _ h4 x h5 h6 h7 h8 => by
      rw [Nat.sub_self, Nat.sub_zero] at h5 h6 h7
      have hjb : i / b ^ l / b < b ^ (k - l - 1) := by
        rw [Nat.div_lt_iff_lt_mul (by omega), Nat.div_lt_iff_lt_mul (Nat.pow_pos (by omega)),
          ← Nat.pow_succ, ← Nat.pow_add]
        rwa [show k - l - 1 + 1 + l = k by omega]
      have hx : x < b ^ (k - l) := by
        calc x < i / b ^ l / b * b + b := h6
          _ = (i / b ^ l / b + 1) * b := by ring
          _ ≤ b ^ (k - l - 1) * b := Nat.mul_le_mul_right _ hjb
          _ = b ^ (k - l) := by rw [← Nat.pow_succ]; congr 1; omega
      have hle := rowStart_le_nodes b k l (by omega)
      have hpl := pow_le_nodes b (k - l)
      rw [hrd']
      dsimp only
      rw [if_pos (by omega)]
      rcases h8 with h8 | h8
      · rw [h0 _ h8]; exact h.reads _ (.inl h8) (by omega)
      · refine hpath l ?_ h4 x h5 h6 h7
        by_contra hlr
        have h9 := rowStart_mono (b := b) (k := k) (show l + 1 ≤ r + 1 by omega)
        rw [rowStart] at h9
        omega)
  have h3 := cachedProofLoop_eq (rd := rd') (prd := pt.readAt fs) (f := f') (q := i / b ^ (r + 1)) hb
    (fun j _ h1 => by rw [hrd']; exact if_pos (by omega)) hp
    (fun l h3 j h4 => by rw [h2 l h3 j h4]; exact hfg l h3 j h4) k (nodes b k + b ^ k + 2) i
    0 (b ^ (r + 1)) (i / b ^ (r + 1) * b ^ (r + 1)) (Nat.le_refl _) (by omega) hi (by
      intro _
      simp [rowStart])
  simp only [Nat.sub_self] at h3 hsame
  have h4 : rowStart b k 0 = 0 := rfl
  rw [h4] at h3 hsame
  rw [e, hsame, h3, Res.ok_bind]
  have hlen : (f' i :: auth f' b k k i ++ [f' (nodes b k - 1)]).length = 2 + (b - 1) * k := by
    simp only [List.length_append, List.length_cons, List.length_nil, auth_length f' (by omega : 0 < b)]
    rw [Nat.mul_comm]; omega
  simp only []
  rw [← h0 i hi, ← h1, ensure_true hlen, Res.ok_bind, ensure_true (by rw [digits_length]; omega), Res.ok_bind,
    ← honest_new f' hb2 hk i]

end
end Verif
