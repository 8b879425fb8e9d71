import Verif.Lemmas.Update
import Verif.Props.ProofComplete
import Verif.Props.Compound
/-!
**C82**  Changing one leaf changes the nodes above it only.
-/
set_option linter.unusedSectionVars false
namespace Verif
open Spec StoreOps

section
variable {E : Type} [Element E] {S S' : Type} [StoreOps S E] [StoreOps S' E] {fs fs' : FS} {A : Alg E}
  {b k : Nat} {xs ys : List E} {t : BaseTree S E} {t' : BaseTree S' E} {i : Nat}

/-- **C82**: node `j` of row `l` depends on the leaves below it only, for trees on any two stores. -/
theorem C82_node (hb : 0 < b) (ht : t.IsTreeOf A b k xs fs) (ht' : t'.IsTreeOf A b k ys fs') {l j : Nat}
    (hl : l ≤ k) (hj : j < b ^ (k - l)) (h : ∀ d, d / b ^ l = j → xs[d]? = ys[d]?) :
    t.readAt fs (rowStart b k l + j) = t'.readAt fs' (rowStart b k l + j) := by
  obtain ⟨f, hf, hr⟩ := ht.exists_reads
  obtain ⟨g, hg, hr'⟩ := ht'.exists_reads
  have hp := rowStart_add_lt b k l j hl hj
  rw [hr.reads _ hp, hr'.reads _ hp, layout_local hb hf hg l j hl hj h]

/-- **C82**: if the leaves agree except for leaf `i`, the trees agree except at leaf `i` and the nodes above it. -/
theorem C82_off_path (hb : 0 < b) (ht : t.IsTreeOf A b k xs fs) (ht' : t'.IsTreeOf A b k ys fs')
    (h : ∀ d, d ≠ i → xs[d]? = ys[d]?) {p : Nat} (hp : p < nodes b k) (hi : p ∉ pathPositions b k i) :
    t.readAt fs p = t'.readAt fs' p := by
  obtain ⟨f, hf, hr⟩ := ht.exists_reads
  obtain ⟨g, hg, hr'⟩ := ht'.exists_reads
  rw [hr.reads _ hp, hr'.reads _ hp, layout_off_path hb hf hg h hp hi]

/-- **C82**: and if leaf `i` differs, all `k + 1` nodes on its path differ, or two different lists of nodes,
one from each tree, are hashed to the same value at the same height. -/
theorem C82_on_path (hb : 0 < b) (ht : t.IsTreeOf A b k xs fs) (ht' : t'.IsTreeOf A b k ys fs')
    (hi : i < b ^ k) (h : xs[i]? ≠ ys[i]?) :
    (∀ p ∈ pathPositions b k i, t.readAt fs p ≠ t'.readAt fs' p) ∨
      ∃ l u v, l < k ∧
        (List.range b).mapM (fun c => t.readAt fs (rowStart b k l + (b * (i / b ^ (l + 1)) + c))) = .ok u ∧
        (List.range b).mapM (fun c => t'.readAt fs' (rowStart b k l + (b * (i / b ^ (l + 1)) + c))) = .ok v ∧
        u ≠ v ∧ A.nodeHash u l = A.nodeHash v l := by
  obtain ⟨f, hf, hr⟩ := ht.exists_reads
  obtain ⟨g, hg, hr'⟩ := ht'.exists_reads
  have hlt : ∀ l, i / b ^ l < b ^ (k - l) ∨ k < l := fun l => by
    by_cases hl : l ≤ k
    · left
      rw [Nat.div_lt_iff_lt_mul (Nat.pow_pos hb), ← Nat.pow_add, Nat.sub_add_cancel hl]; exact hi
    · right; omega
  have key : ∀ l, l ≤ k → f (rowStart b k l + i / b ^ l) ≠ g (rowStart b k l + i / b ^ l) ∨
      ∃ l u v, l < k ∧
        (List.range b).mapM (fun c => t.readAt fs (rowStart b k l + (b * (i / b ^ (l + 1)) + c))) = .ok u ∧
        (List.range b).mapM (fun c => t'.readAt fs' (rowStart b k l + (b * (i / b ^ (l + 1)) + c))) = .ok v ∧
        u ≠ v ∧ A.nodeHash u l = A.nodeHash v l := by
    intro l
    induction l with
    | zero =>
      intro _
      left
      have h1 : i < xs.length := by rw [hf.count]; exact hi
      have h2 : i < ys.length := by rw [hg.count]; exact hi
      rw [List.getElem?_eq_getElem h1, List.getElem?_eq_getElem h2] at h
      simp only [rowStart, Nat.zero_add, Nat.pow_zero, Nat.div_one]
      rw [hf.leaf i h1, hg.leaf i h2]
      exact fun he => h (by rw [he])
    | succ l ih =>
      intro hl
      rcases ih (by omega) with hne | hc
      · have hj : i / b ^ (l + 1) < b ^ (k - (l + 1)) := (hlt (l + 1)).resolve_right (by omega)
        by_cases he : f (rowStart b k (l + 1) + i / b ^ (l + 1)) = g (rowStart b k (l + 1) + i / b ^ (l + 1))
        · right
          have hin : ∀ c ∈ List.range b, rowStart b k l + (b * (i / b ^ (l + 1)) + c) < nodes b k := by
            intro c hc
            have hc := List.mem_range.1 hc
            refine rowStart_add_lt b k l _ (by omega) ?_
            have e : b ^ (k - l) = b * b ^ (k - (l + 1)) := by rw [← Nat.pow_succ']; congr 1; omega
            rw [e]
            calc b * (i / b ^ (l + 1)) + c < b * (i / b ^ (l + 1) + 1) := by rw [Nat.mul_succ]; omega
              _ ≤ _ := Nat.mul_le_mul_left _ hj
          refine ⟨l, _, _, hl, mapM_ok _ _ _ fun c hc => hr.reads _ (hin c hc),
            mapM_ok _ _ _ fun c hc => hr'.reads _ (hin c hc), fun hu => hne ?_, ?_⟩
          · have hmem : i / b ^ l % b ∈ List.range b := List.mem_range.2 (Nat.mod_lt _ hb)
            have := List.map_inj_left.1 hu _ hmem
            have e : b * (i / b ^ (l + 1)) + i / b ^ l % b = i / b ^ l := by
              rw [Nat.pow_succ, ← Nat.div_div_eq_div_mul]; exact Nat.div_add_mod _ b
            simpa only [e] using this
          · rw [← hf.step l _ (by omega) hj, ← hg.step l _ (by omega) hj, he]
        · exact .inl he
      · exact .inr hc
  by_cases hc : ∃ l u v, l < k ∧
        (List.range b).mapM (fun c => t.readAt fs (rowStart b k l + (b * (i / b ^ (l + 1)) + c))) = .ok u ∧
        (List.range b).mapM (fun c => t'.readAt fs' (rowStart b k l + (b * (i / b ^ (l + 1)) + c))) = .ok v ∧
        u ≠ v ∧ A.nodeHash u l = A.nodeHash v l
  · exact .inr hc
  · left
    intro p hp
    rw [pathPositions, List.mem_map] at hp
    obtain ⟨l, hl, rfl⟩ := hp
    have hl := List.mem_range.1 hl
    have hpos := rowStart_add_lt b k l _ (by omega) ((hlt l).resolve_right (by omega))
    rw [hr.reads _ hpos, hr'.reads _ hpos]
    exact fun he => ((key l (by omega)).resolve_right hc) (Except.ok.inj he)

/-- **C82**: the path has `k + 1` nodes: the leaf, the root and what is between them. -/
theorem C82_path (hb : 0 < b) (hi : i < b ^ k) :
    (pathPositions b k i).length = k + 1 ∧ (pathPositions b k i).head? = some i ∧
      (pathPositions b k i).getLast? = some (nodes b k - 1) ∧ ∀ p ∈ pathPositions b k i, p < nodes b k := by
  refine ⟨by simp [pathPositions], by simp [pathPositions, List.range_succ_eq_map, rowStart], ?_, fun p hp => ?_⟩
  · have := rowStart_top b k
    simp only [pathPositions, List.range_succ, List.map_append, List.map_cons, List.map_nil, List.getLast?_append,
      List.getLast?_singleton, Option.some_or, Nat.div_eq_of_lt hi]
    congr 1; omega
  · rw [pathPositions, List.mem_map] at hp
    obtain ⟨l, hl, rfl⟩ := hp
    have hl := List.mem_range.1 hl
    refine rowStart_add_lt b k l _ (by omega) ?_
    rw [Nat.div_lt_iff_lt_mul (Nat.pow_pos hb), ← Nat.pow_add, Nat.sub_add_cancel (by omega)]; exact hi

/-- **C82**, proofs: after leaf `i` has changed, the proof for it has the same siblings and the same path;
the new root is the one root with which the old proof validates for the new leaf. -/
theorem C82_proof [DecidableEq E] (hA : A.LawfulReset) (hb : Arity b) (hk : 1 ≤ k) (hh : A.HeightsAgree b)
    (ht : t.IsTreeOf A b k xs fs) (ht' : t'.IsTreeOf A b k ys fs')
    (h : ∀ d, d ≠ i → xs[d]? = ys[d]?) (hx : i < xs.length) (hy : i < ys.length) :
    ∃ s path, t.genProof b 0 0 fs i = .ok (.base 0 0 (xs[i] :: s ++ [t.root]) path) ∧
      t'.genProof b 0 0 fs' i = .ok (.base 0 0 (ys[i] :: s ++ [t'.root]) path) ∧
      ∀ r, Proof.validate A b (.base 0 0 (ys[i] :: s ++ [r]) path) = .ok (decide (r = t'.root)) := by
  obtain ⟨f, hf, hr⟩ := ht.exists_reads
  obtain ⟨g, hg, hr'⟩ := ht'.exists_reads
  have hb2 := hb.two_le
  have hi : i < b ^ k := hf.count ▸ hx
  have ha : auth f b k k i = auth g b k k i :=
    (auth_agree (f := f) (g := g) (by omega) (i := i) k i (Nat.le_refl _) (fun l _ hl c hc hlt =>
      layout_local (by omega) hf hg l c (by omega) hlt fun d hd => h d fun e => hc (by rw [← hd, e])) hi).1 (by simp)
  refine ⟨auth g b k k i, digits b k i, ?_, ?_, fun r => ?_⟩
  · rw [BaseTree.genProof_eq hb hk hr hi, honestProof, ha, hf.leaf i hx, hr.root]
  · rw [BaseTree.genProof_eq hb hk hr' hi, honestProof, hg.leaf i hy, hr'.root]
  · have hlen : (auth g b k k i).length = (digits b k i).length * (b - 1) := by
      rw [auth_length g (by omega : 0 < b), digits_length]
    have hc := climb_auth (hgt := fun j => j * (b - 1)) (by omega : 0 < b) hg (fun l _ ns => hh.eq l ns) k i (Nat.le_refl _) hi
    simp only [Nat.sub_self, rowStart, Nat.zero_add] at hc
    rw [validateBase_spec A hA hb2 _ _ _ _ hlen, ← hg.leaf i hy, hc, hr'.root]
    congr 1
    rw [decide_eq_decide]
    exact ⟨fun h => h.2.symm, fun h => ⟨digits_lt (by omega) _ _, h.symm⟩⟩

/-- **C82**, proofs of other leaves: they have the same leaf and the same path, and at most one of the
`k * (b - 1)` siblings has changed. -/
theorem C82_other_proof (hb : Arity b) (hk : 1 ≤ k) (ht : t.IsTreeOf A b k xs fs) (ht' : t'.IsTreeOf A b k ys fs')
    (h : ∀ d, d ≠ i → xs[d]? = ys[d]?) {j : Nat} (hij : j ≠ i) (hj : j < xs.length) :
    ∃ m s s' path, AgreeBut m s s' ∧
      t.genProof b 0 0 fs j = .ok (.base 0 0 (xs[j] :: s ++ [t.root]) path) ∧
      t'.genProof b 0 0 fs' j = .ok (.base 0 0 (xs[j] :: s' ++ [t'.root]) path) := by
  obtain ⟨f, hf, hr⟩ := ht.exists_reads
  obtain ⟨g, hg, hr'⟩ := ht'.exists_reads
  have hb2 := hb.two_le
  have hi : j < b ^ k := hf.count ▸ hj
  have hy : j < ys.length := by rw [hg.count]; exact hi
  obtain ⟨m, hm⟩ := (auth_agree (f := f) (g := g) (b := b) (k := k) (by omega) (i := i) k j (Nat.le_refl _)
    (fun l _ hl c hc hlt => layout_local (by omega) hf hg l c (by omega) hlt fun d hd => h d fun e =>
      hc (by rw [← hd, e])) hi).2
  have hxy : ys[j] = xs[j] := by
    have := h j hij
    rw [List.getElem?_eq_getElem hj, List.getElem?_eq_getElem hy, Option.some.injEq] at this
    exact this.symm
  refine ⟨m, _, _, digits b k j, hm, ?_, ?_⟩
  · rw [BaseTree.genProof_eq hb hk hr hi, honestProof, hf.leaf j hj, hr.root]
  · rw [BaseTree.genProof_eq hb hk hr' hi, honestProof, hg.leaf j hy, hr'.root, hxy]

end

/-! ### Concrete instances -/
section
attribute [local instance] idealRows

example : pathPositions 2 3 5 = [5, 10, 13, 14] := by decide

/-- `smallTree` with its third leaf changed. -/
def smallTreeChanged : BaseTree (VecStore UInt8) UInt8 :=
  match (BaseTree.new toyAlg 2 Sched.sequential [1, 2, 9, 4] FS.empty).1 with
  | .ok t => t
  | .error _ => ⟨⟨[]⟩, 0, 0, 0, 0⟩

theorem smallTree_isTreeOf : smallTree.IsTreeOf toyAlg 2 2 ([1, 2, 3, 4].map toyAlg.leafHash) FS.empty := by
  obtain ⟨k, hk, h⟩ : smallTree.IsTree toyAlg 2 FS.empty ([1, 2, 3, 4].map toyAlg.leafHash) :=
    C08_vec (A := toyAlg) (src := Source.new [1, 2, 3, 4]) (cfg := none)
      (fs := FS.empty) toyAlg_reset (b := 2) Sched.sequential_valid trivial
      (idealRows_floor (by decide) (by decide)) (by simp) (by rfl)
  obtain rfl : 2 = k := Nat.pow_right_injective (Nat.le_refl 2) (show 2 ^ 2 = 2 ^ k from h.leafs)
  exact h

theorem smallTreeChanged_isTreeOf :
    smallTreeChanged.IsTreeOf toyAlg 2 2 ([1, 2, 9, 4].map toyAlg.leafHash) FS.empty := by
  obtain ⟨k, hk, h⟩ : smallTreeChanged.IsTree toyAlg 2 FS.empty ([1, 2, 9, 4].map toyAlg.leafHash) :=
    C08_vec (A := toyAlg) (src := Source.new [1, 2, 9, 4]) (cfg := none)
      (fs := FS.empty) toyAlg_reset (b := 2) Sched.sequential_valid trivial
      (idealRows_floor (by decide) (by decide)) (by simp) (by rfl)
  obtain rfl : 2 = k := Nat.pow_right_injective (Nat.le_refl 2) (show 2 ^ 2 = 2 ^ k from h.leafs)
  exact h

-- the hypotheses of C82_off_path, C82_proof and C82_other_proof can be met
example : ∀ d, d ≠ 2 → ([1, 2, 3, 4].map toyAlg.leafHash)[d]? = ([1, 2, 9, 4].map toyAlg.leafHash)[d]? := by
  intro d hd
  rcases d with _ | _ | _ | _ | d
  · rfl
  · rfl
  · exact absurd rfl hd
  · rfl
  · rfl

-- exactly the nodes on the path of leaf 2 differ
example : ((List.range 7).filter fun p => smallTree.store.els[p]? ≠ smallTreeChanged.store.els[p]?)
    = pathPositions 2 2 2 := by decide +kernel

end
end Verif
