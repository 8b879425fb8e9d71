import Verif.Lemmas.UpdateCompound
import Verif.Props.Update
/-!
**C85**  Changing one leaf of a compound tree.
-/
set_option linter.unusedSectionVars false
namespace Verif
open Spec StoreOps

section
variable {E : Type} [Element E] [DecidableEq E] {S S' : Type} [StoreOps S E] [StoreOps S' E] {fs fs' : FS} {A : Alg E}
  {b sub top : Nat} {lss lss' : List (List E)}

/-- **C85**, `from_trees`: two compound trees whose leaves agree except for leaf `i`.  The proof for leaf `i` keeps
all its siblings; every other proof keeps its item and all siblings but at most one, over both layers. -/
theorem C85_from_trees (hb : Arity b) {cs : List (BaseTree S E)} {cs' : List (BaseTree S' E)}
    {t : Node (BaseTree S E) E} {t' : Node (BaseTree S' E) E}
    (ht : fromTrees A sub cs = .ok t) (ht' : fromTrees A sub cs' = .ok t')
    (hcs : List.Forall₂ (BaseTree.IsTree A b fs) cs lss) (hcs' : List.Forall₂ (BaseTree.IsTree A b fs') cs' lss')
    {i : Nat} (hi : i < lss.flatten.length) (h : AgreeBut i lss.flatten lss'.flatten) :
    Changed lss.flatten.length i ((Tree1.sub t).genProof b sub fs) ((Tree1.sub t').genProof b sub fs') :=
  fromTrees_changed hb ht ht' hcs hcs' hi h

/-- **C85**, `from_sub_trees`. -/
theorem C85_from_sub_trees (hb : Arity b) {cs : List (Tree1 S E)} {cs' : List (Tree1 S' E)}
    {t : Node (Tree1 S E) E} {t' : Node (Tree1 S' E) E}
    (ht : fromSubTrees A top cs = .ok t) (ht' : fromSubTrees A top cs' = .ok t')
    (hcs : List.Forall₂ (Tree1.IsCompound A b sub fs) cs lss) (hcs' : List.Forall₂ (Tree1.IsCompound A b sub fs') cs' lss')
    {i : Nat} (hi : i < lss.flatten.length) (h : AgreeBut i lss.flatten lss'.flatten) :
    Changed lss.flatten.length i ((Tree2.top t).genProof b sub top fs) ((Tree2.top t').genProof b sub top fs') :=
  fromSubTrees_changed hb ht ht' hcs hcs' hi h

/-- **C85**, `from_sub_trees_as_trees`. -/
theorem C85_from_sub_trees_as_trees (hb : Arity b) {cs : List (BaseTree S E)} {cs' : List (BaseTree S' E)}
    {t : Node (Tree1 S E) E} {t' : Node (Tree1 S' E) E}
    (ht : fromSubTreesAsTrees A sub top cs = .ok t) (ht' : fromSubTreesAsTrees A sub top cs' = .ok t')
    (hcs : List.Forall₂ (BaseTree.IsTree A b fs) cs lss) (hcs' : List.Forall₂ (BaseTree.IsTree A b fs') cs' lss')
    {i : Nat} (hi : i < lss.flatten.length) (h : AgreeBut i lss.flatten lss'.flatten) :
    Changed lss.flatten.length i ((Tree2.top t).genProof b sub top fs) ((Tree2.top t').genProof b sub top fs') := by
  obtain ⟨us, mss, h1, h2, h3⟩ := asTrees_compound ht hcs
  obtain ⟨us', mss', h1', h2', h3'⟩ := asTrees_compound ht' hcs'
  rw [← h3] at hi h ⊢
  rw [← h3'] at h
  exact C85_from_sub_trees hb h1 h1' h2 h2' hi h

/-- **C85**: with no leaf changed, the root and all proofs are the same, whatever the stores; so the parts (base
trees or compound trees) that leaf `i` is not in keep their roots and proofs. -/
theorem C85_same_leaves (hb : Arity b) {cs : List (BaseTree S E)} {cs' : List (BaseTree S' E)}
    {t : Node (BaseTree S E) E} {t' : Node (BaseTree S' E) E}
    (ht : fromTrees A sub cs = .ok t) (ht' : fromTrees A sub cs' = .ok t')
    (hcs : List.Forall₂ (BaseTree.IsTree A b fs) cs lss) (hcs' : List.Forall₂ (BaseTree.IsTree A b fs') cs' lss')
    (h : lss.flatten = lss'.flatten) :
    Alike lss.flatten.length ((Tree1.sub t).genProof b sub fs) ((Tree1.sub t').genProof b sub fs') t.root t'.root :=
  fromTrees_same hb ht ht' hcs hcs' h

theorem C85_same_leaves_sub_trees (hb : Arity b) {cs : List (Tree1 S E)} {cs' : List (Tree1 S' E)}
    {t : Node (Tree1 S E) E} {t' : Node (Tree1 S' E) E}
    (ht : fromSubTrees A top cs = .ok t) (ht' : fromSubTrees A top cs' = .ok t')
    (hcs : List.Forall₂ (Tree1.IsCompound A b sub fs) cs lss) (hcs' : List.Forall₂ (Tree1.IsCompound A b sub fs') cs' lss')
    (h : lss.flatten = lss'.flatten) :
    Alike lss.flatten.length ((Tree2.top t).genProof b sub top fs) ((Tree2.top t').genProof b sub top fs')
      t.root t'.root :=
  fromSubTrees_same hb ht ht' hcs hcs' h

/-- **C85**, the parts of a `from_trees` tree that leaf `i` is not in. -/
theorem C85_other_parts (hb : Arity b) {cs : List (BaseTree S E)} {cs' : List (BaseTree S' E)}
    {t : Node (BaseTree S E) E} {t' : Node (BaseTree S' E) E}
    (ht : fromTrees A sub cs = .ok t) (ht' : fromTrees A sub cs' = .ok t')
    (hcs : List.Forall₂ (BaseTree.IsTree A b fs) cs lss) (hcs' : List.Forall₂ (BaseTree.IsTree A b fs') cs' lss')
    {i : Nat} (h : AgreeBut i lss.flatten lss'.flatten) :
    t.children = cs ∧ t'.children = cs' ∧ ∀ q (h1 : q < cs.length) (h2 : q < cs'.length), q ≠ i / (t.leafs / sub) →
      Alike (t.leafs / sub) (cs[q].genProof b 0 0 fs) (cs'[q].genProof b 0 0 fs') cs[q].root cs'[q].root := by
  obtain ⟨k, hk, hlen, c1, c2, e1, e1', e2, e2', e3, e3', hp⟩ := fromTrees_parts hb ht ht' hcs hcs' h
  obtain ⟨k', _, _, _, hs, _, hl, _⟩ := fromTrees_layer hb (top := 0) (by simp [layerArity]) ht hcs
  have : t.leafs / sub = b ^ k := by rw [hl, hlen, Nat.mul_div_cancel_left _ hs]
  refine ⟨c1, c2, fun q g1 g2 hq => ?_⟩
  rw [this] at hq ⊢
  obtain ⟨p1, p2, -, p4⟩ := hp q g1 g2 (by omega) (by omega)
  exact p1.alike hb hk (p4 hq ▸ p2)

/-- **C85**, the root: if leaf `i` differs (whatever happens to the other leaves), the roots differ, or two
different lists are hashed to the same value on the way from leaf `i` to the root. -/
theorem C85_root (hb : Arity b) {cs : List (BaseTree S E)} {cs' : List (BaseTree S' E)}
    {t : Node (BaseTree S E) E} {t' : Node (BaseTree S' E) E}
    (ht : fromTrees A sub cs = .ok t) (ht' : fromTrees A sub cs' = .ok t')
    (hcs : List.Forall₂ (BaseTree.IsTree A b fs) cs lss) (hcs' : List.Forall₂ (BaseTree.IsTree A b fs') cs' lss')
    (hl : lss.flatten.length = lss'.flatten.length) {i : Nat} (h : lss.flatten[i]? ≠ lss'.flatten[i]?) :
    t.root ≠ t'.root ∨ SubClash A b i fs fs' t t' := by
  obtain ⟨k, hk, hlen, h2, h2'⟩ := fromTrees_pair hb ht ht' hcs hcs' hl
  obtain ⟨_, -, c1, -, -, c2⟩ := Node.assemble_ok_iff.1 ht
  obtain ⟨_, -, c1', -, -, c2'⟩ := Node.assemble_ok_iff.1 ht'
  have hi : i < lss.flatten.length := by
    by_contra hi
    exact h (by rw [List.getElem?_eq_none (by omega), List.getElem?_eq_none (by omega)])
  have hn : 0 < b ^ k := Nat.pow_pos (by have := hb.two_le; omega)
  have hq : i / b ^ k < sub := by rw [hlen] at hi; rwa [Nat.div_lt_iff_lt_mul hn]
  have hcount : ∀ {S : Type} [StoreOps S E] {fs : FS} {cs : List (BaseTree S E)} {lss : List (List E)},
      List.Forall₂ (fun c ls => BaseTree.IsTreeOf A b k ls fs c) cs lss → ∀ ls ∈ lss, ls.length = b ^ k := by
    intro S _ fs cs lss hf ls hls
    obtain ⟨c, -, hc⟩ := Forall₂.exists_left hf hls
    obtain ⟨f, hf, -⟩ := hc.exists_reads
    exact hf.count
  obtain ⟨g1, g2, g3⟩ := flatten_getElem_uniform hn (hcount h2) hi
  obtain ⟨g1', g2', g3'⟩ := flatten_getElem_uniform hn (hcount h2') (hl ▸ hi)
  rw [List.getElem?_eq_getElem hi, List.getElem?_eq_getElem (hl ▸ hi), g3, g3'] at h
  have p1 := forall₂_index h2 (q := i / b ^ k) (by omega) (by omega)
  have p2 := forall₂_index h2' (q := i / b ^ k) (by omega) (by omega)
  have hlf : t.leafs = b ^ k * t.children.length := by
    obtain ⟨k', _, _, _, _, _, hl, _⟩ := fromTrees_layer hb (top := 0) (by simp [layerArity]) ht hcs
    rw [hl, hlen, show t.children = cs by rw [c2], c1, Nat.mul_comm]
  rcases C82_on_path (i := i % b ^ k) (by have := hb.two_le; omega) p1 p2 (Nat.mod_lt _ hn) (by
    rw [List.getElem?_eq_getElem g2, List.getElem?_eq_getElem g2']; exact h) with hd | ⟨l, u, v, e1, e2, e3, e4, e5⟩
  · have hroot : (cs[i / b ^ k]'(by omega)).root ≠ (cs'[i / b ^ k]'(by omega)).root := by
      have hm : nodes b k - 1 ∈ pathPositions b k (i % b ^ k) := by
        obtain ⟨-, -, hlast, -⟩ := C82_path (b := b) (k := k) (i := i % b ^ k) (by have := hb.two_le; omega) (Nat.mod_lt _ hn)
        exact List.mem_of_getLast? hlast
      have hne := hd _ hm
      obtain ⟨f, hf, hr⟩ := p1.exists_reads
      obtain ⟨g, hg, hr'⟩ := p2.exists_reads
      have hpos := nodes_pos b k
      rw [hr.reads _ (by omega), hr'.reads _ (by omega)] at hne
      rw [hr.root, hr'.root]
      exact fun e => hne (by rw [e])
    rcases Node.root_changed ht ht' _ _ hroot with hh | hh
    · exact .inl hh
    · refine .inr (.inl ?_)
      rw [show t.children = cs by rw [c2], show t'.children = cs' by rw [c2']]
      exact hh
  · refine .inr (.inr ⟨b ^ k, _, _, hlf, ?_, ?_, k, l, u, v, p1.leafs, e1, e2, e3, e4, e5⟩)
    · rw [show t.children = cs by rw [c2]]; exact List.getElem?_eq_getElem _
    · rw [show t'.children = cs' by rw [c2']]; exact List.getElem?_eq_getElem _

/-- **C85**, the root of a `from_sub_trees` tree. -/
theorem C85_root_sub_trees (hb : Arity b) {cs : List (Tree1 S E)} {cs' : List (Tree1 S' E)}
    {t : Node (Tree1 S E) E} {t' : Node (Tree1 S' E) E}
    (ht : fromSubTrees A top cs = .ok t) (ht' : fromSubTrees A top cs' = .ok t')
    (hcs : List.Forall₂ (Tree1.IsCompound A b sub fs) cs lss) (hcs' : List.Forall₂ (Tree1.IsCompound A b sub fs') cs' lss')
    (hl : lss.flatten.length = lss'.flatten.length) {i : Nat} (h : lss.flatten[i]? ≠ lss'.flatten[i]?) :
    t.root ≠ t'.root ∨ TopClash A b i fs fs' t t' := by
  obtain ⟨k, hs, htp, e1, e2, e3, e4, e5, e6⟩ := fromSubTrees_height hb ht hcs
  obtain ⟨k', -, -, e1', e2', e3', e4', e5', e6'⟩ := fromSubTrees_height hb ht' hcs'
  have hkk : k = k' := by
    have e : top * (sub * b ^ k) = top * (sub * b ^ k') := by rw [← e1, ← e1', hl]
    exact Nat.pow_right_injective hb.two_le (Nat.eq_of_mul_eq_mul_left hs (Nat.eq_of_mul_eq_mul_left htp e))
  subst hkk
  have hn : 0 < sub * b ^ k := Nat.mul_pos hs (Nat.pow_pos (by have := hb.two_le; omega))
  generalize hnn : sub * b ^ k = n at *
  have hi : i < lss.flatten.length := by
    by_contra hi
    exact h (by rw [List.getElem?_eq_none (by omega), List.getElem?_eq_none (by omega)])
  have hq : i / n < top := by rw [e1] at hi; rwa [Nat.div_lt_iff_lt_mul hn]
  obtain ⟨g1, g2, g3⟩ := flatten_getElem_uniform hn e6 hi
  obtain ⟨g1', g2', g3'⟩ := flatten_getElem_uniform hn e6' (hl ▸ hi)
  rw [List.getElem?_eq_getElem hi, List.getElem?_eq_getElem (hl ▸ hi), g3, g3'] at h
  have hlf : t.leafs = n * t.children.length := by
    have hu : t.Uniform Tree1.leafs top n := .of_assemble ht e5
    rw [hu.leafs, e2, e3, Nat.mul_comm]
  obtain ⟨ds, mss, u, a1, a2, a3, a4⟩ := forall₂_index hcs (q := i / n) (by omega) (by omega)
  obtain ⟨ds', mss', u', a1', a2', a3', a4'⟩ := forall₂_index hcs' (q := i / n) (by omega) (by omega)
  rcases C85_root hb a2 a2' a3 a3' (i := i % n) (by
      rw [← a4, ← a4', e6 _ (List.getElem_mem _), e6' _ (List.getElem_mem _)]) (by
      rw [← a4, ← a4', List.getElem?_eq_getElem g2, List.getElem?_eq_getElem g2']; exact h) with hd | hd
  · rcases Node.root_changed ht ht' (q := i / n) (by omega) (by omega) (by rw [a1, a1']; exact hd) with hh | hh
    · exact .inl hh
    · refine .inr (.inl ?_)
      rw [e2, e2']
      exact hh
  · refine .inr (.inr ⟨n, u, u', hlf, ?_, ?_, hd⟩)
    · rw [e2, List.getElem?_eq_getElem (by omega), a1]
    · rw [e2', List.getElem?_eq_getElem (by omega), a1']

end

/-! ### Concrete instances -/
section
attribute [local instance] idealRows

-- two compound trees, the second with leaf 6 changed
example : List.Forall₂ (BaseTree.IsTree toyAlg 2 FS.empty) [smallTree, smallTree]
      [[1, 2, 3, 4].map toyAlg.leafHash, [1, 2, 3, 4].map toyAlg.leafHash] ∧
    List.Forall₂ (BaseTree.IsTree toyAlg 2 FS.empty) [smallTree, smallTreeChanged]
      [[1, 2, 3, 4].map toyAlg.leafHash, [1, 2, 9, 4].map toyAlg.leafHash] ∧
    AgreeBut 6 [[1, 2, 3, 4].map toyAlg.leafHash, [1, 2, 3, 4].map toyAlg.leafHash].flatten
      [[1, 2, 3, 4].map toyAlg.leafHash, [1, 2, 9, 4].map toyAlg.leafHash].flatten := by
  refine ⟨.cons smallTree_isTree (.cons smallTree_isTree .nil),
    .cons smallTree_isTree (.cons ⟨2, by decide, smallTreeChanged_isTreeOf⟩ .nil), rfl, fun n hn => ?_⟩
  rcases n with _ | _ | _ | _ | _ | _ | _ | _ | n
  all_goals first | rfl | exact absurd rfl hn

example : ∃ n n' p p', fromTrees toyAlg 2 [smallTree, smallTree] = .ok n ∧
    fromTrees toyAlg 2 [smallTree, smallTreeChanged] = .ok n' ∧ n.root ≠ n'.root ∧
    (Tree1.sub n).genProof 2 2 FS.empty 6 = .ok p ∧ (Tree1.sub n').genProof 2 2 FS.empty 6 = .ok p' ∧
    siblingsOf p = siblingsOf p' ∧ p ≠ p' ∧ (siblingsOf p).length = 3 :=
  ⟨_, _, _, _, rfl, rfl, by decide +kernel, rfl, rfl, by decide +kernel, by decide +kernel, by decide +kernel⟩

example : ∃ n n' p p', fromTrees toyAlg 2 [smallTree, smallTree] = .ok n ∧
    fromTrees toyAlg 2 [smallTree, smallTreeChanged] = .ok n' ∧
    (Tree1.sub n).genProof 2 2 FS.empty 1 = .ok p ∧ (Tree1.sub n').genProof 2 2 FS.empty 1 = .ok p' ∧
    siblingsOf p ≠ siblingsOf p' ∧ placesOf p = placesOf p' ∧ placesOf p = [(0, 0, [1, 0]), (0, 2, [0])] :=
  ⟨_, _, _, _, rfl, rfl, rfl, rfl, by decide +kernel, by decide +kernel, by decide +kernel⟩

end
end Verif
