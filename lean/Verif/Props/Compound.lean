import Verif.Lemmas.Compound
import Verif.Props.ProofComplete
/-
C07, C18, C19, C37, C38, C39, C48: compound trees (src/merkle.rs:517-708, 862-924, 1364-1469).
-/
set_option linter.unusedSectionVars false
namespace Verif
open Spec

section
variable {S E : Type} [Element E] [StoreOps S E] {A : Alg E}

/-! ### C39 -/

/-- C39 for `from_trees`: it succeeds exactly when there are as many trees as the (positive) arity and
they all have the same length and row count; otherwise it returns `Err`. -/
theorem C39_from_trees (A : Alg E) (sub : Nat) (cs : List (BaseTree S E)) :
    (Res.IsOk (fromTrees A sub cs) ↔ 0 < sub ∧ cs.length = sub ∧
      ∀ c ∈ cs, ∀ d ∈ cs, c.length = d.length ∧ c.rowCount = d.rowCount) ∧
    (¬ Res.IsOk (fromTrees A sub cs) → Res.IsErr (fromTrees A sub cs)) := by
  refine ⟨⟨?_, ?_⟩, fun h => (Node.assemble_returns).resolve_left h⟩
  · rintro ⟨t, ht⟩
    obtain ⟨c0, h0, h1, h2, h3, -⟩ := Node.assemble_ok_iff.1 ht
    refine ⟨?_, h1, fun c hc d hd => ⟨(h3 c hc).trans (h3 d hd).symm, (h2 c hc).trans (h2 d hd).symm⟩⟩
    cases cs with
    | nil => simp at h0
    | cons c cs => simp at h1; omega
  · rintro ⟨h0, h1, h2⟩
    cases cs with
    | nil => simp at h1; omega
    | cons c cs =>
      exact ⟨_, Node.assemble_ok_iff.2 ⟨c, rfl, h1, fun d hd => (h2 d hd c List.mem_cons_self).2,
        fun d hd => (h2 d hd c List.mem_cons_self).1, rfl⟩⟩

/-- C39 for `from_sub_trees`. -/
theorem C39_from_sub_trees (A : Alg E) (top : Nat) (cs : List (Tree1 S E)) :
    (Res.IsOk (fromSubTrees A top cs) ↔ 0 < top ∧ cs.length = top ∧
      ∀ c ∈ cs, ∀ d ∈ cs, c.length = d.length ∧ c.rowCount = d.rowCount) ∧
    (¬ Res.IsOk (fromSubTrees A top cs) → Res.IsErr (fromSubTrees A top cs)) := by
  refine ⟨⟨?_, ?_⟩, fun h => (Node.assemble_returns).resolve_left h⟩
  · rintro ⟨t, ht⟩
    obtain ⟨c0, h0, h1, h2, h3, -⟩ := Node.assemble_ok_iff.1 ht
    refine ⟨?_, h1, fun c hc d hd => ⟨(h3 c hc).trans (h3 d hd).symm, (h2 c hc).trans (h2 d hd).symm⟩⟩
    cases cs with
    | nil => simp at h0
    | cons c cs => simp at h1; omega
  · rintro ⟨h0, h1, h2⟩
    cases cs with
    | nil => simp at h1; omega
    | cons c cs =>
      exact ⟨_, Node.assemble_ok_iff.2 ⟨c, rfl, h1, fun d hd => (h2 d hd c List.mem_cons_self).2,
        fun d hd => (h2 d hd c List.mem_cons_self).1, rfl⟩⟩

/-- C39: what `from_trees` returns has the given trees as children, the hash of their roots in order as
root, and as many leaves as they have together. -/
theorem C39_from_trees_result {sub : Nat} {cs : List (BaseTree S E)} {t : Node (BaseTree S E) E}
    (h : fromTrees A sub cs = .ok t) :
    t.children = cs ∧ t.root = A.nodeHash (cs.map BaseTree.root) 1 ∧
      t.leafs = (cs.map BaseTree.leafs).sum := by
  obtain ⟨c0, -, -, -, -, rfl⟩ := Node.assemble_ok_iff.1 h
  exact ⟨rfl, rfl, rfl⟩

/-- C39: what `from_sub_trees` returns. -/
theorem C39_from_sub_trees_result {top : Nat} {cs : List (Tree1 S E)} {t : Node (Tree1 S E) E}
    (h : fromSubTrees A top cs = .ok t) :
    t.children = cs ∧ t.root = A.nodeHash (cs.map Tree1.root) 1 ∧
      t.leafs = (cs.map Tree1.leafs).sum := by
  obtain ⟨c0, -, -, -, -, rfl⟩ := Node.assemble_ok_iff.1 h
  exact ⟨rfl, rfl, rfl⟩

/-- C39: what the accessors of a tree made by `from_trees` report, whether it is used as a sub-tree or on
its own: the root is the hash of the children's roots, the leaves and nodes are counted over all
children (with one node for the root), and there is one row more than in every child. -/
theorem C39_from_trees_accessors {sub : Nat} {cs : List (BaseTree S E)} {t : Node (BaseTree S E) E}
    (h : fromTrees A sub cs = .ok t) :
    ((Tree1.sub t).root = A.nodeHash (cs.map BaseTree.root) 1 ∧
      (Tree1.sub t).leafs = (cs.map BaseTree.leafs).sum ∧
      (Tree1.sub t).length = (cs.map BaseTree.length).sum + 1 ∧
      ∀ c ∈ cs, (Tree1.sub t).rowCount = c.rowCount + 1) ∧
    ((Tree2.sub t).root = A.nodeHash (cs.map BaseTree.root) 1 ∧
      (Tree2.sub t).leafs = (cs.map BaseTree.leafs).sum ∧
      (Tree2.sub t).length = (cs.map BaseTree.length).sum + 1 ∧
      ∀ c ∈ cs, (Tree2.sub t).rowCount = c.rowCount + 1) := by
  obtain ⟨c0, -, h1, h2, h3, rfl⟩ := Node.assemble_ok_iff.1 h
  have e : (cs.map BaseTree.length).sum = BaseTree.length c0 * sub := by
    rw [← h1]; exact sum_map_const BaseTree.length h3
  rw [e]
  exact ⟨⟨rfl, rfl, rfl, fun c hc => congrArg (· + 1) (h2 c hc).symm⟩, rfl, rfl, rfl,
    fun c hc => congrArg (· + 1) (h2 c hc).symm⟩

/-- C39: what the accessors of a tree made by `from_sub_trees` report. -/
theorem C39_from_sub_trees_accessors {top : Nat} {cs : List (Tree1 S E)} {t : Node (Tree1 S E) E}
    (h : fromSubTrees A top cs = .ok t) :
    (Tree2.top t).root = A.nodeHash (cs.map Tree1.root) 1 ∧
      (Tree2.top t).leafs = (cs.map Tree1.leafs).sum ∧
      (Tree2.top t).length = (cs.map Tree1.length).sum + 1 ∧
      ∀ c ∈ cs, (Tree2.top t).rowCount = c.rowCount + 1 := by
  obtain ⟨c0, -, h1, h2, h3, rfl⟩ := Node.assemble_ok_iff.1 h
  have e : (cs.map Tree1.length).sum = Tree1.length c0 * top := by
    rw [← h1]; exact sum_map_const Tree1.length h3
  rw [e]
  exact ⟨rfl, rfl, rfl, fun c hc => congrArg (· + 1) (h2 c hc).symm⟩

/-! ### C38 -/

/-- C38.  `from_sub_trees_as_trees` over a flat list and `from_sub_trees` over the list cut, in order,
into groups of `sub` given to `from_trees`, return exactly the same tree. -/
theorem C38_flat_eq_nested (A : Alg E) (sub top : Nat) (cs : List (BaseTree S E))
    (t : Node (Tree1 S E) E) :
    fromSubTreesAsTrees A sub top cs = .ok t ↔
      ∃ ts, (chunks sub cs).mapM (fromTrees A sub) = .ok ts ∧
        fromSubTrees A top (ts.map Tree1.sub) = .ok t := by
  exact flat_eq_nested A sub top cs t

/-- C38: in particular the two succeed alike, and the tree has the same root, sizes and children. -/
theorem C38_succeed_alike (A : Alg E) (sub top : Nat) (cs : List (BaseTree S E)) :
    Res.IsOk (fromSubTreesAsTrees A sub top cs) ↔
      ∃ ts, (chunks sub cs).mapM (fromTrees A sub) = .ok ts ∧
        Res.IsOk (fromSubTrees A top (ts.map Tree1.sub)) := by
  constructor
  · rintro ⟨t, ht⟩
    obtain ⟨ts, h1, h2⟩ := (C38_flat_eq_nested A sub top cs t).1 ht
    exact ⟨ts, h1, t, h2⟩
  · rintro ⟨ts, h1, t, h2⟩
    exact ⟨t, (C38_flat_eq_nested A sub top cs t).2 ⟨ts, h1, h2⟩⟩

/-- C39 for `from_sub_trees_as_trees`. -/
theorem C39_from_sub_trees_as_trees (A : Alg E) (sub top : Nat) (cs : List (BaseTree S E)) :
    (Res.IsOk (fromSubTreesAsTrees A sub top cs) ↔ 0 < sub ∧ 0 < top ∧ cs.length = top * sub ∧
      ∀ c ∈ cs, ∀ d ∈ cs, c.length = d.length ∧ c.rowCount = d.rowCount) ∧
    (¬ Res.IsOk (fromSubTreesAsTrees A sub top cs) → Res.IsErr (fromSubTreesAsTrees A sub top cs)) :=
  ⟨fromSubTreesAsTrees_isOk_iff A sub top cs,
    fun h => (fromSubTreesAsTrees_returns A sub top cs).resolve_left h⟩

/-- C39: what `from_sub_trees_as_trees` returns: the root is the hash of the roots of the groups, and
the leaves are counted over all trees. -/
theorem C39_from_sub_trees_as_trees_result {sub top : Nat} {cs : List (BaseTree S E)}
    {t : Node (Tree1 S E) E} (h : fromSubTreesAsTrees A sub top cs = .ok t) :
    t.root = A.nodeHash ((chunks sub cs).map fun g => A.nodeHash (g.map BaseTree.root) 1) 1 ∧
      t.leafs = (cs.map BaseTree.leafs).sum := by
  obtain ⟨hs, -, -, -, -, ts, u0, h1, -, rfl⟩ := fromSubTreesAsTrees_ok_iff.1 h
  rw [mapM_ok_iff] at h1
  have h2 : ∀ (gs : List (List (BaseTree S E))) (ts : List (Node (BaseTree S E) E)),
      List.Forall₂ (fun g t => fromTrees A sub g = .ok t) gs ts →
      (ts.map Tree1.sub).map Tree1.root = gs.map (fun g => A.nodeHash (g.map BaseTree.root) 1) ∧
      ((ts.map Tree1.sub).map Tree1.leafs).sum = (gs.flatten.map BaseTree.leafs).sum := by
    intro gs ts h
    induction h with
    | nil => exact ⟨rfl, rfl⟩
    | cons e _ ih =>
      obtain ⟨_, r1, r2⟩ := C39_from_trees_result e
      simp only [List.map_cons, List.sum_cons, List.flatten_cons, List.map_append, List.sum_append,
        Tree1.root, Tree1.leafs, ih.1, ih.2, r1, r2, and_self]
  obtain ⟨e1, e2⟩ := h2 _ _ h1
  rw [chunks_flatten hs] at e2
  exact ⟨by simp only [e1], e2⟩

/-- C39: what the accessors of a tree made by `from_sub_trees_as_trees` report: one node for every group
and one for the root beside the nodes of the trees, and two rows more than in every tree. -/
theorem C39_from_sub_trees_as_trees_accessors {sub top : Nat} {cs : List (BaseTree S E)}
    {t : Node (Tree1 S E) E} (h : fromSubTreesAsTrees A sub top cs = .ok t) :
    (Tree2.top t).root = A.nodeHash ((chunks sub cs).map fun g => A.nodeHash (g.map BaseTree.root) 1) 1 ∧
      (Tree2.top t).leafs = (cs.map BaseTree.leafs).sum ∧
      (Tree2.top t).length = (cs.map BaseTree.length).sum + top + 1 ∧
      ∀ c ∈ cs, (Tree2.top t).rowCount = c.rowCount + 2 := by
  obtain ⟨r1, r2⟩ := C39_from_sub_trees_as_trees_result h
  obtain ⟨h1, -, -, -⟩ := (C39_from_sub_trees_as_trees A sub top cs).1.1 ⟨t, h⟩
  obtain ⟨ts, h2, h3⟩ := (C38_flat_eq_nested A sub top cs t).1 h
  obtain ⟨-, hn, -⟩ := (C39_from_sub_trees A top (ts.map Tree1.sub)).1.1 ⟨t, h3⟩
  obtain ⟨-, -, a3, a4⟩ := C39_from_sub_trees_accessors h3
  rw [mapM_ok_iff] at h2
  have h4 : ∀ (gs : List (List (BaseTree S E))) (ts : List (Node (BaseTree S E) E)),
      List.Forall₂ (fun g t => fromTrees A sub g = .ok t) gs ts →
      ((ts.map Tree1.sub).map Tree1.length).sum = (gs.flatten.map BaseTree.length).sum + ts.length ∧
      ∀ c ∈ gs.flatten, ∃ u ∈ ts.map Tree1.sub, u.rowCount = c.rowCount + 1 := by
    intro gs ts h
    induction h with
    | nil => exact ⟨rfl, fun c hc => by simp at hc⟩
    | cons e _ ih =>
      obtain ⟨⟨-, -, b3, b4⟩, -⟩ := C39_from_trees_accessors e
      refine ⟨?_, fun c hc => ?_⟩
      · simp only [List.map_cons, List.sum_cons, List.flatten_cons, List.map_append, List.sum_append,
          ih.1, b3, List.length_cons]
        omega
      · rw [List.flatten_cons, List.mem_append] at hc
        rcases hc with hc | hc
        · exact ⟨_, List.mem_cons_self, b4 c hc⟩
        · obtain ⟨u, hu, e⟩ := ih.2 c hc
          exact ⟨u, List.mem_cons_of_mem _ hu, e⟩
  obtain ⟨e1, e2⟩ := h4 _ _ h2
  rw [chunks_flatten h1] at e1 e2
  refine ⟨r1, r2, ?_, fun c hc => ?_⟩
  · rw [a3, e1, ← hn, List.length_map]
  · obtain ⟨u, hu, e⟩ := e2 c hc
    rw [a4 u hu, e]

/-! ### C18 -/

section
variable [DecidableEq E] {b : Nat} {fs : FS}

/-- C18.  Let `t` be made by `from_trees` from Merkle trees with leaves `lss`, in order.  For every
leaf index, with `n` the number of leaves per sub-tree: `gen_proof` succeeds; its sub-proof is the
proof of leaf `i % n` of sub-tree `i / n`; its path entry is `i / n` and its root is the compound root;
the innermost item is the `i`-th leaf; and it validates for every algorithm that ignores the
height. -/
theorem C18_compound_complete (hb : Arity b) {sub : Nat} {cs : List (BaseTree S E)}
    {t : Node (BaseTree S E) E} {lss : List (List E)} (ht : fromTrees A sub cs = .ok t)
    (hcs : List.Forall₂ (BaseTree.IsTree A b fs) cs lss) {i : Nat} (hi : i < lss.flatten.length) :
    ∃ (hlt : i / (t.leafs / sub) < t.children.length) (sp p : Proof E),
      (t.children[i / (t.leafs / sub)]).genProof b 0 0 fs (i % (t.leafs / sub)) = .ok sp ∧
      (Tree1.sub t).genProof b sub fs i = .ok p ∧
      p.sub = some sp ∧ p.path = [i / (t.leafs / sub)] ∧ p.root = .ok t.root ∧
      (innermost p).item = .ok lss.flatten[i] ∧
      (A.LawfulReset → A.IgnoresHeight → p.validate A b = .ok true) := by
  obtain ⟨k, -, -, -, -, -, -, h1, -, h2⟩ :=
    fromTrees_layer hb (top := 0) (by simp [layerArity]) ht hcs
  rw [h1]
  obtain ⟨hlt, sp, p, e1, e2, rfl, e4, e5, e6⟩ := h2 i hi
  exact ⟨hlt, sp, _, e1, e2, rfl, rfl, e4, e5, e6⟩

/-! ### C19 -/

/-- C19 for `from_sub_trees`: as C18, one layer up. -/
theorem C19_from_sub_trees (hb : Arity b) {sub top : Nat} {cs : List (Tree1 S E)}
    {t : Node (Tree1 S E) E} {lss : List (List E)} (ht : fromSubTrees A top cs = .ok t)
    (hcs : List.Forall₂ (Tree1.IsCompound A b sub fs) cs lss) {i : Nat}
    (hi : i < lss.flatten.length) :
    ∃ (hlt : i / (t.leafs / top) < t.children.length) (sp p : Proof E),
      (t.children[i / (t.leafs / top)]).genProof b sub fs (i % (t.leafs / top)) = .ok sp ∧
      (Tree2.top t).genProof b sub top fs i = .ok p ∧
      p.sub = some sp ∧ p.path = [i / (t.leafs / top)] ∧ p.root = .ok t.root ∧
      (innermost p).item = .ok lss.flatten[i] ∧
      (A.LawfulReset → A.IgnoresHeight → p.validate A b = .ok true) := by
  obtain ⟨k, -, -, -, -, -, -, -, h1, -, h2⟩ := fromSubTrees_layer hb ht hcs
  rw [h1]
  obtain ⟨hlt, sp, p, e1, e2, rfl, e4, e5, e6⟩ := h2 i hi
  exact ⟨hlt, sp, _, e1, e2, rfl, rfl, e4, e5, e6⟩

/-- C19 for `from_sub_trees_as_trees`: the leaves are those of the flat list of trees, in order. -/
theorem C19_from_sub_trees_as_trees (hb : Arity b) {sub top : Nat} {cs : List (BaseTree S E)}
    {t : Node (Tree1 S E) E} {lss : List (List E)} (ht : fromSubTreesAsTrees A sub top cs = .ok t)
    (hcs : List.Forall₂ (BaseTree.IsTree A b fs) cs lss) {i : Nat} (hi : i < lss.flatten.length) :
    ∃ (hlt : i / (t.leafs / top) < t.children.length) (sp p : Proof E),
      (t.children[i / (t.leafs / top)]).genProof b sub fs (i % (t.leafs / top)) = .ok sp ∧
      (Tree2.top t).genProof b sub top fs i = .ok p ∧
      p.sub = some sp ∧ p.path = [i / (t.leafs / top)] ∧ p.root = .ok t.root ∧
      (innermost p).item = .ok lss.flatten[i] ∧
      (A.LawfulReset → A.IgnoresHeight → p.validate A b = .ok true) := by
  obtain ⟨us, mss, h1, h2, h3⟩ := asTrees_compound ht hcs
  have := C19_from_sub_trees hb h1 h2 (i := i) (by rw [h3]; exact hi)
  simpa only [h3] using this

/-! ### C37 -/

/-- C37 for `from_trees`: `leafs` counts all leaves, and `read_at` reads them one sub-tree after the
other. -/
theorem C37_compound (hb : Arity b) {sub : Nat} {cs : List (BaseTree S E)}
    {t : Node (BaseTree S E) E} {lss : List (List E)} (ht : fromTrees A sub cs = .ok t)
    (hcs : List.Forall₂ (BaseTree.IsTree A b fs) cs lss) :
    t.leafs = lss.flatten.length ∧
      ∀ i (h : i < lss.flatten.length), (Tree1.sub t).readAt sub fs i = .ok lss.flatten[i] := by
  obtain ⟨k, -, -, -, -, -, h1, -, h2, -⟩ := fromTrees_layer hb (top := 0) (by simp [layerArity]) ht hcs
  exact ⟨h1, h2⟩

/-- C37 for `from_sub_trees`. -/
theorem C37_from_sub_trees (hb : Arity b) {sub top : Nat} {cs : List (Tree1 S E)}
    {t : Node (Tree1 S E) E} {lss : List (List E)} (ht : fromSubTrees A top cs = .ok t)
    (hcs : List.Forall₂ (Tree1.IsCompound A b sub fs) cs lss) :
    t.leafs = lss.flatten.length ∧
      ∀ i (h : i < lss.flatten.length), (Tree2.top t).readAt sub top fs i = .ok lss.flatten[i] := by
  obtain ⟨k, -, -, -, -, -, -, h1, -, h2, -⟩ := fromSubTrees_layer hb ht hcs
  exact ⟨h1, h2⟩

/-- C37 for `from_sub_trees_as_trees`. -/
theorem C37_from_sub_trees_as_trees (hb : Arity b) {sub top : Nat} {cs : List (BaseTree S E)}
    {t : Node (Tree1 S E) E} {lss : List (List E)} (ht : fromSubTreesAsTrees A sub top cs = .ok t)
    (hcs : List.Forall₂ (BaseTree.IsTree A b fs) cs lss) :
    t.leafs = lss.flatten.length ∧
      ∀ i (h : i < lss.flatten.length), (Tree2.top t).readAt sub top fs i = .ok lss.flatten[i] := by
  obtain ⟨us, mss, h1, h2, h3⟩ := asTrees_compound ht hcs
  have := C37_from_sub_trees hb h1 h2
  simpa only [h3] using this

end

/-! ### C07 -/

/-- C07 for `from_trees`: trees of `leaves` leaves each (their length is the tree length of `leaves`)
give a compound tree of the length the generic formula announces. -/
theorem C07_from_trees {b sub leaves n : Nat} (hn : merkleTreeLen leaves b = .ok n)
    {cs : List (BaseTree S E)} (hcs : ∀ c ∈ cs, c.length = n) {t : Node (BaseTree S E) E}
    (h : fromTrees A sub cs = .ok t) :
    merkleTreeLenGeneric b sub 0 leaves = .ok (Tree1.sub t).length := by
  obtain ⟨hs, -, c0, hc0, -, h2, -⟩ := fromTrees_facts h
  unfold merkleTreeLenGeneric
  rw [hn, Res.ok_bind, if_neg (by omega), if_pos hs]
  simp only [Tree1.length, h2, hcs c0 hc0]
  congr 1
  ring

/-- C07 for `from_sub_trees` over trees made by `from_trees` with a positive arity. -/
theorem C07_from_sub_trees_partial {b sub top leaves n : Nat} (hn : merkleTreeLen leaves b = .ok n)
    {us : List (Tree1 S E)}
    (hus : ∀ u ∈ us, ∃ cs t, u = .sub t ∧ fromTrees A sub cs = .ok t ∧
      ∀ c ∈ cs, BaseTree.length c = n)
    {t : Node (Tree1 S E) E} (h : fromSubTrees A top us = .ok t) :
    merkleTreeLenGeneric b sub top leaves = .ok (Tree2.top t).length := by
  obtain ⟨u0, h0, h1, -, -, rfl⟩ := Node.assemble_ok_iff.1 h
  have hu0 : u0 ∈ us := List.mem_of_mem_head? (by rw [h0]; rfl)
  have htop : 0 < top := by rw [← h1]; exact List.length_pos_of_mem hu0
  obtain ⟨cs, t, rfl, ht, hc⟩ := hus u0 hu0
  obtain ⟨-, -, c0, hc0, -, h2, -⟩ := fromTrees_facts ht
  unfold merkleTreeLenGeneric
  rw [hn, Res.ok_bind, if_pos htop]
  simp only [Tree2.length, Tree1.length, h2, hc c0 hc0]
  congr 1
  ring

/-- C07 for `from_sub_trees_as_trees`. -/
theorem C07_from_sub_trees_as_trees {b sub top leaves n : Nat} (hn : merkleTreeLen leaves b = .ok n)
    {cs : List (BaseTree S E)} (hcs : ∀ c ∈ cs, c.length = n) {t : Node (Tree1 S E) E}
    (h : fromSubTreesAsTrees A sub top cs = .ok t) :
    merkleTreeLenGeneric b sub top leaves = .ok (Tree2.top t).length := by
  obtain ⟨ts, h1, h2⟩ := (C38_flat_eq_nested A sub top cs t).1 h
  have hs := (fromSubTreesAsTrees_ok_iff.1 h).1
  refine C07_from_sub_trees_partial (A := A) hn (fun u hu => ?_) h2
  obtain ⟨n, hn, rfl⟩ := List.mem_map.1 hu
  obtain ⟨g, hg, hgn⟩ := Forall₂.exists_left (mapM_ok_iff.1 h1) hn
  refine ⟨g, n, rfl, hgn, fun c hc => hcs c ?_⟩
  rw [← chunks_flatten hs cs]
  exact List.mem_flatten.2 ⟨g, hg, hc⟩

/-- C07 for base trees: with no sub-tree and no top layer the formula is the base length, which is the
length of the tree (C08). -/
theorem C07_base {b k : Nat} (hb : Arity b) (hk : 1 ≤ k) {leaves : List E} {fs : FS}
    {t : BaseTree S E} (ht : t.IsTreeOf A b k leaves fs) :
    merkleTreeLenGeneric b 0 0 leaves.length = .ok t.length := by
  obtain ⟨f, hf, -⟩ := ht.nodes
  unfold merkleTreeLenGeneric
  rw [hf.count, merkleTreeLen_pow hb hk, Res.ok_bind, if_neg (by omega), if_neg (by omega), ht.len]

/-! ### C48 -/

/-- C48 is false for compound trees: every one of them reports that it is empty. -/
theorem C48_compound_refuted (t : Node (BaseTree S E) E) (u : Node (Tree1 S E) E) :
    (Tree1.sub t).isEmpty = true ∧ (Tree2.sub t).isEmpty = true ∧ (Tree2.top u).isEmpty = true :=
  ⟨rfl, rfl, rfl⟩

end

section
variable {S E : Type} [Element E]

/-- C48 for base trees over the stores that keep all nodes. -/
theorem C48_base_partial [Store S E] [LawfulStore S E] {A : Alg E} {b k : Nat} {leaves : List E}
    {fs : FS} {t : BaseTree S E} (ht : t.IsTreeOf A b k leaves fs) : t.isEmpty = false := by
  have h := ht.len
  have h2 := nodes_pos b k
  rw [BaseTree.isEmpty, Bool.eq_false_iff]
  intro he
  rw [LawfulStore.isEmpty_iff] at he
  simp only [BaseTree.length] at h
  omega

/-- C48 for base trees over a level cache. -/
theorem C48_level_cache_partial {A : Alg E} {b k : Nat} {leaves : List E} {c : StoreConfig}
    {fs : FS} {t : BaseTree (LevelCacheStore E) E} (ht : t.IsCacheOf A b k leaves c fs) :
    t.isEmpty = false := by
  have h := ht.len
  have h2 := nodes_pos b k
  show (StoreOps.len (E := E) t.store == 0) = false
  simp only [BaseTree.length] at h
  simp only [beq_eq_false_iff_ne]
  omega

end

/-! ### Where C07, C18 fail, and the hypotheses can be met -/
section examples
local instance : FloatRows := idealRows

/-- A tree of four leaves in memory. -/
def smallTree : BaseTree (VecStore UInt8) UInt8 :=
  match (BaseTree.new toyAlg 2 Sched.sequential [1, 2, 3, 4] FS.empty).1 with
  | .ok t => t
  | .error _ => ⟨⟨[]⟩, 0, 0, 0, 0⟩

theorem smallTree_isTree :
    smallTree.IsTree toyAlg 2 FS.empty ([1, 2, 3, 4].map toyAlg.leafHash) := by
  exact C08_vec (A := toyAlg) (src := Source.new [1, 2, 3, 4]) (cfg := none)
    (fs := FS.empty) toyAlg_reset (b := 2) Sched.sequential_valid trivial
    (idealRows_floor (by decide) (by decide)) (by simp) (by rfl)

/-- C07 is false when `from_sub_trees` is used with no sub-tree layer (`SubTreeArity = U0`, so that its
trees are base trees): two trees of length 7 make a tree of length 15, but the formula says 3. -/
theorem C07_no_sub_layer_refuted : ∃ t, fromSubTrees toyAlg 2 [Tree1.base smallTree, .base smallTree] = .ok t ∧
    (Tree2.top t).length = 15 ∧ merkleTreeLenGeneric 2 0 2 4 = .ok 3 :=
  ⟨_, rfl, rfl, rfl⟩

/-- Outside C18: `from_trees` can be called at a type with a top arity (it does not check that
`TopTreeArity` is zero).  The proofs of such a tree carry that top arity, and validation takes it for
the number of sub-trees: here a proof of a two-tree compound does not validate (top arity 3). -/
theorem C18_top_arity_not_checked : ∃ n p, fromTrees toyAlg 2 [smallTree, smallTree] = .ok n ∧
    (Tree2.sub n).genProof 2 2 3 FS.empty 0 = .ok p ∧ p.validate toyAlg 2 ≠ .ok true :=
  ⟨_, _, rfl, rfl, by decide⟩

-- C18, C37, C39: two trees of four leaves.
example : ∃ n, fromTrees toyAlg 2 [smallTree, smallTree] = .ok n ∧ n.leafs = 8 := ⟨_, rfl, rfl⟩
example : List.Forall₂ (BaseTree.IsTree toyAlg 2 FS.empty) [smallTree, smallTree]
    [[1, 2, 3, 4].map toyAlg.leafHash, [1, 2, 3, 4].map toyAlg.leafHash] :=
  .cons smallTree_isTree (.cons smallTree_isTree .nil)
example : ∃ n p, fromTrees toyAlg 2 [smallTree, smallTree] = .ok n ∧
    (Tree1.sub n).genProof 2 2 FS.empty 6 = .ok p ∧ p.path = [1] ∧ p.validate toyAlg 2 = .ok true :=
  ⟨_, _, rfl, rfl, rfl, rfl⟩
-- C19, C38: six trees, three groups of two.
example : ∃ n p, fromSubTreesAsTrees toyAlg 2 3 (List.replicate 6 smallTree) = .ok n ∧
    (Tree2.top n).genProof 2 2 3 FS.empty 22 = .ok p ∧ p.path = [2] ∧ p.validate toyAlg 2 = .ok true :=
  ⟨_, _, rfl, rfl, rfl, rfl⟩
example : ∃ n : Node (BaseTree (VecStore UInt8) UInt8) UInt8,
    fromTrees toyAlg 2 [smallTree, smallTree] = .ok n ∧ ∃ m,
    fromSubTrees toyAlg 2 [.sub n, .sub n] = .ok m ∧
    List.Forall₂ (Tree1.IsCompound toyAlg 2 2 FS.empty) [.sub n, .sub n]
      (List.replicate 2 (List.replicate 2 ([1, 2, 3, 4].map toyAlg.leafHash)).flatten) := by
  refine ⟨_, rfl, _, rfl, ?_⟩
  exact .cons ⟨_, _, _, rfl, rfl, .cons smallTree_isTree (.cons smallTree_isTree .nil), rfl⟩
    (.cons ⟨_, _, _, rfl, rfl, .cons smallTree_isTree (.cons smallTree_isTree .nil), rfl⟩ .nil)
-- C39: a wrong count.
example : Res.IsErr (fromTrees toyAlg 3 [smallTree, smallTree]) := ⟨_, rfl⟩
-- C48
example : smallTree.isEmpty = false := rfl

end examples
end Verif
