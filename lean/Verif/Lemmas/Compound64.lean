import Verif.Lemmas.Cached64
/-
Compound trees on words: assembling layers, the constructors, and proofs.
-/
set_option linter.unusedSectionVars false
namespace Verif
open Spec StoreOps

/-! #### Base trees, whatever the arities above -/

theorem genProof64_any {S S' E : Type} [Element E] [LawfulElement E] [StoreOps S E] [StoreOps S' E] {o : Overflow} {b k : Nat}
    (hb : Arity b) (hk : 1 ≤ k) {t' : BaseTree S' E} {t : BaseTree S E} (h : SameReads b k t' t)
    (hw : nodes b k < wordSize) (sub top : Nat) (fs : FS) (i : Nat) :
    t'.genProof64 o b sub top fs i = t.genProof b sub top fs i := by
  by_cases hz : sub = 0 ∧ top = 0
  · obtain ⟨rfl, rfl⟩ := hz
    exact BaseTree.genProof64_eq hb hk h.leafs' h.rows' h.len' h.leafs h.rows h.len h.root hw (h.reads fs) i
  have hb2 := hb.two_le
  have hpn := pow_le_nodes b k
  have hbk : b ≤ b ^ k := (pow_le_iff hb2).2 hk
  have h63 := pow2_le_half (hb.pow_isPow2 k) (by omega)
  have hlem := lemmaLen_le (b := b) (by omega) k hk
  unfold BaseTree.genProof64 BaseTree.genProof
  rw [h.leafs', h.leafs, h.rows', h.rows]
  by_cases hi : i < b ^ k
  · have e1 : merkleProofLemmaLen64 o (k + 1) b = .ok (2 + (b - 1) * k) := by
      unfold merkleProofLemmaLen64
      rw [Word.sub_ok (by omega), Res.ok_bind, Word.sub_ok (by omega), Res.ok_bind, Nat.add_sub_cancel,
        Word.mul_ok (by omega), Res.ok_bind, Word.add_ok (by omega)]
    have e2 : merkleProofLemmaLen (k + 1) b = .ok (2 + (b - 1) * k) := by
      unfold merkleProofLemmaLen
      rw [subP_ok (by omega), Res.ok_bind, subP_ok (by omega), Res.ok_bind, Nat.add_sub_cancel]
    rw [ensure_true hi, Res.ok_bind, Res.ok_bind, Word.npow2_ok h63, Res.ok_bind,
      ensure_true ((eq_nextPow2_iff _).2 (hb.pow_isPow2 k)), Res.ok_bind, Res.ok_bind,
      Word.npow2_ok (by omega), Res.ok_bind, ensure_true ((eq_nextPow2_iff _).2 hb.pow2), Res.ok_bind, Res.ok_bind,
      e1, e2, Res.ok_bind, Res.ok_bind, Word.sub_ok (by omega), subP_ok (by omega), Res.ok_bind, Res.ok_bind]
    by_cases hs : sub = 0
    · have ht : ¬ top = 0 := fun ht => hz ⟨hs, ht⟩
      rw [ensure_true hs, Res.ok_bind, Res.ok_bind, ensure_false ht, Res.error_bind, Res.error_bind]
    · rw [ensure_false hs, Res.error_bind, Res.error_bind]
  · rw [ensure_false hi, Res.error_bind, Res.error_bind]

/-! #### Sums and layers -/
section layers
variable {C' C E : Type} {o : Overflow} {f : C → C'}

theorem foldl_add_eq (l : C → Nat) : ∀ (cs : List C) (n : Nat),
    cs.foldl (fun n c => n + l c) n = n + (cs.map l).sum
  | [], n => by simp
  | c :: cs, n => by
    rw [List.foldl_cons, foldl_add_eq l cs, List.map_cons, List.sum_cons, Nat.add_assoc]

theorem sumWords_eq (l : C → Nat) : ∀ (cs : List C) (n : Nat), n + (cs.map l).sum < wordSize →
    sumWords o l n cs = .ok (n + (cs.map l).sum)
  | [], n, _ => rfl
  | c :: cs, n, h => by
    rw [List.map_cons, List.sum_cons] at h ⊢
    rw [sumWords, Word.add_ok (by omega), Res.ok_bind, sumWords_eq l cs _ (by omega), Nat.add_assoc]

theorem idxP_map_eq (f : C → C') (cs : List C) (i : Nat) : idxP (cs.map f) i = (idxP cs i).map f := by
  unfold idxP
  rw [List.getElem?_map]
  cases cs[i]? <;> rfl

theorem ensure_iff_congr {P Q : Prop} [Decidable P] [Decidable Q] (h : P ↔ Q) (m : String) :
    ensure P m = ensure Q m := by
  unfold ensure
  by_cases hp : P
  · rw [if_pos hp, if_pos (h.1 hp)]
  · rw [if_neg hp, if_neg (fun hq => hp (h.2 hq))]

/-- Assembling a layer on words, over trees on other stores. -/
theorem assemble64_eq [Element E] (A : Alg E) {l' n' r' : C' → Nat} {rt' : C' → E} {l n r : C → Nat} {rt : C → E}
    (hl : ∀ c, l' (f c) = l c) (hn : ∀ c, n' (f c) = n c) (hr : ∀ c, r' (f c) = r c)
    (ht : ∀ c, rt' (f c) = rt c) (arity : Nat) (cs : List C)
    (h1 : cs.length = arity → (cs.map l).sum < wordSize)
    (h2 : cs.length = arity → ∀ c ∈ cs, n c * cs.length + 1 < wordSize)
    (h3 : ∀ c ∈ cs, r c + 1 < wordSize) :
    Node.assemble64 o A l' n' r' rt' arity (cs.map f) =
      (Node.assemble A l n r rt arity cs).map (Node.mapChildren f) := by
  unfold Node.assemble64 Node.assemble
  have e1 : (∀ c ∈ cs.map f, some (r' c) = (cs.map f).head?.map r') ↔
      (∀ c ∈ cs, some (r c) = cs.head?.map r) := by
    simp only [List.mem_map, forall_exists_index, and_imp, forall_apply_eq_imp_iff₂, hr, List.head?_map,
      Option.map_map, Function.comp_def]
  have e2 : (∀ c ∈ cs.map f, some (n' c) = (cs.map f).head?.map n') ↔
      (∀ c ∈ cs, some (n c) = cs.head?.map n) := by
    simp only [List.mem_map, forall_exists_index, and_imp, forall_apply_eq_imp_iff₂, hn, List.head?_map,
      Option.map_map, Function.comp_def]
  rw [ensure_iff_congr e1, ensure_iff_congr e2, List.length_map]
  by_cases ha : arity > 0
  swap
  · simp only [ensure_false ha]; rfl
  by_cases c1 : ∀ c ∈ cs, some (r c) = cs.head?.map r
  swap
  · simp only [ensure_true ha, ensure_false c1]; rfl
  by_cases c2 : ∀ c ∈ cs, some (n c) = cs.head?.map n
  swap
  · simp only [ensure_true ha, ensure_true c1, ensure_false c2]; rfl
  by_cases c3 : cs.length = arity
  swap
  · simp only [ensure_true ha, ensure_true c1, ensure_true c2, ensure_false c3]; rfl
  simp only [ensure_true ha, ensure_true c1, ensure_true c2, ensure_true c3, Res.ok_bind]
  have e3 : (cs.map f).map l' = cs.map l := by
    simp only [List.map_map, Function.comp_def, hl]
  rw [sumWords_eq l' (cs.map f) 0 (by rw [e3, Nat.zero_add]; exact h1 c3), Res.ok_bind, e3, idxP_map_eq]
  obtain ⟨c, hc⟩ : ∃ c, cs[0]? = some c := ⟨cs[0]'(by omega), List.getElem?_eq_getElem (by omega)⟩
  have hm : c ∈ cs := List.mem_of_getElem? hc
  have hi : idxP cs 0 = .ok c := by unfold idxP; rw [hc]
  have h2 := h2 c3 c hm
  rw [hi]
  simp only [Except.map, Res.ok_bind, hn, hr]
  rw [Word.mul_ok (by omega), Res.ok_bind, Word.add_ok h2, Res.ok_bind, Word.add_ok (h3 c hm), Res.ok_bind,
    foldl_add_eq]
  simp only [Node.mapChildren, List.map_map, Function.comp_def, ht]

/-- Proofs of a layer, over trees on other stores that prove alike. -/
theorem layerLemma_map {rt' : C' → E} {rt : C → E} (ht : ∀ c, rt' (f c) = rt c) (t : Node C E) (ti : Nat) :
    ∀ n i, Node.layerLemma rt' (t.mapChildren f) ti n i = Node.layerLemma rt t ti n i
  | 0, _ => rfl
  | n + 1, i => by
    unfold Node.layerLemma
    rw [layerLemma_map ht t ti n (i + 1), show (t.mapChildren f).children = t.children.map f from rfl, idxP_map_eq]
    cases idxP t.children i with
    | error e => rfl
    | ok c =>
      simp only [Except.map, Res.ok_bind, ht]

theorem idxP_mem {cs : List C} {i : Nat} {c : C} (h : idxP cs i = .ok c) : c ∈ cs := by
  unfold idxP at h
  cases hc : cs[i]? with
  | none => rw [hc] at h; cases h
  | some d => rw [hc] at h; cases h; exact List.mem_of_getElem? hc

theorem genSubTreeProof_map {l' : C' → Nat} {l : C → Nat} {rt' : C' → E} {rt : C → E}
    {g' : C' → Nat → Res (Proof E)} {g : C → Nat → Res (Proof E)} (hl : ∀ c, l' (f c) = l c)
    (ht : ∀ c, rt' (f c) = rt c) (b pt ps : Nat) (t : Node C E) (hg : ∀ c ∈ t.children, ∀ i, g' (f c) i = g c i)
    (arity i : Nat) :
    Node.genSubTreeProof l' rt' g' b pt ps (t.mapChildren f) arity i =
      Node.genSubTreeProof l rt g b pt ps t arity i := by
  unfold Node.genSubTreeProof
  simp only [layerLemma_map ht, show (t.mapChildren f).children = t.children.map f from rfl, idxP_map_eq,
    List.length_map, show (t.mapChildren f).leafs = t.leafs from rfl]
  congr 1; funext _
  congr 1; funext per
  congr 1; funext ti
  congr 1; funext _
  cases hc : idxP t.children ti with
  | error e => rfl
  | ok c =>
    simp only [Except.map, Res.ok_bind, hl, hg c (idxP_mem hc)]

theorem genCachedLayerProof_map {l' : C' → Nat} {l : C → Nat} {rt' : C' → E} {rt : C → E}
    {g' : C' → Nat → M (Proof E)} {g : C → Nat → M (Proof E)} (hl : ∀ c, l' (f c) = l c)
    (ht : ∀ c, rt' (f c) = rt c) (b pt ps : Nat) (t : Node C E) (hg : ∀ c ∈ t.children, ∀ i, g' (f c) i = g c i)
    (arity i : Nat) :
    Node.genCachedLayerProof l' rt' g' b pt ps (t.mapChildren f) arity i =
      Node.genCachedLayerProof l rt g b pt ps t arity i := by
  unfold Node.genCachedLayerProof Node.locate
  simp only [layerLemma_map ht, show (t.mapChildren f).children = t.children.map f from rfl, idxP_map_eq,
    show (t.mapChildren f).leafs = t.leafs from rfl]
  congr 1; funext _
  congr 1; funext _
  cases h1 : divP t.leafs arity with
  | error e => rfl
  | ok per =>
    cases h2 : divP i per with
    | error e => simp only [Res.ok_bind, h2]; rfl
    | ok ti =>
      cases hc : idxP t.children ti with
      | error e => simp only [Res.ok_bind, h2, hc]; rfl
      | ok c =>
        simp only [Except.map, Res.ok_bind, hl, h2, hc]
        cases h3 : modP i (l c) with
        | error e => rfl
        | ok li =>
          simp only [Res.ok_bind, M.ofRes_ok_bind, hg c (idxP_mem hc)]

end layers

/-! #### Trees on other stores -/
section trees
variable {S' S E : Type} [Element E] [StoreOps S' E] [StoreOps S E] {w : S → S'} {o : Overflow}

theorem Tree1.mapStore_leafs (t : Tree1 S E) : (t.mapStore w).leafs = t.leafs := by cases t <;> rfl
theorem Tree1.mapStore_root (t : Tree1 S E) : (t.mapStore w).root = t.root := by cases t <;> rfl
theorem Tree1.mapStore_rowCount (t : Tree1 S E) : (t.mapStore w).rowCount = t.rowCount := by cases t <;> rfl
theorem Tree1.mapStore_length (hw : ∀ s : S, StoreOps.len (E := E) (w s) = StoreOps.len (E := E) s) (t : Tree1 S E) :
    (t.mapStore w).length = t.length := by
  cases t
  · exact hw _
  · rfl

theorem fromTrees64_eq (hw : ∀ s : S, StoreOps.len (E := E) (w s) = StoreOps.len (E := E) s) (A : Alg E) (sub : Nat)
    (cs : List (BaseTree S E)) (h1 : cs.length = sub → (cs.map BaseTree.leafs).sum < wordSize)
    (h2 : cs.length = sub → ∀ c ∈ cs, c.length * cs.length + 1 < wordSize)
    (h3 : ∀ c ∈ cs, c.rowCount + 1 < wordSize) :
    fromTrees64 o A sub (cs.map (BaseTree.mapStore w)) =
      (fromTrees A sub cs).map (Node.mapChildren (BaseTree.mapStore w)) :=
  assemble64_eq (f := BaseTree.mapStore w) (l := BaseTree.leafs) (l' := BaseTree.leafs) (n := BaseTree.length)
    (n' := BaseTree.length) (r := BaseTree.rowCount) (r' := BaseTree.rowCount) (rt := BaseTree.root)
    (rt' := BaseTree.root) A (fun _ => rfl) (fun c => hw c.store) (fun _ => rfl) (fun _ => rfl) sub cs h1 h2 h3

theorem fromSubTrees64_eq (hw : ∀ s : S, StoreOps.len (E := E) (w s) = StoreOps.len (E := E) s) (A : Alg E)
    (top : Nat) (cs : List (Tree1 S E)) (h1 : cs.length = top → (cs.map Tree1.leafs).sum < wordSize)
    (h2 : cs.length = top → ∀ c ∈ cs, c.length * cs.length + 1 < wordSize)
    (h3 : ∀ c ∈ cs, c.rowCount + 1 < wordSize) :
    fromSubTrees64 o A top (cs.map (Tree1.mapStore w)) =
      (fromSubTrees A top cs).map (Node.mapChildren (Tree1.mapStore w)) :=
  assemble64_eq (f := Tree1.mapStore w) A Tree1.mapStore_leafs (Tree1.mapStore_length hw) Tree1.mapStore_rowCount
    Tree1.mapStore_root top cs h1 h2 h3

/-- What `from_trees` gives. -/
theorem fromTrees_ok {A : Alg E} {sub : Nat} {cs : List (BaseTree S E)} {t : Node (BaseTree S E) E}
    (h : fromTrees A sub cs = .ok t) :
    cs.length = sub ∧ 0 < sub ∧ t.children = cs ∧ t.leafs = (cs.map BaseTree.leafs).sum ∧
      ∃ c ∈ cs, t.len = c.length * sub + 1 ∧ t.rowCount = c.rowCount + 1 := by
  unfold fromTrees Node.assemble at h
  simp only [bind_ok_iff, ensure_ok_iff, Except.ok.injEq] at h
  obtain ⟨_, h1, _, _, _, _, _, h2, c, hc, rfl⟩ := h
  refine ⟨h2, h1, rfl, ?_, c, idxP_mem hc, ?_, rfl⟩
  · rw [foldl_add_eq, Nat.zero_add]
  · rw [h2]

/-! #### Splitting into groups -/

theorem splitGroups_ok {C : Type} {sub : Nat} : ∀ (n : Nat) (cs : List C), cs.length = n * sub →
    ∃ gs, splitGroups sub n cs = .ok gs ∧ splitGroups64 o sub n cs = .ok gs ∧ gs.length = n ∧
      (∀ g ∈ gs, g.length = sub) ∧ gs.reverse.flatten = cs
  | 0, cs, h => ⟨[], rfl, rfl, rfl, nofun, by
      have : cs = [] := List.length_eq_zero_iff.1 (by omega)
      simp [this]⟩
  | n + 1, cs, h => by
    rw [Nat.succ_mul] at h
    obtain ⟨gs, h1, h2, h3, h4, h5⟩ := splitGroups_ok (sub := sub) n (cs.take (cs.length - sub)) (by
      rw [List.length_take]; omega)
    refine ⟨cs.drop (cs.length - sub) :: gs, ?_, ?_, by rw [List.length_cons, h3], ?_, ?_⟩
    · rw [splitGroups, subP_ok (by omega), Res.ok_bind, h1, Res.ok_bind]
    · rw [splitGroups64, Word.sub_ok (by omega), Res.ok_bind, splitOff, if_pos (by omega), Res.ok_bind]
      dsimp only
      rw [h2, Res.ok_bind]
    · intro g hg
      rcases List.mem_cons.1 hg with rfl | hg
      · rw [List.length_drop]; omega
      · exact h4 g hg
    · rw [List.reverse_cons, List.flatten_append, h5]
      simp

theorem splitGroups64_map {C' C : Type} (f : C → C') {sub : Nat} : ∀ (n : Nat) (cs : List C),
    splitGroups64 o sub n (cs.map f) = (splitGroups64 o sub n cs).map (List.map (List.map f))
  | 0, _ => rfl
  | n + 1, cs => by
    rw [splitGroups64, splitGroups64, List.length_map]
    cases Word.sub o cs.length sub with
    | error e => rfl
    | ok a =>
      simp only [Res.ok_bind, splitOff, List.length_map]
      by_cases ha : a ≤ cs.length
      · rw [if_pos ha, if_pos ha]
        simp only [Res.ok_bind]
        rw [← List.map_take, splitGroups64_map f n, ← List.map_drop]
        cases splitGroups64 o sub n (cs.take a) <;> rfl
      · rw [if_neg ha, if_neg ha]; rfl

theorem mapM_map_eq {α α' β β' : Type} {F : α → Res β} {F' : α' → Res β'} {f : α → α'} {g : β → β'} :
    ∀ xs : List α, (∀ x ∈ xs, F' (f x) = (F x).map g) → (xs.map f).mapM F' = (xs.mapM F).map (List.map g)
  | [], _ => rfl
  | x :: xs, h => by
    rw [List.map_cons, List.mapM_cons, List.mapM_cons, h x List.mem_cons_self,
      mapM_map_eq xs fun y hy => h y (List.mem_cons_of_mem _ hy)]
    cases F x with
    | error e => rfl
    | ok y =>
      simp only [Except.map, Res.ok_bind]
      cases xs.mapM F <;> rfl

theorem subGroups_sums {A : Alg E} {sub L : Nat} : ∀ {gs : List (List (BaseTree S E))} {ts : List (Tree1 S E)},
    (∀ g ∈ gs, ∀ c ∈ g, c.length = L) →
    (gs.mapM fun g => do let t ← fromTrees A sub g; .ok (Tree1.sub t)) = .ok ts →
    (ts.map Tree1.leafs).sum = (gs.flatten.map BaseTree.leafs).sum ∧ ts.length = gs.length ∧
      (ts.map Tree1.length).sum = gs.length * (L * sub + 1) ∧
      ∀ t ∈ ts, ∃ c ∈ gs.flatten, t.rowCount = c.rowCount + 1
  | [], ts, _, h => by
    cases h
    exact ⟨rfl, rfl, by simp, nofun⟩
  | g :: gs, ts, hL, h => by
    rw [List.mapM_cons] at h
    simp only [bind_ok_iff] at h
    obtain ⟨t, ⟨n, h1, h2⟩, us, h3, h4⟩ := h
    cases h2
    cases h4
    obtain ⟨i1, i2, i3, i4⟩ := subGroups_sums (fun g hg => hL g (List.mem_cons_of_mem _ hg)) h3
    obtain ⟨_, _, _, j1, c, hc, j2, j3⟩ := fromTrees_ok h1
    refine ⟨?_, ?_, ?_, ?_⟩
    · rw [List.map_cons, List.sum_cons, i1, List.flatten_cons, List.map_append, List.sum_append, ← j1]
      rfl
    · rw [List.length_cons, List.length_cons, i2]
    · rw [List.map_cons, List.sum_cons, i3, List.length_cons, Nat.succ_mul, Nat.add_comm]
      congr 1
      rw [← hL g List.mem_cons_self c hc]
      exact j2
    · intro t ht
      rcases List.mem_cons.1 ht with rfl | ht
      · exact ⟨c, by rw [List.flatten_cons]; exact List.mem_append_left _ hc, j3⟩
      · obtain ⟨c, hc, h⟩ := i4 t ht
        exact ⟨c, by rw [List.flatten_cons]; exact List.mem_append_right _ hc, h⟩

theorem sum_le_flatten {g : List (BaseTree S E)} : ∀ {gs : List (List (BaseTree S E))}, g ∈ gs →
    (g.map BaseTree.leafs).sum ≤ (gs.flatten.map BaseTree.leafs).sum
  | x :: gs, h => by
    rw [List.flatten_cons, List.map_append, List.sum_append]
    rcases List.mem_cons.1 h with rfl | h
    · exact Nat.le_add_right _ _
    · exact Nat.le_trans (sum_le_flatten h) (Nat.le_add_left _ _)

theorem fromSubTreesAsTrees64_eq (hw : ∀ s : S, StoreOps.len (E := E) (w s) = StoreOps.len (E := E) s) (A : Alg E)
    (sub top : Nat) (cs : List (BaseTree S E)) (h0 : top * sub < wordSize)
    (h1 : (cs.map BaseTree.leafs).sum < wordSize)
    (h2 : ∀ c ∈ cs, c.length * (top * sub) + top + 1 < wordSize)
    (h3 : ∀ c ∈ cs, c.rowCount + 2 < wordSize) :
    fromSubTreesAsTrees64 o A sub top (cs.map (BaseTree.mapStore w)) =
      (fromSubTreesAsTrees A sub top cs).map (Node.mapChildren (Tree1.mapStore w)) := by
  unfold fromSubTreesAsTrees64 fromSubTreesAsTrees
  have e1 : (∀ c ∈ cs.map (BaseTree.mapStore w), some c.rowCount =
        (cs.map (BaseTree.mapStore w)).head?.map BaseTree.rowCount) ↔
      (∀ c ∈ cs, some c.rowCount = cs.head?.map BaseTree.rowCount) := by
    simp only [List.mem_map, forall_exists_index, and_imp, forall_apply_eq_imp_iff₂, List.head?_map,
      Option.map_map, Function.comp_def, BaseTree.mapStore]
  have hlen : ∀ c : BaseTree S E, (c.mapStore w).length = c.length := fun c => hw c.store
  have e2 : (∀ c ∈ cs.map (BaseTree.mapStore w), some c.length =
        (cs.map (BaseTree.mapStore w)).head?.map BaseTree.length) ↔
      (∀ c ∈ cs, some c.length = cs.head?.map BaseTree.length) := by
    simp only [List.mem_map, forall_exists_index, and_imp, forall_apply_eq_imp_iff₂, List.head?_map,
      Option.map_map, Function.comp_def, hlen]
  rw [ensure_iff_congr e1, ensure_iff_congr e2, List.length_map, Word.mul_ok h0]
  by_cases ha : top > 0
  swap
  · simp only [ensure_false ha]; rfl
  by_cases c1 : ∀ c ∈ cs, some c.rowCount = cs.head?.map BaseTree.rowCount
  swap
  · simp only [ensure_true ha, ensure_false c1]; rfl
  by_cases c2 : ∀ c ∈ cs, some c.length = cs.head?.map BaseTree.length
  swap
  · simp only [ensure_true ha, ensure_true c1, ensure_false c2]; rfl
  by_cases c3 : cs.length = top * sub
  swap
  · simp only [ensure_true ha, ensure_true c1, ensure_true c2, Res.ok_bind, ensure_false c3]; rfl
  simp only [ensure_true ha, ensure_true c1, ensure_true c2, ensure_true c3, Res.ok_bind]
  obtain ⟨gs, g1, g2, g3, g4, g5⟩ := splitGroups_ok (o := o) top cs c3
  rw [splitGroups64_map, g1, g2]
  simp only [Except.map, Res.ok_bind]
  rw [← List.map_reverse]
  have hmem : ∀ g ∈ gs.reverse, ∀ c ∈ g, c ∈ cs := fun g hg c hc => by
    rw [← g5]; exact List.mem_flatten.2 ⟨g, hg, hc⟩
  rw [mapM_map_eq (F := fun g => do let t ← fromTrees A sub g; .ok (Tree1.sub t))
    (g := Tree1.mapStore w) gs.reverse fun g hg => ?_]
  swap
  · have hg4 := g4 g (List.mem_reverse.1 hg)
    have hs := sum_le_flatten hg
    rw [g5] at hs
    rw [fromTrees64_eq hw A sub g (fun _ => by omega) (fun _ c hc => ?_) fun c hc => by
      have := h3 c (hmem g hg c hc); omega]
    · cases fromTrees A sub g <;> rfl
    · have := h2 c (hmem g hg c hc)
      have : c.length * g.length ≤ c.length * (top * sub) := by
        rw [hg4]; exact Nat.mul_le_mul_left _ (Nat.le_mul_of_pos_left _ ha)
      omega
  cases hts : (gs.reverse.mapM fun g => do let t ← fromTrees A sub g; .ok (Tree1.sub t)) with
  | error e => rfl
  | ok ts =>
    simp only [Except.map, Res.ok_bind]
    obtain ⟨L, hL⟩ : ∃ L, ∀ c ∈ cs, c.length = L := by
      cases hh : cs.head? with
      | none => exact ⟨0, fun c hc => by rw [List.head?_eq_none_iff] at hh; subst hh; cases hc⟩
      | some d => exact ⟨d.length, fun c hc => by have := c2 c hc; rw [hh] at this; simpa using this⟩
    obtain ⟨s1, s2, s3, s4⟩ := subGroups_sums (L := L) (fun g hg c hc => hL c (hmem g hg c hc)) hts
    rw [g5] at s1
    rw [List.length_reverse, g3] at s2 s3
    have hsub : 0 < sub := by
      obtain ⟨g, hg⟩ : ∃ g, g ∈ gs.reverse := by
        have : 0 < gs.reverse.length := by rw [List.length_reverse, g3]; exact ha
        exact ⟨_, List.getElem_mem this⟩
      by_contra hs
      have hs0 : sub = 0 := by omega
      subst hs0
      have hno : ∀ g : List (BaseTree S E), fromTrees A 0 g = .error (.err
        "Cannot use this constructor if not constructing a structure with sub-trees") := fun g => rfl
      cases hr : gs.reverse with
      | nil => rw [hr] at hg; cases hg
      | cons x xs =>
        rw [hr, List.mapM_cons, hno] at hts
        cases hts
    obtain ⟨c, hc⟩ : ∃ c, c ∈ cs := by
      have : 0 < cs.length := by rw [c3]; exact Nat.mul_pos ha hsub
      exact ⟨_, List.getElem_mem this⟩
    have hb := h2 c hc
    rw [hL c hc] at hb
    have e4 : (ts.map (Tree1.mapStore w)).map Tree1.leafs = ts.map Tree1.leafs := by
      simp only [List.map_map, Function.comp_def, Tree1.mapStore_leafs]
    have e5 : (ts.map (Tree1.mapStore w)).map Tree1.length = ts.map Tree1.length := by
      simp only [List.map_map, Function.comp_def, Tree1.mapStore_length hw]
    have e6 : top * (L * sub + 1) = L * (top * sub) + top := by
      rw [Nat.mul_add, Nat.mul_one, Nat.mul_left_comm]
    rw [sumWords_eq _ _ _ (by rw [e4, s1]; omega), Res.ok_bind, sumWords_eq _ _ _ (by rw [e5, s3]; omega), Res.ok_bind,
      e4, e5, Word.add_ok (by rw [s3]; omega), Res.ok_bind, idxP_map_eq]
    cases hi : idxP ts 0 with
    | error e => rfl
    | ok t =>
      obtain ⟨d, hd, hd'⟩ := s4 t (idxP_mem hi)
      rw [g5] at hd
      have := h3 d hd
      simp only [Except.map, Res.ok_bind, Tree1.mapStore_rowCount]
      rw [Word.add_ok (by omega), Res.ok_bind, foldl_add_eq, foldl_add_eq]
      simp only [Node.mapChildren, List.map_map, Function.comp_def, Tree1.mapStore_root]

end trees

/-! #### Proofs -/
section proofs
variable {S' S E : Type} [Element E] [LawfulElement E] [StoreOps S' E] [StoreOps S E] {w : S → S'} {o : Overflow}
  {b k : Nat}

theorem node_end_lt {p : Nat} (hp : p < nodes b k) (hw : nodes b k * Element.byteLen E < 2 ^ 63) :
    (p + 1) * Element.byteLen E < wordSize := by
  have := half_lt_word
  have : (p + 1) * Element.byteLen E ≤ nodes b k * Element.byteLen E := Nat.mul_le_mul_right _ hp
  omega

theorem SameReads.vec {t : BaseTree (VecStore E) E} (ht : t.FullSizes b k) :
    SameReads b k (t.mapStore (Vec64.mk (o := o))) t :=
  ⟨ht.leafs, ht.rows, ht.len, ht.leafs, ht.rows, ht.len, rfl, fun _ _ _ => rfl, fun _ _ _ _ _ _ => rfl,
    fun _ _ _ _ _ h => by cases h⟩

theorem SameReads.mmap {t : BaseTree (MmapStore E) E} (ht : t.FullSizes b k)
    (hw : nodes b k * Element.byteLen E < 2 ^ 63) : SameReads b k (t.mapStore (Mmap64.mk (o := o))) t := by
  have h63 := half_lt_word
  have hs : t.store.len = nodes b k := ht.len
  refine ⟨ht.leafs, ht.rows, ht.len, ht.leafs, ht.rows, ht.len, rfl, fun fs p hp => ?_, fun _ _ _ _ _ _ => rfl,
    fun _ _ _ _ _ h => by cases h⟩
  exact Mmap64.readAt_eq fs (by rw [hs]; omega) (node_end_lt hp hw)

theorem SameReads.disk {t : BaseTree (DiskStore E) E} (ht : t.FullSizes b k)
    (hw : nodes b k * Element.byteLen E < 2 ^ 63) : SameReads b k (t.mapStore (Disk64.mk (o := o))) t := by
  have h63 := half_lt_word
  have hs : t.store.len = nodes b k := ht.len
  refine ⟨ht.leafs, ht.rows, ht.len, ht.leafs, ht.rows, ht.len, rfl, fun fs p hp => ?_, fun fs a c buf hac hc => ?_,
    fun fs a c buf bs h => ?_⟩
  · exact Disk64.readAt_eq fs (by rw [hs]; exact hw) (node_end_lt hp hw)
  · have : c * Element.byteLen E ≤ nodes b k * Element.byteLen E := Nat.mul_le_mul_right _ hc
    exact Disk64.readRangeInto_eq fs (by rw [hs]; exact hw) hac (by omega) buf
  · change t.store.readRangeInto fs a c buf = .ok bs at h
    unfold DiskStore.readRangeInto at h
    simp only [bind_ok_iff] at h
    obtain ⟨_, _, h⟩ := h
    exact readExactAt_length (readContext_ok_iff.1 h)

theorem SameReads.levelCache {t : BaseTree (LevelCacheStore E) E} (ht : t.FullSizes b k)
    (hf : LevelCache64.Fits t.store) : SameReads b k (t.mapStore (LevelCache64.mk (o := o))) t := by
  have h63 := half_lt_word
  have hs : t.store.len = nodes b k := ht.len
  have hw := hf.len
  rw [hs] at hw
  refine ⟨ht.leafs, ht.rows, ht.len, ht.leafs, ht.rows, ht.len, rfl, fun fs p hp => ?_, fun fs a c buf hac hc => ?_,
    fun fs a c buf bs h => ?_⟩
  · exact LevelCache64.readAt_eq fs hf (node_end_lt hp hw)
  · have : c * Element.byteLen E ≤ nodes b k * Element.byteLen E := Nat.mul_le_mul_right _ hc
    exact LevelCache64.readRangeInto_eq fs hf hac (by omega) buf
  · change t.store.readRangeInto fs a c buf = .ok bs at h
    unfold LevelCacheStore.readRangeInto LevelCacheStore.storeReadInto at h
    simp only [bind_ok_iff] at h
    obtain ⟨_, _, _, _, h⟩ := h
    split at h
    · rename_i r _
      split at h
      · exact r.length_eq _ _ _ _ _ (readContext_ok_iff.1 h)
      · exact readExactAt_length (readContext_ok_iff.1 h)
    · exact readExactAt_length (readContext_ok_iff.1 h)

variable (hb : Arity b) (hk : 1 ≤ k) (hw : nodes b k < wordSize)
include hb hk hw

theorem Tree1.genProof64_eq (sub : Nat) (fs : FS) : ∀ (t : Tree1 S E) (i : Nat),
    t.AllBase (fun c => SameReads b k (c.mapStore w) c) →
    (t.mapStore w).genProof64 o b sub fs i = t.genProof b sub fs i
  | .base _, i, h => genProof64_any hb hk h hw sub 0 fs i
  | .sub t, i, h => genSubTreeProof_map (f := BaseTree.mapStore w) (l := BaseTree.leafs) (l' := BaseTree.leafs)
      (rt := BaseTree.root) (rt' := BaseTree.root) (g' := BaseTree.genProof64 o b 0 0 fs)
      (g := BaseTree.genProof b 0 0 fs) (fun _ => rfl) (fun _ => rfl) b 0 sub t
      (fun c hc i => genProof64_any hb hk (h c hc) hw 0 0 fs i) sub i

theorem Tree2.genProof64_eq (sub top : Nat) (fs : FS) : ∀ (t : Tree2 S E) (i : Nat),
    t.AllBase (fun c => SameReads b k (c.mapStore w) c) →
    (t.mapStore w).genProof64 o b sub top fs i = t.genProof b sub top fs i
  | .base _, i, h => genProof64_any hb hk h hw sub top fs i
  | .sub t, i, h => genSubTreeProof_map (f := BaseTree.mapStore w) (l := BaseTree.leafs) (l' := BaseTree.leafs)
      (rt := BaseTree.root) (rt' := BaseTree.root) (g' := BaseTree.genProof64 o b 0 0 fs)
      (g := BaseTree.genProof b 0 0 fs) (fun _ => rfl) (fun _ => rfl) b top sub t
      (fun c hc i => genProof64_any hb hk (h c hc) hw 0 0 fs i) sub i
  | .top t, i, h => genSubTreeProof_map (f := Tree1.mapStore w) (l := Tree1.leafs) (l' := Tree1.leafs)
      (rt := Tree1.root) (rt' := Tree1.root) (g' := Tree1.genProof64 o b sub fs) (g := Tree1.genProof b sub fs)
      Tree1.mapStore_leafs Tree1.mapStore_root b top sub t
      (fun c hc i => Tree1.genProof64_eq hb hk hw sub fs c i (h c hc)) top i

end proofs

section cached
variable {S' S E : Type} [Element E] [LawfulElement E] [StoreOps S' E] [StoreOps S E] {w : S → S'} {o : Overflow}
  {b k : Nat} (hb : Arity b) (hk : 1 ≤ k) [FloatRows] (hf : FloatRows.ExactAt b k) {rows : Option Nat}
  (hf' : FloatRows.ExactAt b (k - 1 - BaseTree.effectiveDiscard (b ^ k) b rows))
  (hw : 2 * b ^ k * Element.byteLen E ≤ 2 ^ 63) (hblk : buildDataBlockSize * Element.byteLen E < 2 ^ 63)
  (A : Alg E) {σ : Sched} (hσ : σ.Valid)
include hb hk hf hf' hw hblk hσ

theorem Tree1.genCachedProof64_eq (sub : Nat) : ∀ (t : Tree1 S E) (i : Nat),
    t.AllBase (fun c => SameReads b k (c.mapStore w) c) →
    (t.mapStore w).genCachedProof64 o A b sub σ i rows = t.genCachedProof A b sub σ i rows
  | .base _, i, h => Verif.genCachedProof64_eq hb hk hf hf' hw hblk A hσ h sub 0 i
  | .sub t, i, h => genCachedLayerProof_map (f := BaseTree.mapStore w) (l := BaseTree.leafs) (l' := BaseTree.leafs)
      (rt := BaseTree.root) (rt' := BaseTree.root) (g' := fun c i => c.genCachedProof64 o A b 0 0 σ i rows)
      (g := fun c i => c.genCachedProof A b 0 0 σ i rows) (fun _ => rfl) (fun _ => rfl) b 0 sub t
      (fun c hc i => Verif.genCachedProof64_eq hb hk hf hf' hw hblk A hσ (h c hc) 0 0 i) sub i

theorem Tree2.genCachedProof64_eq (sub top : Nat) : ∀ (t : Tree2 S E) (i : Nat),
    t.AllBase (fun c => SameReads b k (c.mapStore w) c) →
    (t.mapStore w).genCachedProof64 o A b sub top σ i rows = t.genCachedProof A b sub top σ i rows
  | .base _, i, h => Verif.genCachedProof64_eq hb hk hf hf' hw hblk A hσ h sub top i
  | .sub t, i, h => genCachedLayerProof_map (f := BaseTree.mapStore w) (l := BaseTree.leafs) (l' := BaseTree.leafs)
      (rt := BaseTree.root) (rt' := BaseTree.root) (g' := fun c i => c.genCachedProof64 o A b 0 0 σ i rows)
      (g := fun c i => c.genCachedProof A b 0 0 σ i rows) (fun _ => rfl) (fun _ => rfl) b top sub t
      (fun c hc i => Verif.genCachedProof64_eq hb hk hf hf' hw hblk A hσ (h c hc) 0 0 i) sub i
  | .top t, i, h => genCachedLayerProof_map (f := Tree1.mapStore w) (l := Tree1.leafs) (l' := Tree1.leafs)
      (rt := Tree1.root) (rt' := Tree1.root) (g' := fun c i => c.genCachedProof64 o A b sub σ i rows)
      (g := fun c i => c.genCachedProof A b sub σ i rows) Tree1.mapStore_leafs Tree1.mapStore_root b top sub t
      (fun c hc i => Tree1.genCachedProof64_eq hb hk hf hf' hw hblk A hσ sub c i (h c hc)) top i

end cached
end Verif
