import Verif.Lemmas.TreeSlice
import Verif.Lemmas.Compound
import Verif.Lemmas.Reopen
import Verif.Spec.Parts
/-!
Compound trees put together from stored trees.
-/
set_option linter.unusedSectionVars false
namespace Verif
open Spec StoreOps

namespace Node
variable {C C' E : Type}

theorem idxP_forall₂ {R : C → C' → Prop} {cs : List C} {ds : List C'} (h : List.Forall₂ R cs ds)
    (i : Nat) : Res.Alike R (idxP cs i) (idxP ds i) := by
  unfold idxP
  induction h generalizing i with
  | nil => simp [Res.Alike]
  | cons h _ ih =>
    cases i with
    | zero => simpa [Res.Alike] using h
    | succ i => simpa using ih i

/-- `assemble` on lists of trees that agree in their sizes and roots. -/
theorem assemble_congr {A : Alg E} {leafsOf lenOf rowsOf : C → Nat} {rootOf : C → E}
    {leafsOf' lenOf' rowsOf' : C' → Nat} {rootOf' : C' → E} {R : C → C' → Prop} {cs : List C}
    {ds : List C'} (h : List.Forall₂ R cs ds)
    (hR : ∀ c d, R c d → leafsOf' d = leafsOf c ∧ lenOf' d = lenOf c ∧ rowsOf' d = rowsOf c ∧
      rootOf' d = rootOf c) (arity : Nat) :
    Res.Alike (fun t u : _ => t.children = cs ∧ u.children = ds ∧ u.root = t.root ∧
        u.leafs = t.leafs ∧ u.len = t.len ∧ u.rowCount = t.rowCount)
      (assemble A leafsOf lenOf rowsOf rootOf arity cs)
      (assemble A leafsOf' lenOf' rowsOf' rootOf' arity ds) := by
  have hlen : ds.length = cs.length := h.length_eq.symm
  have e1 : ds.map rowsOf' = cs.map rowsOf := by
    induction h with
    | nil => rfl
    | cons h _ ih => simp [(hR _ _ h).2.2.1, ih (by simpa using hlen)]
  have e2 : ds.map lenOf' = cs.map lenOf := by
    clear e1
    induction h with
    | nil => rfl
    | cons h _ ih => simp [(hR _ _ h).2.1, ih (by simpa using hlen)]
  have e3 : ds.map rootOf' = cs.map rootOf := by
    clear e1 e2
    induction h with
    | nil => rfl
    | cons h _ ih => simp [(hR _ _ h).2.2.2, ih (by simpa using hlen)]
  have e4 : ds.map leafsOf' = cs.map leafsOf := by
    clear e1 e2 e3
    induction h with
    | nil => rfl
    | cons h _ ih => simp [(hR _ _ h).1, ih (by simpa using hlen)]
  have hall : ∀ {D : Type} (g : D → Nat) (xs : List D),
      (∀ c ∈ xs, some (g c) = xs.head?.map g) ↔ ∀ n ∈ xs.map g, some n = (xs.map g).head? := by
    intro D g xs
    simp [List.head?_map]
  unfold assemble
  by_cases h1 : arity > 0
  · rw [ensure_true h1, Res.ok_bind, Res.ok_bind]
    by_cases h2 : ∀ c ∈ cs, some (rowsOf c) = cs.head?.map rowsOf
    · have h2' : ∀ c ∈ ds, some (rowsOf' c) = ds.head?.map rowsOf' := by
        rw [hall] at h2 ⊢; rw [e1]; exact h2
      rw [ensure_true h2, ensure_true h2', Res.ok_bind, Res.ok_bind]
      by_cases h3 : ∀ c ∈ cs, some (lenOf c) = cs.head?.map lenOf
      · have h3' : ∀ c ∈ ds, some (lenOf' c) = ds.head?.map lenOf' := by
          rw [hall] at h3 ⊢; rw [e2]; exact h3
        rw [ensure_true h3, ensure_true h3', Res.ok_bind, Res.ok_bind, hlen]
        by_cases h4 : cs.length = arity
        · rw [ensure_true h4, Res.ok_bind, Res.ok_bind]
          have hi := idxP_forall₂ h 0
          rw [idxP_ok (by omega : 0 < cs.length), idxP_ok (by omega : 0 < ds.length)] at hi ⊢
          rw [Res.ok_bind, Res.ok_bind]
          obtain ⟨g1, g2, g3, g4⟩ := hR _ _ hi
          refine ⟨rfl, rfl, ?_, ?_, ?_, ?_⟩
          · simp only [e3]
          · simp only [foldl_add_sum, e4]
          · simp only [g2]
          · simp only [g3]
        · rw [ensure_false h4]; exact rfl
      · have h3' : ¬ ∀ c ∈ ds, some (lenOf' c) = ds.head?.map lenOf' := by
          rw [hall] at h3 ⊢; rw [e2]; exact h3
        rw [ensure_false h3, ensure_false h3']; exact rfl
    · have h2' : ¬ ∀ c ∈ ds, some (rowsOf' c) = ds.head?.map rowsOf' := by
        rw [hall] at h2 ⊢; rw [e1]; exact h2
      rw [ensure_false h2, ensure_false h2']; exact rfl
  · rw [ensure_false h1]; exact rfl

variable {leafsOf : C → Nat} {leafsOf' : C' → Nat} {R : C → C' → Prop} {t : Node C E} {u : Node C' E}

theorem layerLemma_congr {rootOf : C → E} {rootOf' : C' → E}
    (h : List.Forall₂ R t.children u.children) (hR : ∀ c d, R c d → rootOf' d = rootOf c)
    (hroot : u.root = t.root) (ti : Nat) :
    ∀ n i, layerLemma rootOf' u ti n i = layerLemma rootOf t ti n i
  | 0, _ => by rw [layerLemma, layerLemma, hroot]
  | n + 1, i => by
    rw [layerLemma, layerLemma, layerLemma_congr h hR hroot ti n (i + 1)]
    split
    · have := idxP_forall₂ h i
      cases h1 : idxP t.children i <;> cases h2 : idxP u.children i <;> rw [h1, h2] at this
      · cases this; rfl
      · exact this.elim
      · exact this.elim
      · rw [Res.ok_bind, Res.ok_bind, hR _ _ this]
    · rfl

theorem readAt_congr {rd : C → Nat → Res E} {rd' : C' → Nat → Res E}
    (h : List.Forall₂ R t.children u.children) (hl : u.leafs = t.leafs)
    (hR : ∀ c d, R c d → leafsOf' d = leafsOf c ∧ ∀ i, i < leafsOf c → rd' d i = rd c i)
    (arity i : Nat) : u.readAt leafsOf' rd' arity i = t.readAt leafsOf rd arity i := by
  unfold readAt locate
  rw [h.length_eq, hl]
  cases ensure (arity = u.children.length) "tree shape mis-match" with
  | error e => rfl
  | ok _ =>
    rw [Res.ok_bind, Res.ok_bind]
    cases divP t.leafs arity with
    | error e => rfl
    | ok per =>
      simp only [Res.ok_bind]
      cases divP i per with
      | error e => rfl
      | ok ti =>
        simp only [Res.ok_bind]
        have := idxP_forall₂ h ti
        cases h1 : idxP t.children ti <;> cases h2 : idxP u.children ti <;> rw [h1, h2] at this
        · cases this; rfl
        · exact this.elim
        · exact this.elim
        · rename_i c d
          simp only [Res.ok_bind]
          obtain ⟨g1, g2⟩ := hR _ _ this
          rw [g1]
          by_cases hz : leafsOf c = 0
          · simp only [modP, hz, ↓reduceIte]; rfl
          · simp only [modP, hz, ↓reduceIte, Res.ok_bind]
            exact g2 _ (Nat.mod_lt _ (Nat.pos_of_ne_zero hz))

theorem genSubTreeProof_congr {rootOf : C → E} {rootOf' : C' → E} {gen : C → Nat → Res (Proof E)}
    {gen' : C' → Nat → Res (Proof E)} (h : List.Forall₂ R t.children u.children)
    (hl : u.leafs = t.leafs) (hroot : u.root = t.root)
    (hR : ∀ c d, R c d → leafsOf' d = leafsOf c ∧ rootOf' d = rootOf c ∧
      ∀ i, i < leafsOf c → gen' d i = gen c i) (b pTop pSub arity i : Nat) :
    u.genSubTreeProof leafsOf' rootOf' gen' b pTop pSub arity i
      = t.genSubTreeProof leafsOf rootOf gen b pTop pSub arity i := by
  unfold genSubTreeProof
  rw [h.length_eq, hl]
  cases ensure (arity ≠ 0) "Invalid sub-tree arity" with
  | error e => rfl
  | ok _ =>
    rw [Res.ok_bind, Res.ok_bind]
    cases divP t.leafs arity with
    | error e => rfl
    | ok per =>
      simp only [Res.ok_bind]
      cases divP i per with
      | error e => rfl
      | ok ti =>
        simp only [Res.ok_bind]
        cases ensure (arity = u.children.length) "layer shape mis-match" with
        | error e => rfl
        | ok _ =>
          simp only [Res.ok_bind]
          have := idxP_forall₂ h ti
          cases h1 : idxP t.children ti <;> cases h2 : idxP u.children ti <;> rw [h1, h2] at this
          · cases this; rfl
          · exact this.elim
          · exact this.elim
          · rename_i c d
            simp only [Res.ok_bind]
            obtain ⟨g1, g2, g3⟩ := hR _ _ this
            rw [g1, layerLemma_congr h (fun c d hcd => (hR c d hcd).2.1) hroot]
            by_cases hz : leafsOf c = 0
            · simp only [modP, hz, ↓reduceIte]; rfl
            · simp only [modP, hz, ↓reduceIte, Res.ok_bind]
              rw [g3 _ (Nat.mod_lt _ (Nat.pos_of_ne_zero hz))]

end Node

theorem Res.Alike.ok_left {α β : Type} {R : α → β → Prop} {a : α} {r : Res β}
    (h : Res.Alike R (.ok a) r) : ∃ b, r = .ok b ∧ R a b := by
  cases r with
  | ok b => exact ⟨b, rfl, h⟩
  | error e => exact h.elim

theorem Res.Alike.mono {α β : Type} {R R' : α → β → Prop} {x : Res α} {y : Res β}
    (h : Res.Alike R x y) (hR : ∀ a b, x = .ok a → y = .ok b → R a b → R' a b) :
    Res.Alike R' x y := by
  cases x <;> cases y
  · exact h
  · exact h.elim
  · exact h.elim
  · exact hR _ _ rfl rfl h

section
variable {S S' E : Type} [Element E] [StoreOps S E] [StoreOps S' E] {A : Alg E} {b : Nat}
  {fs fs' : FS}

/-- `from_trees` on trees that are the same. -/
theorem fromTrees_alike {ts : List (BaseTree S E)} {us : List (BaseTree S' E)}
    (h : List.Forall₂ (BaseTree.SameIn b fs fs') ts us)
    (hl : ∀ t ∈ ts, t.leafs ≤ t.length) (sub : Nat) :
    Res.Alike (Node.SameIn b sub fs fs') (fromTrees A sub ts) (fromTrees A sub us) := by
  have hR : ∀ (t : BaseTree S E) (u : BaseTree S' E), BaseTree.SameIn b fs fs' t u →
      u.leafs = t.leafs ∧ u.length = t.length ∧ u.rowCount = t.rowCount ∧ u.root = t.root := by
    intro t u htu
    have := htu.summary
    simp only [BaseTree.summary, Prod.mk.injEq] at this
    exact ⟨this.2.1, this.2.2.1, this.2.2.2, this.1⟩
  have hmem : ∀ {xs : List (BaseTree S E)} {ys : List (BaseTree S' E)},
      List.Forall₂ (BaseTree.SameIn b fs fs') xs ys → (∀ t ∈ xs, t.leafs ≤ t.length) →
      List.Forall₂ (fun t u => BaseTree.SameIn b fs fs' t u ∧ t.leafs ≤ t.length) xs ys := by
    intro xs ys hxy
    induction hxy with
    | nil => exact fun _ => .nil
    | cons h _ ih => exact fun hm => .cons ⟨h, hm _ (by simp)⟩ (ih fun t ht => hm t (by simp [ht]))
  refine (Node.assemble_congr h hR sub).mono ?_
  rintro n m hn hm ⟨e1, e2, e3, e4, e5, e6⟩
  have hch : List.Forall₂ (fun t u => BaseTree.SameIn b fs fs' t u ∧ t.leafs ≤ t.length)
      n.children m.children := by rw [e1, e2]; exact hmem h hl
  refine ⟨e3, e4, e5, e6, fun i => ?_, fun i => ?_⟩
  · exact Node.readAt_congr hch e4 (fun t u htu => ⟨(hR _ _ htu.1).1, fun i hi =>
      htu.1.reads i (lt_of_lt_of_le hi htu.2)⟩) sub i
  · exact Node.genSubTreeProof_congr hch e4 e3 (fun t u htu => ⟨(hR _ _ htu.1).1,
      (hR _ _ htu.1).2.2.2, fun i _ => htu.1.proofs i⟩) b 0 sub sub i

/-- `from_sub_trees` on compound trees that are the same. -/
theorem fromSubTrees_alike {sub : Nat} {ts : List (Node (BaseTree S E) E)}
    {us : List (Node (BaseTree S' E) E)} (h : List.Forall₂ (Node.SameIn b sub fs fs') ts us)
    (top : Nat) :
    Res.Alike (Node.SameIn₂ b sub top fs fs') (fromSubTrees A top (ts.map .sub))
      (fromSubTrees A top (us.map .sub)) := by
  have h' : List.Forall₂ (fun (t : Tree1 S E) (u : Tree1 S' E) => ∃ n m, t = .sub n ∧ u = .sub m ∧
      Node.SameIn b sub fs fs' n m) (ts.map .sub) (us.map .sub) := by
    rw [List.forall₂_map_left_iff, List.forall₂_map_right_iff]
    exact h.imp fun t u htu => ⟨t, u, rfl, rfl, htu⟩
  have hR : ∀ (t : Tree1 S E) (u : Tree1 S' E), (∃ n m, t = .sub n ∧ u = .sub m ∧
      Node.SameIn b sub fs fs' n m) →
      u.leafs = t.leafs ∧ u.length = t.length ∧ u.rowCount = t.rowCount ∧ u.root = t.root := by
    rintro _ _ ⟨n, m, rfl, rfl, htu⟩
    exact ⟨htu.leafs, htu.len, htu.rowCount, htu.root⟩
  refine (Node.assemble_congr h' hR top).mono ?_
  rintro n m hn hm ⟨e1, e2, e3, e4, e5, e6⟩
  have hch := h'
  rw [← e1, ← e2] at hch
  refine ⟨e3, e4, e5, e6, fun i => ?_, fun i => ?_⟩
  · refine Node.readAt_congr hch e4 (fun t u htu => ⟨(hR _ _ htu).1, fun i _ => ?_⟩) top i
    obtain ⟨n, m, rfl, rfl, htu⟩ := htu
    exact htu.reads i
  · refine Node.genSubTreeProof_congr hch e4 e3 (fun t u htu => ⟨(hR _ _ htu).1, (hR _ _ htu).2.2.2,
      fun i _ => ?_⟩) b top sub top i
    obtain ⟨n, m, rfl, rfl, htu⟩ := htu
    exact htu.proofs i

end
end Verif
