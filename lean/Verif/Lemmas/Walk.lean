import Verif.Spec.Walk
import Verif.Lemmas.Shape
import Verif.Lemmas.ProofCompound
/-
Helper lemmas: valid proofs followed down a tree that has the same root.
-/
set_option linter.unusedSectionVars false
namespace Verif
open Spec
variable {E : Type}

/-- The value at the top of the steps, topmost first, above `x`. -/
def down (H : List E → E) (x : E) : List (Nat × List E) → E
  | [] => x
  | (p, s) :: rest => H (insertAt p (down H x rest) s)

/-- The lists hashed for it. -/
def DownHashed (H : List E → E) (x : E) : List (Nat × List E) → List E → Prop
  | [], _ => False
  | (p, s) :: rest, y => y = insertAt p (down H x rest) s ∨ DownHashed H x rest y

theorem down_append (H : List E → E) (x : E) (t : List (Nat × List E)) :
    ∀ s : List (Nat × List E), down H x (s ++ t) = down H (down H x t) s
  | [] => rfl
  | (p, l) :: s => by rw [List.cons_append, down, down, down_append H x t s]

theorem DownHashed.append {H : List E → E} {x : E} {t : List (Nat × List E)} {y : List E} :
    ∀ {s : List (Nat × List E)}, DownHashed H x (s ++ t) y ↔
      DownHashed H (down H x t) s y ∨ DownHashed H x t y
  | [] => by simp [DownHashed]
  | (p, l) :: s => by
    rw [List.cons_append, DownHashed, DownHashed, DownHashed.append (s := s), down_append, or_assoc]

theorem climb_eq_down {H : List E → Nat → E} (hH : ∀ ns h h', H ns h = H ns h') (hgt : Nat → Nat) :
    ∀ (st : List (Nat × List E)) (l : Nat) (x : E),
      climb H hgt l x st = down (fun ns => H ns 0) x st.reverse
  | [], _, _ => rfl
  | (p, s) :: st, l, x => by
    rw [climb, climb_eq_down hH hgt st, List.reverse_cons, down_append]
    simp only [down]
    rw [hH _ (hgt l) 0]

theorem downHashed_transcript {H : List E → Nat → E} (hH : ∀ ns h h', H ns h = H ns h')
    (hgt : Nat → Nat) {y : List E} : ∀ (st : List (Nat × List E)) (l : Nat) (x : E),
      DownHashed (fun ns => H ns 0) x st.reverse y → ∃ h, (y, h) ∈ transcript H hgt l x st
  | [], _, _, h => h.elim
  | (p, s) :: st, l, x, h => by
    rw [List.reverse_cons, DownHashed.append] at h
    rw [transcript]
    rcases h with h | h
    · simp only [down] at h
      rw [hH _ 0 (hgt l)] at h
      obtain ⟨g, hg⟩ := downHashed_transcript hH hgt st (l + 1) _ h
      exact ⟨g, List.mem_cons_of_mem _ hg⟩
    · simp only [DownHashed, or_false, down] at h
      subst h
      exact ⟨hgt l, List.mem_cons_self⟩

theorem length_insertAt (p : Nat) (x : E) (s : List E) : (insertAt p x s).length = s.length + 1 := by
  unfold insertAt
  simp only [List.length_append, List.length_take, List.length_cons, List.length_drop]
  omega

theorem getElem?_insertAt {p : Nat} (x : E) {s : List E} (hp : p ≤ s.length) :
    (insertAt p x s)[p]? = some x := by
  unfold insertAt
  rw [List.getElem?_append_right (by simp)]
  simp [Nat.min_eq_left hp]

theorem steps_map_fst (b : Nat) : ∀ (ps : List Nat) (s : List E), (steps b ps s).map (·.1) = ps
  | [], _ => rfl
  | p :: ps, s => by simp [steps, steps_map_fst b ps]

theorem steps_arities {b : Nat} (hb : 0 < b) : ∀ (ps : List Nat) (s : List E),
    ps.length * (b - 1) ≤ s.length → ∀ q ∈ steps b ps s, q.2.length + 1 = b
  | [], _, _, q, h => by simp [steps] at h
  | p :: ps, s, hl, q, h => by
    have : (p :: ps).length * (b - 1) = ps.length * (b - 1) + (b - 1) := by simp [Nat.add_mul]
    rw [this] at hl
    rw [steps] at h
    rcases List.mem_cons.1 h with rfl | h
    · simp only [List.length_take]
      omega
    · exact steps_arities hb ps _ (by simp; omega) q h

variable [Element E]

/-- Steps that end in the root of a tree follow the tree down, as far as both go, or there is a
collision. -/
theorem down_walk {H : List E → E} {x : E} : ∀ (as : List Nat) (ls : List E) (st : List (Nat × List E)),
    (∀ q ∈ st, q.1 ≤ q.2.length) → layersRoot H as ls = down H x st →
    (st.map (fun q => q.2.length + 1) <+: as ∧ x = walk H as ls (st.map (·.1))) ∨
    (∃ st₁ s st₂, st = st₁ ++ s :: st₂ ∧ st₁.map (fun q => q.2.length + 1) = as ∧
      walk H as ls (st₁.map (·.1)) = down H x (s :: st₂)) ∨
    ∃ y z, LayersHashed H as ls y ∧ DownHashed H x st z ∧ y ≠ z ∧ H y = H z
  | as, ls, [], _, h => by
    left
    refine ⟨by simp, ?_⟩
    rw [List.map_nil, walk]
    exact h.symm
  | [], ls, s :: st, _, h => by
    right; left
    exact ⟨[], s, st, rfl, rfl, by rw [List.map_nil, walk]; exact h⟩
  | a :: as, ls, (p, s) :: st, hq, h => by
    by_cases e : ((List.range a).map fun c => layersRoot H as (group as.prod c ls))
        = insertAt p (down H x st) s
    · have hp : p ≤ s.length := hq (p, s) List.mem_cons_self
      have hl : a = s.length + 1 := by
        have := congrArg List.length e
        rwa [length_insertAt, List.length_map, List.length_range] at this
      have e1 := congrArg (fun z => z[p]?) e
      simp only [getElem?_insertAt _ hp, List.getElem?_map,
        List.getElem?_range (show p < a by omega), Option.map_some, Option.some.injEq] at e1
      rcases down_walk as (group as.prod p ls) st (fun q h => hq q (List.mem_cons_of_mem _ h)) e1 with
        ⟨g1, g2⟩ | ⟨st₁, s', st₂, rfl, g1, g2⟩ | ⟨y, z, g1, g2, g3⟩
      · left
        refine ⟨?_, ?_⟩
        · rw [List.map_cons, hl]
          exact (List.cons_prefix_cons).2 ⟨rfl, g1⟩
        · rw [List.map_cons, walk]; exact g2
      · right; left
        refine ⟨(p, s) :: st₁, s', st₂, rfl, ?_, ?_⟩
        · rw [List.map_cons, g1, hl]
        · rw [List.map_cons, walk]; exact g2
      · exact Or.inr (Or.inr ⟨y, z, Or.inr ⟨p, by omega, g1⟩, Or.inr g2, g3⟩)
    · exact Or.inr (Or.inr ⟨_, _, Or.inl rfl, Or.inl rfl, e, h⟩)

/-- A walk through all layers ends at a leaf. -/
theorem walk_leaf {H : List E → E} : ∀ (as ps : List Nat) (ls : List E), as.length = ps.length →
    ls.length = as.prod → (∀ i (h : i < as.length) (h' : i < ps.length), ps[i] < as[i]) →
    position as ps < ls.length ∧ ls[position as ps]? = some (walk H as ls ps)
  | [], [], ls, _, hl, _ => by
    obtain ⟨x, rfl⟩ := List.length_eq_one_iff.1 hl
    simp [position, walk, layersRoot]
  | [], _ :: _, _, h, _, _ => by simp at h
  | _ :: _, [], _, h, _, _ => by simp at h
  | a :: as, p :: ps, ls, h, hl, hp => by
    rw [List.prod_cons] at hl
    have hpa : p < a := hp 0 (by simp) (by simp)
    obtain ⟨h1, h2⟩ := walk_leaf as ps (group as.prod p ls) (by simpa using h)
      (length_group hl hpa) (fun i g g' => hp (i + 1) (by simpa using g) (by simpa using g'))
    rw [length_group hl hpa] at h1
    rw [group_getElem? h1] at h2
    rw [position, walk]
    refine ⟨?_, h2⟩
    by_contra hc
    rw [List.getElem?_eq_none (by omega)] at h2
    exact absurd h2 (by simp)

/-- A walk that ends before the leaves ends at a hash. -/
theorem walk_node {H : List E → E} : ∀ (as ps : List Nat) (ls : List E), ps.length < as.length →
    (∀ i (h : i < as.length) (h' : i < ps.length), ps[i] < as[i]) →
    ∃ y, LayersHashed H as ls y ∧ walk H as ls ps = H y
  | [], _, _, h, _ => by simp at h
  | a :: as, [], ls, _, _ => ⟨_, Or.inl rfl, rfl⟩
  | a :: as, p :: ps, ls, h, hp => by
    obtain ⟨y, h1, h2⟩ := walk_node as ps (group as.prod p ls) (by simpa using h)
      (fun i g g' => hp (i + 1) (by simpa using g) (by simpa using g'))
    exact ⟨y, Or.inr ⟨p, hp 0 (by simp) (by simp), h1⟩, h2⟩

/-- Steps from an item up go through a hash, if there are any. -/
theorem down_hashed {H : List E → E} {x : E} {s : Nat × List E} {st : List (Nat × List E)} :
    ∃ z, DownHashed H x (s :: st) z ∧ down H x (s :: st) = H z :=
  ⟨_, Or.inl rfl, rfl⟩

theorem lt_of_arities {st : List (Nat × List E)} {as : List Nat}
    (hq : ∀ q ∈ st, q.1 ≤ q.2.length) (h : st.map (fun q => q.2.length + 1) <+: as) :
    ∀ i (_ : i < as.length) (_ : i < (st.map (·.1)).length), (st.map (·.1))[i] < as[i] := by
  intro i h1 h2
  have h3 : i < st.length := by simpa using h2
  obtain ⟨t, rfl⟩ := h
  rw [List.getElem_append_left (by simpa using h3), List.getElem_map, List.getElem_map]
  have := hq _ (List.getElem_mem h3)
  omega

/-! ### with the default hash methods -/

theorem layersRoot_map_leaf (D : Bytes → E) : ∀ (as : List Nat) (xs : List E),
    xs.length = as.prod →
    layersRoot (fun ns => D (nodeInput ns)) as (xs.map fun e => D (leafInput e)) = shapeRoot D as xs
  | [], xs, h => by
    obtain ⟨x, rfl⟩ := List.length_eq_one_iff.1 h
    rfl
  | a :: as, xs, h => by
    rw [List.prod_cons] at h
    rw [layersRoot, shapeRoot]
    congr 2
    apply List.map_congr_left
    intro c hc
    rw [group_map, layersRoot_map_leaf D as _ (length_group h (List.mem_range.1 hc))]

theorem layersHashed_map_leaf {D : Bytes → E} {y : List E} : ∀ (as : List Nat) (xs : List E),
    xs.length = as.prod →
    LayersHashed (fun ns => D (nodeInput ns)) as (xs.map fun e => D (leafInput e)) y →
    ShapeHashed D as xs (nodeInput y)
  | [], _, _, h => h.elim
  | a :: as, xs, hl, h => by
    rw [List.prod_cons] at hl
    rcases h with rfl | ⟨c, hc, h⟩
    · left
      congr 1
      apply List.map_congr_left
      intro c hc
      rw [group_map, layersRoot_map_leaf D as _ (length_group hl (List.mem_range.1 hc))]
    · right
      rw [group_map] at h
      exact ⟨c, hc, layersHashed_map_leaf as _ (length_group hl hc) h⟩

theorem shapeHashed_leaf {D : Bytes → E} {e : E} : ∀ (as : List Nat) (xs : List E),
    xs.length = as.prod → e ∈ xs → ShapeHashed D as xs (leafInput e)
  | [], xs, hl, h => by
    obtain ⟨x, rfl⟩ := List.length_eq_one_iff.1 hl
    rw [List.mem_singleton.1 h]
    rfl
  | a :: as, xs, hl, h => by
    rw [List.prod_cons] at hl
    obtain ⟨i, hi, rfl⟩ := List.mem_iff_getElem.1 h
    have hn : 0 < as.prod := Nat.pos_of_ne_zero (by intro h0; rw [h0] at hl; simp at hl; subst hl; simp at hi)
    have h1 : i / as.prod < a := Nat.div_lt_of_lt_mul (by rw [Nat.mul_comm, ← hl]; exact hi)
    have h2 := Nat.mod_lt i hn
    refine Or.inr ⟨i / as.prod, h1, shapeHashed_leaf as _ (length_group hl h1) ?_⟩
    have h3 := group_getElem? (xs := xs) (c := i / as.prod) h2
    rw [Nat.div_add_mod, List.getElem?_eq_getElem hi] at h3
    exact List.mem_of_getElem? h3

/-! ### roots of trees of the library -/

theorem node_eq_layersRoot {H : List E → Nat → E} (hH : ∀ ns h h', H ns h = H ns h') {b : Nat}
    {ls : List E} {d : E} : ∀ {l j : Nat}, b ^ l * j + b ^ l ≤ ls.length →
    node H b (fun i => ls.getD i d) l j
      = layersRoot (fun ns => H ns 0) (List.replicate l b) (group (b ^ l) j ls)
  | 0, j, h => by
    have h : j < ls.length := by
      have h' := h
      simp at h'
      omega
    have e : (List.take 1 (List.drop j ls)).head? = some ls[j] := by
      rw [List.head?_take, if_neg (by omega), List.head?_drop, List.getElem?_eq_getElem h]
    simp [node, layersRoot, group, List.getD_eq_getElem?_getD, h, List.headD_eq_head?_getD, e]
  | l + 1, j, h => by
    rw [node, List.replicate_succ, layersRoot, hH _ l 0]
    congr 1
    apply List.map_congr_left
    intro c hc
    have hc := List.mem_range.1 hc
    have h1 : b ^ l * (b * j + c) = b ^ (l + 1) * j + b ^ l * c := by
      rw [Nat.mul_add, Nat.pow_succ, Nat.mul_assoc]
    have h2 : b ^ l * c + b ^ l ≤ b ^ (l + 1) := by
      rw [Nat.pow_succ, ← Nat.mul_succ]
      exact Nat.mul_le_mul_left _ hc
    rw [node_eq_layersRoot hH (by rw [h1]; omega), prod_replicate]
    congr 1
    unfold group
    rw [List.drop_take, List.take_take, List.drop_drop, h1, Nat.min_eq_left (by omega)]

theorem BaseTree.IsTreeOf.layersRoot {S : Type} [StoreOps S E] {A : Alg E} (hI : A.IgnoresHeight)
    {b k : Nat} {ls : List E} {fs : FS} {t : BaseTree S E} (h : t.IsTreeOf A b k ls fs) :
    ls.length = b ^ k ∧
      t.root = layersRoot (fun ns => A.nodeHash ns 0) (List.replicate k b) ls := by
  obtain ⟨f, hf, _, hr⟩ := h.nodes
  have hl : ls.length = b ^ k := hf.count
  refine ⟨hl, ?_⟩
  rw [hr, hf.root_eq Element.default]
  unfold Spec.root
  rw [node_eq_layersRoot hI (by simp [hl])]
  congr 1
  simp [group, ← hl]

/-- One layer above trees of one shape. -/
theorem layersRoot_layer {C : Type} {rootOf : C → E} {A : Alg E} (hI : A.IgnoresHeight)
    {as : List Nat} {a : Nat} {cs : List C} {lss : List (List E)} (hl : cs.length = a)
    (hcs : List.Forall₂ (fun c ls => ls.length = as.prod ∧
      rootOf c = layersRoot (fun ns => A.nodeHash ns 0) as ls) cs lss) :
    lss.flatten.length = (a :: as).prod ∧ A.nodeHash (cs.map rootOf) 1
      = layersRoot (fun ns => A.nodeHash ns 0) (a :: as) lss.flatten := by
  have hlss : ∀ ls ∈ lss, ls.length = as.prod := by
    intro ls hls
    obtain ⟨c, _, hc⟩ := Forall₂.exists_left hcs hls
    exact hc.1
  refine ⟨by rw [length_flatten_uniform hlss, ← hcs.length_eq, hl, List.prod_cons], ?_⟩
  rw [layersRoot, hI _ 1 0]
  congr 1
  apply List.ext_getElem (by simp [hl])
  intro c h1 h2
  have h1 : c < cs.length := by simpa using h1
  have h3 : c < lss.length := by rw [← hcs.length_eq]; exact h1
  simp only [List.getElem_map, List.getElem_range]
  rw [group_flatten hlss h3]
  exact (Forall₂.getElem hcs h1 h3).2

theorem Tree1.IsCompound.layersRoot {S : Type} [StoreOps S E] {A : Alg E} (hI : A.IgnoresHeight)
    {b sub : Nat} {ls : List E} {fs : FS} {t : Tree1 S E} (h : t.IsCompound A b sub fs ls) :
    ∃ k, t.rowCount = k + 2 ∧ 0 < sub ∧ ls.length = (sub :: List.replicate k b).prod ∧
      t.root = layersRoot (fun ns => A.nodeHash ns 0) (sub :: List.replicate k b) ls := by
  have : DecidableEq E := Classical.decEq E
  obtain ⟨cs, lss, n, rfl, h1, h2, rfl⟩ := h
  obtain ⟨k, hk, hr, _, h4⟩ := fromTrees_height h1 h2
  obtain ⟨c0, h0, hl, _, _, rfl⟩ := Node.assemble_ok_iff.1 h1
  obtain ⟨g1, g2⟩ := layersRoot_layer (rootOf := BaseTree.root) hI hl (as := List.replicate k b)
    (h4.imp fun c ls hc => by rw [prod_replicate]; exact hc.layersRoot hI)
  refine ⟨k, hr, ?_, g1, g2⟩
  cases cs with
  | nil => simp at h0
  | cons c cs => simp at hl; omega

theorem fromSubTrees_layersRoot {S : Type} [StoreOps S E] {A : Alg E} (hI : A.IgnoresHeight)
    {b sub top : Nat} {fs : FS} {cs : List (Tree1 S E)} {t : Node (Tree1 S E) E} {lss : List (List E)}
    (h1 : fromSubTrees A top cs = .ok t)
    (h2 : List.Forall₂ (Tree1.IsCompound A b sub fs) cs lss) :
    ∃ k, t.rowCount = k + 3 ∧ 0 < top ∧ 0 < sub ∧
      lss.flatten.length = (top :: sub :: List.replicate k b).prod ∧
      t.root = layersRoot (fun ns => A.nodeHash ns 0) (top :: sub :: List.replicate k b) lss.flatten := by
  obtain ⟨c0, h0, hl, hrows, _, rfl⟩ := Node.assemble_ok_iff.1 h1
  have hc0 : c0 ∈ cs := List.mem_of_mem_head? (by rw [h0]; rfl)
  obtain ⟨l0, hl0, hcl0⟩ := Forall₂.exists_right h2 hc0
  obtain ⟨k, hr0, hs, -, -⟩ := hcl0.layersRoot hI
  have hall : List.Forall₂ (fun c ls => ls.length = (sub :: List.replicate k b).prod ∧
      Tree1.root c = layersRoot (fun ns => A.nodeHash ns 0) (sub :: List.replicate k b) ls) cs lss := by
    rw [List.forall₂_iff_zip]
    refine ⟨h2.length_eq, ?_⟩
    intro c ls hm
    have hc : c ∈ cs := (List.of_mem_zip hm).1
    obtain ⟨k', hr', _, hx', hrt⟩ := ((List.forall₂_iff_zip.1 h2).2 hm).layersRoot hI
    have := hrows c hc
    obtain rfl : k' = k := by omega
    exact ⟨hx', hrt⟩
  obtain ⟨g1, g2⟩ := layersRoot_layer (rootOf := Tree1.root) hI hl hall
  refine ⟨k, by show c0.rowCount + 1 = _; omega, ?_, hs, g1, g2⟩
  cases cs with
  | nil => simp at h0
  | cons c cs => simp at hl; omega

/-- The root of every tree of the library, as a function of its leaves. -/
theorem Spec.TreeRoot.layers {A : Alg E} (hI : A.IgnoresHeight) {shape : List Nat} {leaves : List E}
    {r : E} (h : TreeRoot A shape leaves r) :
    leaves.length = shape.prod ∧ (∀ a ∈ shape, 0 < a) ∧
      r = layersRoot (fun ns => A.nodeHash ns 0) shape leaves := by
  cases h with
  | base hb h =>
    obtain ⟨h1, h2⟩ := h.layersRoot hI
    exact ⟨by rw [h1, prod_replicate], fun a ha => by rwa [(List.mem_replicate.1 ha).2], h2⟩
  | compound hb h =>
    obtain ⟨k, hr, hs, h1, h2⟩ := h.layersRoot hI
    rw [hr, Nat.add_sub_cancel]
    refine ⟨h1, fun a ha => ?_, h2⟩
    rcases List.mem_cons.1 ha with rfl | ha
    · exact hs
    · rwa [(List.mem_replicate.1 ha).2]
  | top hb h h' =>
    obtain ⟨k, hr, ht, hs, h1, h2⟩ := fromSubTrees_layersRoot hI h h'
    rw [hr, Nat.add_sub_cancel]
    refine ⟨h1, fun a ha => ?_, h2⟩
    rcases List.mem_cons.1 ha with rfl | ha
    · exact ht
    rcases List.mem_cons.1 ha with rfl | ha
    · exact hs
    · rwa [(List.mem_replicate.1 ha).2]

end Verif
