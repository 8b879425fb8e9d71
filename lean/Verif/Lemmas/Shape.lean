import Verif.Spec.Shape
import Verif.Lemmas.Digest
import Verif.Lemmas.Compound
/-
Helper lemmas: roots of trees with varying arities and what they bind.
-/
set_option linter.unusedSectionVars false
namespace Verif
open Spec
variable {E : Type}

theorem prod_replicate (b : Nat) : ∀ k : Nat, (List.replicate k b).prod = b ^ k
  | 0 => rfl
  | k + 1 => by rw [List.replicate_succ, List.prod_cons, prod_replicate b k, Nat.pow_succ, Nat.mul_comm]

theorem length_group {n c m : Nat} {xs : List E} (h : xs.length = m * n) (hc : c < m) :
    (group n c xs).length = n := by
  unfold group
  rw [List.length_take, List.length_drop, h]
  have : n * c + n ≤ m * n := by
    calc n * c + n = (c + 1) * n := by ring
      _ ≤ m * n := Nat.mul_le_mul_right _ hc
  omega

theorem group_getElem? {n c i : Nat} {xs : List E} (hi : i < n) :
    (group n c xs)[i]? = xs[n * c + i]? := by
  unfold group
  rw [List.getElem?_take_of_lt hi, List.getElem?_drop]

theorem ext_groups {n m : Nat} {xs ys : List E} (hx : xs.length = m * n) (hy : ys.length = m * n)
    (h : ∀ c, c < m → group n c xs = group n c ys) : xs = ys := by
  apply List.ext_getElem?
  intro i
  by_cases hi : i < m * n
  · have hn : 0 < n := Nat.pos_of_ne_zero (by rintro rfl; simp at hi)
    have h1 : i / n < m := Nat.div_lt_of_lt_mul (by rw [Nat.mul_comm]; exact hi)
    have h2 := Nat.mod_lt i hn
    have h3 := congrArg (fun z => z[i % n]?) (h _ h1)
    simp only [group_getElem? h2, Nat.div_add_mod] at h3
    exact h3
  · rw [List.getElem?_eq_none (by omega), List.getElem?_eq_none (by omega)]

theorem group_map {F : Type} (f : E → F) (n c : Nat) (xs : List E) :
    group n c (xs.map f) = (group n c xs).map f := by
  unfold group
  rw [← List.map_drop, ← List.map_take]

theorem group_flatten {n : Nat} : ∀ {xss : List (List E)} {c : Nat}, (∀ xs ∈ xss, xs.length = n) →
    (hc : c < xss.length) → group n c xss.flatten = xss[c]
  | [], c, _, hc => by simp at hc
  | xs :: xss, 0, h, _ => by
    have := h xs List.mem_cons_self
    simp [group, ← this]
  | xs :: xss, c + 1, h, hc => by
    have h0 := h xs List.mem_cons_self
    have ih := group_flatten (xss := xss) (c := c) (fun ys hy => h ys (List.mem_cons_of_mem _ hy))
      (by simpa using hc)
    rw [List.getElem_cons_succ, ← ih]
    unfold group
    rw [List.flatten_cons, Nat.mul_succ, Nat.add_comm, ← List.drop_drop, List.drop_left' h0]

variable [Element E]

section
variable [LawfulElement E]

/-- Equal roots: equal shapes and items, or a collision. -/
theorem shapeRoot_binds {D : Bytes → E} : ∀ (as as' : List Nat) (xs ys : List E), (∀ a ∈ as, 0 < a) →
    (∀ a ∈ as', 0 < a) → xs.length = as.prod → ys.length = as'.prod →
    shapeRoot D as xs = shapeRoot D as' ys →
    (as = as' ∧ xs = ys) ∨
      ∃ x y, ShapeHashed D as xs x ∧ ShapeHashed D as' ys y ∧ x ≠ y ∧ D x = D y
  | [], [], xs, ys, _, _, hx, hy, h => by
    obtain ⟨x, rfl⟩ := List.length_eq_one_iff.1 hx
    obtain ⟨y, rfl⟩ := List.length_eq_one_iff.1 hy
    by_cases e : x = y
    · exact Or.inl ⟨rfl, by rw [e]⟩
    · exact Or.inr ⟨_, _, rfl, rfl, fun g => e (leafInput_inj g), h⟩
  | [], a' :: as', xs, ys, _, _, _, _, h =>
    Or.inr ⟨_, _, rfl, Or.inl rfl, leafInput_ne_nodeInput _ _, h⟩
  | a :: as, [], xs, ys, _, _, _, _, h =>
    Or.inr ⟨_, _, Or.inl rfl, rfl, (leafInput_ne_nodeInput _ _).symm, h⟩
  | a :: as, a' :: as', xs, ys, ha, ha', hx, hy, h => by
    by_cases e : nodeInput ((List.range a).map fun c => shapeRoot D as (group as.prod c xs))
        = nodeInput ((List.range a').map fun c => shapeRoot D as' (group as'.prod c ys))
    · have e := nodeInput_inj e
      obtain rfl : a = a' := by simpa using congrArg List.length e
      have hr : ∀ c, c < a → shapeRoot D as (group as.prod c xs)
          = shapeRoot D as' (group as'.prod c ys) := by
        intro c hc
        have e1 := congrArg (fun z => z[c]?) e
        simpa only [List.getElem?_map, List.getElem?_range hc, Option.map_some,
          Option.some.injEq] using e1
      rw [List.prod_cons] at hx hy
      have ih := fun c hc => shapeRoot_binds as as' _ _
        (fun z hz => ha z (List.mem_cons_of_mem _ hz)) (fun z hz => ha' z (List.mem_cons_of_mem _ hz))
        (length_group hx hc) (length_group hy hc) (hr c hc)
      by_cases hall : ∀ c, c < a → as = as' ∧ group as.prod c xs = group as'.prod c ys
      · obtain rfl := (hall 0 (ha a List.mem_cons_self)).1
        exact Or.inl ⟨rfl, ext_groups hx hy fun c hc => (hall c hc).2⟩
      · push Not at hall
        obtain ⟨c, hc, hne⟩ := hall
        rcases ih c hc with ⟨g1, g2⟩ | ⟨x, y, g1, g2, g3⟩
        · exact absurd g2 (hne g1)
        · exact Or.inr ⟨x, y, Or.inr ⟨c, hc, g1⟩, Or.inr ⟨c, hc, g2⟩, g3⟩
    · exact Or.inr ⟨_, _, Or.inl rfl, Or.inl rfl, e, h⟩

end

/-- A node of a tree of one arity is the root of the shape below it. -/
theorem node_eq_shapeRoot {D : Bytes → E} {b : Nat} {xs : List E} : ∀ {l j : Nat},
    b ^ l * j + b ^ l ≤ xs.length →
    node (fun ns _ => D (nodeInput ns)) b (fun i => D (leafInput (xs.getD i Element.default))) l j
      = shapeRoot D (List.replicate l b) (group (b ^ l) j xs)
  | 0, j, h => by
    have h : j < xs.length := by
      have h' := h
      simp at h'
      omega
    have e : (List.take 1 (List.drop j xs)).head? = some xs[j] := by
      rw [List.head?_take, if_neg (by omega), List.head?_drop, List.getElem?_eq_getElem h]
    simp [node, shapeRoot, group, List.getD_eq_getElem?_getD, h, List.headD_eq_head?_getD, e]
  | l + 1, j, h => by
    rw [node, List.replicate_succ, shapeRoot]
    congr 2
    apply List.map_congr_left
    intro c hc
    have hc := List.mem_range.1 hc
    have h1 : b ^ l * (b * j + c) = b ^ (l + 1) * j + b ^ l * c := by
      rw [Nat.mul_add, Nat.pow_succ, Nat.mul_assoc]
    have h2 : b ^ l * c + b ^ l ≤ b ^ (l + 1) := by
      rw [Nat.pow_succ, ← Nat.mul_succ]
      exact Nat.mul_le_mul_left _ hc
    rw [node_eq_shapeRoot (by rw [h1]; omega), prod_replicate]
    congr 1
    unfold group
    rw [List.drop_take, List.take_take, List.drop_drop, h1, Nat.min_eq_left (by omega)]

variable {σ : Type} {init : σ} {write : σ → Bytes → σ} {hash : σ → E × σ}

theorem BaseTree.IsTreeOf.shapeRoot {S : Type} [StoreOps S E] (hw : Streaming write) {b k : Nat}
    {xs : List E} {fs : FS} {t : BaseTree S E}
    (h : t.IsTreeOf (Alg.ofHasher σ init write hash) b k
      (xs.map (Alg.ofHasher σ init write hash).leafHash) fs) :
    xs.length = b ^ k ∧
      t.root = shapeRoot (digest init write hash) (List.replicate k b) xs := by
  obtain ⟨f, hf, _, hr⟩ := h.nodes
  have hl : xs.length = b ^ k := by simpa using hf.count
  have eH : (Alg.ofHasher σ init write hash).nodeHash
      = fun ns _ => digest init write hash (nodeInput ns) :=
    funext fun ns => funext fun l => nodeHash_ofHasher init hash hw ns l
  have eL : (fun i => (xs.map (Alg.ofHasher σ init write hash).leafHash).getD i
      ((Alg.ofHasher σ init write hash).leafHash Element.default))
      = fun i => digest init write hash (leafInput (xs.getD i Element.default)) := by
    funext i
    rw [← leafHash_ofHasher init hash hw]
    simp only [List.getD_eq_getElem?_getD, List.getElem?_map]
    cases xs[i]? <;> rfl
  refine ⟨hl, ?_⟩
  rw [hr, hf.root_eq ((Alg.ofHasher σ init write hash).leafHash Element.default), eL, eH]
  unfold Spec.root
  rw [node_eq_shapeRoot (by simp [hl])]
  congr 1
  simp [group, ← hl]

/-- One layer above trees of one shape. -/
theorem shapeRoot_layer {C : Type} {rootOf : C → E} (hw : Streaming write)
    {as : List Nat} {a : Nat} {xs : List E} {cs : List C} {lss : List (List E)}
    (he : xs.map (Alg.ofHasher σ init write hash).leafHash = lss.flatten) (hl : cs.length = a)
    (hcs : List.Forall₂ (fun c ls => ∀ ys : List E,
      ls = ys.map (Alg.ofHasher σ init write hash).leafHash →
      rootOf c = shapeRoot (digest init write hash) as ys) cs lss)
    (hlss : ∀ ls ∈ lss, ls.length = as.prod) :
    (Alg.ofHasher σ init write hash).nodeHash (cs.map rootOf) 1
      = shapeRoot (digest init write hash) (a :: as) xs := by
  rw [nodeHash_ofHasher init hash hw, shapeRoot]
  congr 2
  apply List.ext_getElem (by simp [hl])
  intro c h1 h2
  have h1 : c < cs.length := by simpa using h1
  have h3 : c < lss.length := by rw [← hcs.length_eq]; exact h1
  simp only [List.getElem_map, List.getElem_range]
  refine Forall₂.getElem hcs h1 h3 _ ?_
  rw [← group_map, he, group_flatten hlss h3]

theorem Tree1.IsCompound.shapeRoot {S : Type} [StoreOps S E] (hw : Streaming write) {b sub : Nat}
    {xs : List E} {fs : FS} {t : Tree1 S E}
    (h : t.IsCompound (Alg.ofHasher σ init write hash) b sub fs
      (xs.map (Alg.ofHasher σ init write hash).leafHash)) :
    ∃ k, 1 ≤ k ∧ t.rowCount = k + 2 ∧ 0 < sub ∧ xs.length = sub * b ^ k ∧
      t.root = shapeRoot (digest init write hash) (sub :: List.replicate k b) xs := by
  have : DecidableEq E := Classical.decEq E
  obtain ⟨cs, lss, n, rfl, h1, h2, h3⟩ := h
  obtain ⟨k, hk, hr, _, h4⟩ := fromTrees_height h1 h2
  obtain ⟨c0, h0, hl, _, _, rfl⟩ := Node.assemble_ok_iff.1 h1
  have hlen : ∀ ls ∈ lss, ls.length = b ^ k := by
    intro ls hls
    obtain ⟨c, _, hc⟩ := Forall₂.exists_left h4 hls
    obtain ⟨f, hf, _⟩ := hc.nodes
    exact hf.count
  have hx : xs.length = sub * b ^ k := by
    have := congrArg List.length h3
    rw [List.length_map, length_flatten_uniform hlen, ← h4.length_eq, hl] at this
    exact this
  refine ⟨k, hk, hr, ?_, hx, ?_⟩
  · cases cs with
    | nil => simp at h0
    | cons c cs => simp at hl; omega
  · refine shapeRoot_layer hw h3 hl (h4.imp fun c ls hc ys e => ?_)
      (by rw [prod_replicate]; exact hlen)
    subst e
    exact (hc.shapeRoot hw).2

theorem fromSubTrees_shapeRoot {S : Type} [StoreOps S E] (hw : Streaming write) {b sub top : Nat}
    {xs : List E} {fs : FS} {cs : List (Tree1 S E)} {t : Node (Tree1 S E) E} {lss : List (List E)}
    (h1 : fromSubTrees (Alg.ofHasher σ init write hash) top cs = .ok t)
    (h2 : List.Forall₂ (Tree1.IsCompound (Alg.ofHasher σ init write hash) b sub fs) cs lss)
    (h3 : xs.map (Alg.ofHasher σ init write hash).leafHash = lss.flatten) :
    ∃ k, 1 ≤ k ∧ t.rowCount = k + 3 ∧ 0 < top ∧ 0 < sub ∧ xs.length = top * (sub * b ^ k) ∧
      t.root = shapeRoot (digest init write hash) (top :: sub :: List.replicate k b) xs := by
  obtain ⟨c0, h0, hl, hrows, _, rfl⟩ := Node.assemble_ok_iff.1 h1
  have hc0 : c0 ∈ cs := List.mem_of_mem_head? (by rw [h0]; rfl)
  have hpre : ∀ ls ∈ lss, ∃ ys : List E, ls = ys.map (Alg.ofHasher σ init write hash).leafHash := by
    intro ls hls
    have : ∀ (lss : List (List E)) (xs : List E),
        xs.map (Alg.ofHasher σ init write hash).leafHash = lss.flatten → ∀ ls ∈ lss,
        ∃ ys : List E, ls = ys.map (Alg.ofHasher σ init write hash).leafHash := by
      intro lss
      induction lss with
      | nil => simp
      | cons m lss ih =>
        intro xs e ls hls
        rw [List.flatten_cons, List.map_eq_append_iff] at e
        obtain ⟨l1, l2, rfl, e1, e2⟩ := e
        rcases List.mem_cons.1 hls with rfl | hls
        · exact ⟨l1, e1.symm⟩
        · exact ih l2 e2 ls hls
    exact this lss xs h3 ls hls
  obtain ⟨l0, hl0, hcl0⟩ := Forall₂.exists_right h2 hc0
  obtain ⟨y0, rfl⟩ := hpre _ hl0
  obtain ⟨k, hk, hr0, hs, -, -⟩ := hcl0.shapeRoot hw
  have hall : List.Forall₂ (fun c ls => ∀ ys : List E,
      ls = ys.map (Alg.ofHasher σ init write hash).leafHash → ys.length = sub * b ^ k ∧
      c.root = shapeRoot (digest init write hash) (sub :: List.replicate k b) ys) cs lss := by
    rw [List.forall₂_iff_zip]
    refine ⟨h2.length_eq, ?_⟩
    intro c ls hm ys e
    subst e
    have hc : c ∈ cs := (List.of_mem_zip hm).1
    obtain ⟨k', _, hr', _, hx', hrt⟩ := ((List.forall₂_iff_zip.1 h2).2 hm).shapeRoot hw
    have := hrows c hc
    obtain rfl : k' = k := by omega
    exact ⟨hx', hrt⟩
  have hlen : ∀ ls ∈ lss, ls.length = sub * b ^ k := by
    intro ls hls
    obtain ⟨c, _, hc⟩ := Forall₂.exists_left hall hls
    obtain ⟨ys, rfl⟩ := hpre _ hls
    simpa using (hc ys rfl).1
  have hx : xs.length = top * (sub * b ^ k) := by
    have := congrArg List.length h3
    rw [List.length_map, length_flatten_uniform hlen, ← h2.length_eq, hl] at this
    exact this
  refine ⟨k, hk, by show c0.rowCount + 1 = _; omega, ?_, hs, hx, ?_⟩
  · cases cs with
    | nil => simp at h0
    | cons c cs => simp at hl; omega
  · exact shapeRoot_layer hw h3 hl (hall.imp fun c ls hc ys e => (hc ys e).2)
      (by rw [List.prod_cons, prod_replicate]; exact hlen)

/-- The root of every tree of the library, as a function of its items. -/
theorem Spec.TreeRoot.eq (hw : Streaming write) {shape : List Nat} {leaves xs : List E} {r : E}
    (h : TreeRoot (Alg.ofHasher σ init write hash) shape leaves r)
    (hx : leaves = xs.map (Alg.ofHasher σ init write hash).leafHash) :
    xs.length = shape.prod ∧ (∀ a ∈ shape, 0 < a) ∧
      r = shapeRoot (digest init write hash) shape xs := by
  cases h with
  | base hb h =>
    subst hx
    obtain ⟨h1, h2⟩ := h.shapeRoot hw
    exact ⟨by rw [h1, prod_replicate], fun a ha => by rwa [(List.mem_replicate.1 ha).2], h2⟩
  | compound hb h =>
    subst hx
    obtain ⟨k, _, hr, hs, h1, h2⟩ := h.shapeRoot hw
    rw [hr, Nat.add_sub_cancel]
    refine ⟨by rw [h1, List.prod_cons, prod_replicate], fun a ha => ?_, h2⟩
    rcases List.mem_cons.1 ha with rfl | ha
    · exact hs
    · rwa [(List.mem_replicate.1 ha).2]
  | top hb h h' =>
    obtain ⟨k, _, hr, ht, hs, h1, h2⟩ := fromSubTrees_shapeRoot hw h h' hx.symm
    rw [hr, Nat.add_sub_cancel]
    refine ⟨by rw [h1, List.prod_cons, List.prod_cons, prod_replicate], fun a ha => ?_, h2⟩
    rcases List.mem_cons.1 ha with rfl | ha
    · exact ht
    rcases List.mem_cons.1 ha with rfl | ha
    · exact hs
    · rwa [(List.mem_replicate.1 ha).2]

end Verif
