import Verif.Lemmas.ProofGen
import Verif.Spec.Compound
/-!
Compound trees: assembly, addressing and proofs.
-/
set_option linter.unusedSectionVars false
namespace Verif
open Spec

theorem foldl_add_const {C : Type} (g : C → Nat) (n : Nat) : ∀ (cs : List C) (z : Nat),
    (∀ c ∈ cs, g c = n) → cs.foldl (fun s c => s + g c) z = z + cs.length * n
  | [], z, _ => by simp
  | c :: cs, z, h => by
    rw [List.foldl_cons, foldl_add_const g n cs _ (fun c hc => h c (List.mem_cons_of_mem _ hc)),
      h c List.mem_cons_self, List.length_cons, Nat.succ_mul]
    omega

theorem foldl_add_sum {C : Type} (g : C → Nat) : ∀ (cs : List C) (z : Nat),
    cs.foldl (fun s c => s + g c) z = z + (cs.map g).sum
  | [], z => by simp
  | c :: cs, z => by
    rw [List.foldl_cons, foldl_add_sum g cs]
    simp; omega

theorem sum_map_const {C : Type} (g : C → Nat) {n : Nat} {cs : List C} (h : ∀ c ∈ cs, g c = n) :
    (cs.map g).sum = n * cs.length := by
  have := foldl_add_const g n cs 0 h
  rw [foldl_add_sum] at this
  rw [Nat.mul_comm]
  omega

namespace Node
variable {C E : Type}

theorem assemble_ok_iff {A : Alg E} {leafsOf lenOf rowsOf : C → Nat} {rootOf : C → E} {arity : Nat}
    {cs : List C} {t : Node C E} :
    assemble A leafsOf lenOf rowsOf rootOf arity cs = .ok t ↔
      ∃ c0, cs.head? = some c0 ∧ cs.length = arity ∧ (∀ c ∈ cs, rowsOf c = rowsOf c0) ∧
        (∀ c ∈ cs, lenOf c = lenOf c0) ∧
        t = ⟨cs, (cs.map leafsOf).sum, lenOf c0 * arity + 1, rowsOf c0 + 1,
          A.nodeHash (cs.map rootOf) 1⟩ := by
  unfold assemble
  simp only [bind_ok_iff, ensure_ok_iff, exists_const, Except.ok.injEq, foldl_add_sum, Nat.zero_add]
  constructor
  · rintro ⟨h0, h1, h2, h3, c0, h4, rfl⟩
    cases cs with
    | nil => simp at h3; omega
    | cons c cs =>
      have : c = c0 := by simpa [idxP] using h4
      subst this
      refine ⟨c, rfl, h3, ?_, ?_, by rw [h3]⟩
      · intro d hd; simpa using h1 d hd
      · intro d hd; simpa using h2 d hd
  · rintro ⟨c0, h0, h1, h2, h3, rfl⟩
    cases cs with
    | nil => simp at h0
    | cons c cs =>
      obtain rfl : c = c0 := by simpa using h0
      refine ⟨by simp at h1; omega, ?_, ?_, h1, c, by simp [idxP], by rw [h1]⟩
      · intro d hd; simpa using h2 d hd
      · intro d hd; simpa using h3 d hd

theorem assemble_returns {A : Alg E} {leafsOf lenOf rowsOf : C → Nat} {rootOf : C → E} {arity : Nat}
    {cs : List C} : Res.Returns (assemble A leafsOf lenOf rowsOf rootOf arity cs) := by
  unfold assemble
  by_cases h1 : arity > 0
  · rw [ensure_true h1, Res.ok_bind]
    by_cases h2 : ∀ c ∈ cs, some (rowsOf c) = cs.head?.map rowsOf
    · rw [ensure_true h2, Res.ok_bind]
      by_cases h3 : ∀ c ∈ cs, some (lenOf c) = cs.head?.map lenOf
      · rw [ensure_true h3, Res.ok_bind]
        by_cases h4 : cs.length = arity
        · rw [ensure_true h4, Res.ok_bind, idxP_ok (by omega), Res.ok_bind]
          exact .inl ⟨_, rfl⟩
        · rw [ensure_false h4]; exact .inr ⟨_, rfl⟩
      · rw [ensure_false h3]; exact .inr ⟨_, rfl⟩
    · rw [ensure_false h2]; exact .inr ⟨_, rfl⟩
  · rw [ensure_false h1]; exact .inr ⟨_, rfl⟩

/-- A layer of `arity` children with `n` leaves each. -/
structure Uniform (leafsOf : C → Nat) (t : Node C E) (arity n : Nat) : Prop where
  count : t.children.length = arity
  each : ∀ c ∈ t.children, leafsOf c = n
  leafs : t.leafs = arity * n

theorem Uniform.index {leafsOf : C → Nat} {t : Node C E} {arity n i : Nat}
    (h : t.Uniform leafsOf arity n) (hi : i < arity * n) : i / n < t.children.length := by
  rw [h.count]
  have hn : 0 < n := by
    rcases Nat.eq_zero_or_pos n with h | h
    · simp [h] at hi
    · exact h
  rwa [Nat.div_lt_iff_lt_mul hn]

theorem Uniform.locate {leafsOf : C → Nat} {t : Node C E} {arity n i : Nat}
    (h : t.Uniform leafsOf arity n) (hi : i < arity * n) :
    t.locate leafsOf arity i = .ok (i / n, t.children[i / n]'(h.index hi), i % n) := by
  have ha : 0 < arity := by
    rcases Nat.eq_zero_or_pos arity with h | h
    · simp [h] at hi
    · exact h
  have hn : 0 < n := by
    rcases Nat.eq_zero_or_pos n with h | h
    · simp [h] at hi
    · exact h
  unfold Node.locate
  rw [h.leafs, divP_ok ha, Res.ok_bind, Nat.mul_div_cancel_left _ ha, divP_ok hn, Res.ok_bind,
    idxP_ok (h.index hi), Res.ok_bind, h.each _ (List.getElem_mem _), modP_ok hn, Res.ok_bind]

theorem layerLemma_eq {rootOf : C → E} {t : Node C E} (ti : Nat) :
    ∀ (n i : Nat), i + n = t.children.length →
    layerLemma rootOf t ti n i
      = .ok ((((List.range' i n).filter (· ≠ ti)).filterMap fun c => (t.children[c]?).map rootOf) ++ [t.root])
  | 0, i, _ => rfl
  | n + 1, i, h => by
    rw [layerLemma, List.range'_succ]
    have ih := layerLemma_eq (rootOf := rootOf) (t := t) ti n (i + 1) (by omega)
    by_cases hi : i = ti
    · rw [if_neg (by simpa using hi), ih]
      simp [hi]
    · rw [if_pos hi, idxP_ok (by omega), Res.ok_bind, ih, Res.ok_bind]
      have hlt : i < t.children.length := by omega
      simp [hi, List.getElem?_eq_getElem hlt]

theorem filterMap_range_erase {α β : Type} (g : α → β) : ∀ (xs : List α) (p : Nat), p < xs.length →
    (((List.range' 0 xs.length).filter (· ≠ p)).filterMap fun c => (xs[c]?).map g)
      = (xs.map g).eraseIdx p := by
  intro xs p hp
  rw [← List.range_eq_range', range_filter_split hp, List.filterMap_append, List.eraseIdx_eq_take_drop_succ]
  congr 1
  · have : ∀ q, q ≤ xs.length → (List.range q).filterMap (fun c => (xs[c]?).map g) = (xs.map g).take q := by
      intro q hq
      induction q with
      | zero => simp
      | succ q ih =>
        rw [List.range_succ, List.filterMap_append, ih (by omega), List.take_add_one]
        simp [List.getElem?_eq_getElem (by omega : q < xs.length)]
    exact this p (by omega)
  · have : ∀ m q, q + m = xs.length →
        (List.range' q m).filterMap (fun c => (xs[c]?).map g) = (xs.map g).drop q := by
      intro m
      induction m with
      | zero => intro q hq; simp; omega
      | succ m ih =>
        intro q hq
        rw [List.range'_succ, List.filterMap_cons, List.getElem?_eq_getElem (by omega : q < xs.length)]
        simp only [Option.map_some]
        have e : (xs.map g).drop q = g xs[q] :: (xs.map g).drop (q + 1) := by
          rw [List.drop_eq_getElem_cons (by rw [List.length_map]; omega), List.getElem_map]
        rw [ih (q + 1) (by omega), e]
    rw [this (xs.length - p - 1) (p + 1) (by omega)]

theorem layerLemma_erase {rootOf : C → E} {t : Node C E} {ti : Nat} (h : ti < t.children.length) :
    layerLemma rootOf t ti t.children.length 0
      = .ok ((t.children.map rootOf).eraseIdx ti ++ [t.root]) := by
  rw [layerLemma_eq ti _ 0 (by omega), filterMap_range_erase rootOf _ _ h]

theorem new_layer {b pTop pSub : Nat} (h : ¬ (pTop = 0 ∧ pSub = 0)) (sp : Proof E) (l : List E)
    (p : List Nat) : Proof.new b pTop pSub (some sp) l p = .ok (.nested sp pTop pSub l p) := by
  unfold Proof.new; rw [if_neg h]; rfl

theorem genSubTreeProof_eq {leafsOf : C → Nat} {rootOf : C → E} {gen : C → Nat → Res (Proof E)}
    {b pTop pSub : Nat} {t : Node C E} {arity n i : Nat} (h : t.Uniform leafsOf arity n)
    (hi : i < arity * n) (hp : ¬ (pTop = 0 ∧ pSub = 0)) {sp : Proof E}
    (hg : gen (t.children[i / n]'(h.index hi)) (i % n) = .ok sp) :
    t.genSubTreeProof leafsOf rootOf gen b pTop pSub arity i
      = .ok (.nested sp pTop pSub ((t.children.map rootOf).eraseIdx (i / n) ++ [t.root]) [i / n]) := by
  have ha : 0 < arity := by
    rcases Nat.eq_zero_or_pos arity with h | h
    · simp [h] at hi
    · exact h
  have hn : 0 < n := by
    rcases Nat.eq_zero_or_pos n with h | h
    · simp [h] at hi
    · exact h
  unfold genSubTreeProof
  rw [ensure_true (by omega), Res.ok_bind, h.leafs, divP_ok ha, Res.ok_bind,
    Nat.mul_div_cancel_left _ ha, divP_ok hn, Res.ok_bind, ensure_true h.count.symm, Res.ok_bind,
    idxP_ok (h.index hi), Res.ok_bind, h.each _ (List.getElem_mem _), modP_ok hn, Res.ok_bind, hg,
    Res.ok_bind]
  have := layerLemma_erase (rootOf := rootOf) (h.index hi)
  rw [h.count] at this
  rw [this, Res.ok_bind, new_layer hp]

theorem readAt_eq {leafsOf : C → Nat} {rd : C → Nat → Res E} {t : Node C E} {arity n i : Nat}
    (h : t.Uniform leafsOf arity n) (hi : i < arity * n) :
    t.readAt leafsOf rd arity i = rd (t.children[i / n]'(h.index hi)) (i % n) := by
  unfold readAt
  rw [ensure_true h.count.symm, Res.ok_bind, h.locate hi, Res.ok_bind]

end Node

/-! ### Validation of a layer -/

theorem insertAt_eraseIdx {E : Type} {xs : List E} {p : Nat} (h : p < xs.length) :
    insertAt p xs[p] (xs.eraseIdx p) = xs := by
  rw [insertAt, List.eraseIdx_eq_take_drop_succ, List.take_left' (by simp; omega),
    List.drop_left' (by simp; omega), ← List.drop_eq_getElem_cons h, List.take_append_drop]

theorem validateTopLayer_honest {E : Type} [DecidableEq E] {A : Alg E} (hA : A.LawfulReset)
    {roots : List E} {p top subn : Nat} (hp : p < roots.length) (hsub : 0 < subn) {s : Proof E}
    (hs : s.root = .ok roots[p]) (r : E) :
    Proof.validateTopLayer A roots.length s (.nested s top subn (roots.eraseIdx p ++ [r]) [p])
      = .ok (decide (A.nodeHash roots 0 = r)) := by
  have hlen : (roots.eraseIdx p).length = roots.length - 1 := by
    rw [List.length_eraseIdx]; simp [hp]
  unfold Proof.validateTopLayer
  simp only [Proof.path, Proof.lem]
  rw [idxP_ok (by simp), Res.ok_bind]
  have hst : Proof.subTreeRoot s (.nested s top subn (roots.eraseIdx p ++ [r]) [p]) = .ok roots[p] := by
    unfold Proof.subTreeRoot
    simp only [Proof.subn, gt_iff_lt, hsub, ↓reduceIte, hs]
  rw [hst]
  simp only [List.getElem_cons_zero]
  rw [gather_hit roots[p] p _ 0 roots.length 0 0 (by omega) (by omega) (by simp [hlen]),
    Res.ok_bind]
  simp only [Nat.zero_add, List.drop_zero, Nat.sub_zero, ne_eq, not_true_eq_false, ↓reduceIte]
  rw [List.take_left' hlen, insertAt_eraseIdx hp, hA]
  unfold Proof.root
  simp only [Proof.lem, List.getLast?_append, List.getLast?_singleton, Option.some_or]
  rfl

theorem validate_nested_honest {E : Type} [DecidableEq E] {A : Alg E} (hA : A.LawfulReset) {b : Nat}
    {roots : List E} {p top subn : Nat} (hp : p < roots.length) (hsub : 0 < subn)
    (har : roots.length = layerArity top subn) {s : Proof E}
    (hs : s.root = .ok roots[p]) (hv : s.validate A b = .ok true) (r : E) :
    Proof.validate A b (.nested s top subn (roots.eraseIdx p ++ [r]) [p])
      = .ok (decide (A.nodeHash roots 0 = r)) := by
  simp only [Proof.validate]
  unfold layerArity at har
  by_cases h : top > 0
  · rw [if_pos h] at har ⊢
    rw [hv, Res.ok_bind]
    simp only [Bool.not_true, Bool.false_eq_true, ↓reduceIte]
    rw [← har]
    exact validateTopLayer_honest hA hp hsub hs r
  · rw [if_neg h] at har ⊢
    rw [if_pos hsub, hv, Res.ok_bind]
    simp only [Bool.not_true, Bool.false_eq_true, ↓reduceIte]
    have := validateTopLayer_honest hA (top := top) hp hsub hs r
    rwa [har] at this

/-! ### Layers over complete children -/

theorem flatten_getElem_uniform {α : Type} {n : Nat} (hn : 0 < n) : ∀ {xss : List (List α)},
    (∀ xs ∈ xss, xs.length = n) → ∀ {i : Nat} (h : i < xss.flatten.length),
    ∃ (h1 : i / n < xss.length) (h2 : i % n < (xss[i / n]).length),
      xss.flatten[i] = (xss[i / n])[i % n]
  | [], _, i, h => by simp at h
  | xs :: xss, hx, i, h => by
    have hl := hx xs List.mem_cons_self
    by_cases hi : i < n
    · refine ⟨by rw [Nat.div_eq_of_lt hi]; simp, ?_, ?_⟩
      · simp only [Nat.div_eq_of_lt hi, Nat.mod_eq_of_lt hi, List.getElem_cons_zero]; omega
      · simp only [Nat.div_eq_of_lt hi, Nat.mod_eq_of_lt hi, List.getElem_cons_zero,
          List.flatten_cons]
        rw [List.getElem_append_left]
    · have hi' : i - n < xss.flatten.length := by
        simp only [List.flatten_cons, List.length_append] at h; omega
      obtain ⟨g1, g2, g3⟩ := flatten_getElem_uniform hn (xss := xss)
        (fun ys hy => hx ys (List.mem_cons_of_mem _ hy)) hi'
      have e1 : i / n = (i - n) / n + 1 := by
        conv_lhs => rw [← Nat.sub_add_cancel (by omega : n ≤ i)]
        exact Nat.add_div_right _ hn
      have e2 : i % n = (i - n) % n := by
        conv_lhs => rw [← Nat.sub_add_cancel (by omega : n ≤ i)]
        exact Nat.add_mod_right _ _
      refine ⟨by rw [e1]; simpa using g1, ?_, ?_⟩
      · simp only [e1, e2, List.getElem_cons_succ]; exact g2
      · simp only [e1, e2, List.getElem_cons_succ, List.flatten_cons]
        rw [List.getElem_append_right (by omega)]
        simp only [hl]
        exact g3

theorem length_flatten_uniform {α : Type} {n : Nat} : ∀ {xss : List (List α)},
    (∀ xs ∈ xss, xs.length = n) → xss.flatten.length = xss.length * n
  | [], _ => by simp
  | xs :: xss, h => by
    rw [List.flatten_cons, List.length_append, h xs List.mem_cons_self,
      length_flatten_uniform (fun ys hy => h ys (List.mem_cons_of_mem _ hy)), List.length_cons,
      Nat.succ_mul]
    omega

theorem Forall₂.getElem {α β : Type} {R : α → β → Prop} : ∀ {xs : List α} {ys : List β},
    List.Forall₂ R xs ys → ∀ {i : Nat} (h1 : i < xs.length) (h2 : i < ys.length), R xs[i] ys[i]
  | _, _, .cons h _, 0, _, _ => h
  | _, _, .cons _ t, i + 1, h1, h2 => by
    simpa using Forall₂.getElem t (by simpa using h1) (by simpa using h2)

theorem Forall₂.exists_left {α β : Type} {R : α → β → Prop} {xs : List α} {ys : List β}
    (h : List.Forall₂ R xs ys) {y : β} (hy : y ∈ ys) : ∃ x ∈ xs, R x y := by
  obtain ⟨i, hi, rfl⟩ := List.mem_iff_getElem.1 hy
  have hl := h.length_eq
  exact ⟨xs[i], List.getElem_mem _, Forall₂.getElem h (by omega) hi⟩

theorem Forall₂.exists_right {α β : Type} {R : α → β → Prop} {xs : List α} {ys : List β}
    (h : List.Forall₂ R xs ys) {x : α} (hx : x ∈ xs) : ∃ y ∈ ys, R x y := by
  obtain ⟨i, hi, rfl⟩ := List.mem_iff_getElem.1 hx
  have hl := h.length_eq
  exact ⟨ys[i], List.getElem_mem _, Forall₂.getElem h hi (by omega)⟩

/-- Everything a layer above needs to know of a child: it reads as `leaves` and proves each of
them. -/
structure Child [DecidableEq E] (A : Alg E) (b : Nat) (n : Nat) (rd : Nat → Res E)
    (gen : Nat → Res (Proof E)) (root : E) (leaves : List E) : Prop where
  count : leaves.length = n
  read : ∀ i (h : i < leaves.length), rd i = .ok leaves[i]
  proof : ∀ i (h : i < leaves.length), ∃ p, gen i = .ok p ∧ p.root = .ok root ∧
    (innermost p).item = .ok leaves[i] ∧
    (A.LawfulReset → A.IgnoresHeight → p.validate A b = .ok true)

theorem Node.Uniform.of_assemble {C : Type} {A : Alg E} {leafsOf lenOf rowsOf : C → Nat} {rootOf : C → E}
    {arity n : Nat} {cs : List C} {t : Node C E}
    (h : assemble A leafsOf lenOf rowsOf rootOf arity cs = .ok t) (hn : ∀ c ∈ cs, leafsOf c = n) :
    t.Uniform leafsOf arity n := by
  obtain ⟨c0, h0, h1, -, -, rfl⟩ := Node.assemble_ok_iff.1 h
  refine ⟨h1, hn, ?_⟩
  rw [← h1]
  have := foldl_add_const leafsOf n cs 0 hn
  rw [foldl_add_sum] at this
  simpa using this

/-- A layer over children that read and prove their leaves reads and proves all of them. -/
theorem Node.layer {C E : Type} [DecidableEq E] {A : Alg E} {b pTop pSub arity n : Nat}
    {leafsOf lenOf rowsOf : C → Nat} {rootOf : C → E} {rd : C → Nat → Res E}
    {gen : C → Nat → Res (Proof E)} {cs : List C} {t : Node C E} {lss : List (List E)}
    (ht : assemble A leafsOf lenOf rowsOf rootOf arity cs = .ok t) (hn : 0 < n)
    (hcs : List.Forall₂ (fun c ls => leafsOf c = n ∧ Child A b n (rd c) (gen c) (rootOf c) ls) cs lss)
    (hs : 0 < pSub) (har : arity = layerArity pTop pSub) :
    t.leafs = lss.flatten.length ∧ t.leafs / arity = n ∧
    (∀ i (h : i < lss.flatten.length), t.readAt leafsOf rd arity i = .ok lss.flatten[i]) ∧
    ∀ i (h : i < lss.flatten.length), ∃ (hlt : i / n < t.children.length) (sp p : Proof E),
      gen (t.children[i / n]) (i % n) = .ok sp ∧
      t.genSubTreeProof leafsOf rootOf gen b pTop pSub arity i = .ok p ∧
      p = .nested sp pTop pSub ((t.children.map rootOf).eraseIdx (i / n) ++ [t.root]) [i / n] ∧
      p.root = .ok t.root ∧ (innermost p).item = .ok lss.flatten[i] ∧
      (A.LawfulReset → A.IgnoresHeight → p.validate A b = .ok true) := by
  have hu : t.Uniform leafsOf arity n := .of_assemble ht (fun c hc => by
    obtain ⟨ls, _, h, _⟩ := Forall₂.exists_right hcs hc; exact h)
  obtain ⟨c0, h0, h1, -, -, rfl⟩ := Node.assemble_ok_iff.1 ht
  have hll := hcs.length_eq
  have hlen : ∀ ls ∈ lss, ls.length = n := fun ls hl => by
    obtain ⟨c, _, _, h⟩ := Forall₂.exists_left hcs hl; exact h.count
  have hfl := length_flatten_uniform hlen
  have ha : 0 < arity := by
    cases cs with
    | nil => simp at h0
    | cons c cs => simp at h1; omega
  have hle : ∀ i, i < lss.flatten.length → i < arity * n := by
    intro i h; rw [hfl, ← hll, h1] at h; exact h
  refine ⟨by rw [hu.leafs, hfl, ← hll, h1], by rw [hu.leafs]; exact Nat.mul_div_cancel_left _ ha, ?_, ?_⟩
  · intro i hi
    obtain ⟨g1, g2, g3⟩ := flatten_getElem_uniform hn hlen hi
    rw [Node.readAt_eq hu (hle i hi)]
    have hc := (Forall₂.getElem hcs (hu.index (hle i hi)) g1).2
    rw [g3]
    exact hc.read _ _
  · intro i hi
    obtain ⟨g1, g2, g3⟩ := flatten_getElem_uniform hn hlen hi
    have hc := (Forall₂.getElem hcs (hu.index (hle i hi)) g1).2
    obtain ⟨sp, e1, e2, e3, e4⟩ := hc.proof _ g2
    refine ⟨hu.index (hle i hi), sp, _, e1, Node.genSubTreeProof_eq hu (hle i hi)
      (by omega) e1, rfl, ?_, ?_, ?_⟩
    · unfold Proof.root
      simp only [Proof.lem, List.getLast?_append, List.getLast?_singleton, Option.some_or]
    · rw [g3]; exact e3
    · intro hA hh
      have hpl : i / n < (cs.map rootOf).length := by
        rw [List.length_map]; exact hu.index (hle i hi)
      have := validate_nested_honest hA (b := b) (roots := cs.map rootOf) (p := i / n) (top := pTop)
        (subn := pSub) hpl hs (by rw [List.length_map, h1, har]) (s := sp)
        (by rw [e2, List.getElem_map]) (e4 hA hh) (A.nodeHash (cs.map rootOf) 1)
      rw [this, decide_eq_true (hh _ _ _)]

section
variable {S E : Type} [Element E] [StoreOps S E] [DecidableEq E] {A : Alg E} {b : Nat} {fs : FS}

theorem BaseTree.IsTreeOf.child (hb : Arity b) {k : Nat} (hk : 1 ≤ k) {leaves : List E}
    {t : BaseTree S E} (ht : t.IsTreeOf A b k leaves fs) :
    Child A b (b ^ k) (t.readAt fs) (t.genProof b 0 0 fs) t.root leaves := by
  obtain ⟨f, hf, hr⟩ := ht.exists_reads
  refine ⟨hf.count, fun i h => ?_, fun i h => ?_⟩
  · have hi : i < b ^ k := hf.count ▸ h
    have := pow_le_nodes b k
    rw [hr.reads i (by omega), hf.leaf i h]
  · have hi : i < b ^ k := hf.count ▸ h
    refine ⟨_, BaseTree.genProof_eq hb hk hr hi, ?_, ?_, fun hA hh =>
      honest_validates hA hb.two_le (.inl hh) hf hi⟩
    · rw [hr.root]; exact Proof.root_split ..
    · rw [← hf.leaf i h]; rfl

/-- All trees below a `from_trees` have the same height. -/
theorem fromTrees_height {sub : Nat} {cs : List (BaseTree S E)} {t : Node (BaseTree S E) E}
    {lss : List (List E)} (ht : fromTrees A sub cs = .ok t)
    (hcs : List.Forall₂ (BaseTree.IsTree A b fs) cs lss) :
    ∃ k, 1 ≤ k ∧ t.rowCount = k + 2 ∧ t.len = nodes b k * sub + 1 ∧
      List.Forall₂ (fun c ls => BaseTree.IsTreeOf A b k ls fs c) cs lss := by
  obtain ⟨c0, h0, h1, h2, h3, rfl⟩ := Node.assemble_ok_iff.1 ht
  have hc0 : c0 ∈ cs := List.mem_of_mem_head? (by rw [h0]; rfl)
  obtain ⟨ls, _, k, hk, hc⟩ := Forall₂.exists_right hcs hc0
  refine ⟨k, hk, by simp [hc.rows], by simp [hc.len], ?_⟩
  rw [List.forall₂_iff_get] at hcs ⊢
  refine ⟨hcs.1, fun i g1 g2 => ?_⟩
  obtain ⟨k', hk', hi⟩ := hcs.2 i g1 g2
  have : k' = k := by
    have e := h2 _ (List.getElem_mem g1)
    have e2 := hi.rows
    rw [List.get_eq_getElem] at e2
    rw [e2, hc.rows] at e; omega
  exact this ▸ hi

theorem fromTrees_layer (hb : Arity b) {sub top : Nat} (h0 : layerArity top sub = sub)
    {cs : List (BaseTree S E)} {t : Node (BaseTree S E) E}
    {lss : List (List E)} (ht : fromTrees A sub cs = .ok t)
    (hcs : List.Forall₂ (BaseTree.IsTree A b fs) cs lss) :
    ∃ k, 1 ≤ k ∧ t.rowCount = k + 2 ∧ t.len = nodes b k * sub + 1 ∧ 0 < sub ∧
    t.leafs = sub * b ^ k ∧ t.leafs = lss.flatten.length ∧ t.leafs / sub = b ^ k ∧
    (∀ i (h : i < lss.flatten.length),
      t.readAt BaseTree.leafs (BaseTree.readAt fs) sub i = .ok lss.flatten[i]) ∧
    ∀ i (h : i < lss.flatten.length), ∃ (hlt : i / b ^ k < t.children.length) (sp p : Proof E),
      (t.children[i / b ^ k]).genProof b 0 0 fs (i % b ^ k) = .ok sp ∧
      t.genSubTreeProof BaseTree.leafs BaseTree.root (BaseTree.genProof b 0 0 fs) b top sub sub i
        = .ok p ∧
      p = .nested sp top sub ((t.children.map BaseTree.root).eraseIdx (i / b ^ k) ++ [t.root])
        [i / b ^ k] ∧
      p.root = .ok t.root ∧ (innermost p).item = .ok lss.flatten[i] ∧
      (A.LawfulReset → A.IgnoresHeight → p.validate A b = .ok true) := by
  obtain ⟨k, hk, hr, hl, hk2⟩ := fromTrees_height ht hcs
  obtain ⟨c0, h1, h2, -, -, -⟩ := Node.assemble_ok_iff.1 ht
  have ha : 0 < sub := by
    cases cs with
    | nil => simp at h1
    | cons c cs => simp at h2; omega
  have hcs' : List.Forall₂ (fun (c : BaseTree S E) ls => c.leafs = b ^ k ∧
      Child A b (b ^ k) (BaseTree.readAt fs c) (BaseTree.genProof b 0 0 fs c) c.root ls) cs lss :=
    hk2.imp (fun c ls h => ⟨h.leafs, h.child hb hk⟩)
  have hu : t.Uniform BaseTree.leafs sub (b ^ k) := .of_assemble ht (fun c hc => by
    obtain ⟨ls, _, h, _⟩ := Forall₂.exists_right hcs' hc; exact h)
  exact ⟨k, hk, hr, hl, ha, hu.leafs, Node.layer ht (Nat.pow_pos (by have := hb.two_le; omega)) hcs' ha h0.symm⟩

/-- The compound tree as a child of a top layer. -/
theorem Tree1.IsCompound.child (hb : Arity b) {sub : Nat} {leaves : List E} {t : Tree1 S E}
    (ht : t.IsCompound A b sub fs leaves) :
    ∃ k, 1 ≤ k ∧ 0 < sub ∧ t.rowCount = k + 2 ∧ t.length = nodes b k * sub + 1 ∧ t.leafs = sub * b ^ k ∧
      Child A b (sub * b ^ k) (t.readAt sub fs) (t.genProof b sub fs) t.root leaves := by
  obtain ⟨cs, lss, n, rfl, h1, h2, rfl⟩ := ht
  obtain ⟨k, hk, hr, hl, ha, e1, e2, e3, e4, e5⟩ := fromTrees_layer hb (top := 0) (by simp [layerArity]) h1 h2
  refine ⟨k, hk, ha, hr, hl, e1, by rw [← e1, e2], e4, fun i h => ?_⟩
  obtain ⟨_, sp, p, _, g2, _, g4, g5, g6⟩ := e5 i h
  exact ⟨p, g2, g4, g5, g6⟩

theorem fromSubTrees_layer (hb : Arity b) {sub top : Nat} {cs : List (Tree1 S E)}
    {t : Node (Tree1 S E) E} {lss : List (List E)} (ht : fromSubTrees A top cs = .ok t)
    (hcs : List.Forall₂ (Tree1.IsCompound A b sub fs) cs lss) :
    ∃ k, 1 ≤ k ∧ 0 < sub ∧ 0 < top ∧ t.rowCount = k + 3 ∧ t.len = (nodes b k * sub + 1) * top + 1 ∧
    t.leafs = top * (sub * b ^ k) ∧ t.leafs = lss.flatten.length ∧ t.leafs / top = sub * b ^ k ∧
    (∀ i (h : i < lss.flatten.length),
      t.readAt Tree1.leafs (Tree1.readAt sub fs) top i = .ok lss.flatten[i]) ∧
    ∀ i (h : i < lss.flatten.length), ∃ (hlt : i / (sub * b ^ k) < t.children.length) (sp p : Proof E),
      (t.children[i / (sub * b ^ k)]).genProof b sub fs (i % (sub * b ^ k)) = .ok sp ∧
      t.genSubTreeProof Tree1.leafs Tree1.root (Tree1.genProof b sub fs) b top sub top i
        = .ok p ∧
      p = .nested sp top sub ((t.children.map Tree1.root).eraseIdx (i / (sub * b ^ k)) ++ [t.root])
        [i / (sub * b ^ k)] ∧
      p.root = .ok t.root ∧ (innermost p).item = .ok lss.flatten[i] ∧
      (A.LawfulReset → A.IgnoresHeight → p.validate A b = .ok true) := by
  obtain ⟨c0, h0, h1, h2, h3, hte⟩ := Node.assemble_ok_iff.1 ht
  have ha : 0 < top := by
    cases cs with
    | nil => simp at h0
    | cons c cs => simp at h1; omega
  have hc0 : c0 ∈ cs := List.mem_of_mem_head? (by rw [h0]; rfl)
  obtain ⟨ls, _, hc⟩ := Forall₂.exists_right hcs hc0
  obtain ⟨k, hk, hs, hr, hl, hlf, _⟩ := hc.child hb
  have hbk : 0 < b ^ k := Nat.pow_pos (by have := hb.two_le; omega)
  have hcs' : List.Forall₂ (fun (c : Tree1 S E) ls => c.leafs = sub * b ^ k ∧
      Child A b (sub * b ^ k) (Tree1.readAt sub fs c) (Tree1.genProof b sub fs c) c.root ls) cs lss := by
    rw [List.forall₂_iff_get] at hcs ⊢
    refine ⟨hcs.1, fun i g1 g2 => ?_⟩
    obtain ⟨k', hk', _, hr', _, hlf', hch⟩ := (hcs.2 i g1 g2).child hb
    have e := h2 _ (List.getElem_mem g1)
    rw [List.get_eq_getElem] at hr' hlf' hch ⊢
    have : k' = k := by
      rw [hr', hr] at e; omega
    subst this
    exact ⟨hlf', hch⟩
  have hu : t.Uniform Tree1.leafs top (sub * b ^ k) := .of_assemble ht (fun c hc => by
    obtain ⟨ls, _, h, _⟩ := Forall₂.exists_right hcs' hc; exact h)
  refine ⟨k, hk, hs, ha, by rw [hte]; simp [hr], by rw [hte]; simp [hl], hu.leafs, ?_⟩
  exact Node.layer ht (Nat.mul_pos hs hbk) hcs' hs (by simp [layerArity, ha])

end

/-! ### Grouping -/

theorem splitGroups_eq {C : Type} (sub : Nat) : ∀ (n : Nat) (cs : List C), cs.length = n * sub →
    ∃ gs, splitGroups sub n cs = .ok gs ∧
      gs.reverse = (List.range n).map fun k => (cs.drop (sub * k)).take sub
  | 0, cs, _ => ⟨[], rfl, rfl⟩
  | n + 1, cs, h => by
    have h1 : n * sub + sub = cs.length := by rw [h, Nat.succ_mul]
    obtain ⟨gs, g1, g2⟩ := splitGroups_eq sub n (cs.take (cs.length - sub)) (by
      rw [List.length_take]; omega)
    refine ⟨cs.drop (cs.length - sub) :: gs, ?_, ?_⟩
    · rw [splitGroups, subP_ok (by omega), Res.ok_bind, g1, Res.ok_bind]
    · rw [List.reverse_cons, g2, List.range_succ, List.map_append]
      congr 1
      · apply List.map_congr_left
        intro k hk
        rw [List.mem_range] at hk
        have : sub * k + sub ≤ n * sub := by
          calc sub * k + sub = (k + 1) * sub := by ring
            _ ≤ n * sub := Nat.mul_le_mul_right _ hk
        rw [List.drop_take, List.take_take]
        congr 1
        omega
      · simp only [List.map_cons, List.map_nil]
        rw [show cs.length - sub = sub * n by rw [Nat.mul_comm]; omega, List.take_of_length_le]
        rw [List.length_drop, Nat.mul_comm sub n]; omega

theorem mapM_ok_iff {α β : Type} {f : α → Res β} : ∀ {xs : List α} {ys : List β},
    xs.mapM f = .ok ys ↔ List.Forall₂ (fun x y => f x = .ok y) xs ys
  | [], ys => by
    simp only [List.mapM_nil, Res.pure_eq, Except.ok.injEq, List.forall₂_nil_left_iff]
    exact eq_comm
  | x :: xs, ys => by
    rw [List.mapM_cons]
    simp only [bind_ok_iff, Res.pure_eq, Except.ok.injEq, List.forall₂_cons_left_iff, mapM_ok_iff (xs := xs)]
    constructor
    · rintro ⟨y, h1, ys', h2, rfl⟩; exact ⟨y, ys', h1, h2, rfl⟩
    · rintro ⟨y, ys', h1, h2, rfl⟩; exact ⟨y, h1, ys', h2, rfl⟩

theorem chunks.go_flatten {α : Type} {n : Nat} (hn : 0 < n) : ∀ (f : Nat) (xs : List α), xs.length ≤ f →
    (chunks.go n f xs).flatten = xs
  | 0, xs, h => by
    have : xs = [] := List.eq_nil_of_length_eq_zero (by omega)
    subst this; rfl
  | f + 1, xs, h => by
    cases xs with
    | nil => rfl
    | cons x xs =>
      rw [chunks.go, List.isEmpty_cons, if_neg (by simp), List.flatten_cons,
        chunks.go_flatten hn f _ (by simp at h ⊢; omega), List.take_append_drop]

theorem chunks_flatten {α : Type} {n : Nat} (hn : 0 < n) (xs : List α) : (chunks n xs).flatten = xs :=
  chunks.go_flatten hn _ _ (Nat.le_refl _)

section
variable {S E : Type} [Element E] [StoreOps S E] {A : Alg E}

theorem fromTrees_facts {sub : Nat} {g : List (BaseTree S E)} {t : Node (BaseTree S E) E}
    (h : fromTrees A sub g = .ok t) : 0 < sub ∧ g.length = sub ∧ ∃ c0 ∈ g, t.rowCount = c0.rowCount + 1 ∧
      t.len = c0.length * sub + 1 ∧ ∀ c ∈ g, c.rowCount = c0.rowCount ∧ c.length = c0.length := by
  obtain ⟨c0, h0, h1, h2, h3, rfl⟩ := Node.assemble_ok_iff.1 h
  refine ⟨?_, h1, c0, List.mem_of_mem_head? (by rw [h0]; rfl), rfl, rfl, fun c hc => ⟨h2 c hc, h3 c hc⟩⟩
  cases g with
  | nil => simp at h0
  | cons c cs => simp at h1; omega

theorem mapM_sub_iff {sub : Nat} {gs : List (List (BaseTree S E))} {us : List (Tree1 S E)} :
    (gs.mapM fun g => do
      let t ← fromTrees A sub g
      (.ok (Tree1.sub t) : Res (Tree1 S E))) = .ok us ↔
    ∃ ts, gs.mapM (fromTrees A sub) = .ok ts ∧ us = ts.map Tree1.sub := by
  rw [mapM_ok_iff]
  simp only [mapM_ok_iff, bind_ok_iff, Except.ok.injEq]
  induction gs generalizing us with
  | nil => simp
  | cons g gs ih =>
    simp only [List.forall₂_cons_left_iff, ih]
    constructor
    · rintro ⟨u, us', ⟨t, h1, rfl⟩, ⟨ts, h2, rfl⟩, rfl⟩
      exact ⟨t :: ts, ⟨t, ts, h1, h2, rfl⟩, rfl⟩
    · rintro ⟨_, ⟨t, ts, h1, h2, rfl⟩, rfl⟩
      exact ⟨_, _, ⟨t, h1, rfl⟩, ⟨ts, h2, rfl⟩, rfl⟩

theorem head_eq_iff {C : Type} {f : C → Nat} {cs : List C} :
    (∀ c ∈ cs, some (f c) = cs.head?.map f) ↔ ∀ c ∈ cs, ∀ d ∈ cs, f c = f d := by
  cases cs with
  | nil => simp
  | cons x xs =>
    constructor
    · intro h c hc d hd
      have h1 := h c hc
      have h2 := h d hd
      simp only [List.head?_cons, Option.map_some, Option.some.injEq] at h1 h2
      omega
    · intro h c hc
      simp [h c hc x List.mem_cons_self]

theorem fromSubTreesAsTrees_ok_iff {sub top : Nat} {cs : List (BaseTree S E)} {t : Node (Tree1 S E) E} :
    fromSubTreesAsTrees A sub top cs = .ok t ↔
      0 < sub ∧ 0 < top ∧ (∀ c ∈ cs, ∀ d ∈ cs, c.rowCount = d.rowCount) ∧
      (∀ c ∈ cs, ∀ d ∈ cs, c.length = d.length) ∧ cs.length = top * sub ∧
      ∃ ts u0, (chunks sub cs).mapM (fromTrees A sub) = .ok ts ∧ (ts.map Tree1.sub).head? = some u0 ∧
        t = ⟨ts.map Tree1.sub, ((ts.map Tree1.sub).map Tree1.leafs).sum,
          ((ts.map Tree1.sub).map Tree1.length).sum + 1, u0.rowCount + 1,
          A.nodeHash ((ts.map Tree1.sub).map Tree1.root) 1⟩ := by
  unfold fromSubTreesAsTrees
  simp only [bind_ok_iff, ensure_ok_iff, exists_const, Except.ok.injEq, foldl_add_sum, Nat.zero_add,
    head_eq_iff]
  have hidx : ∀ (us : List (Tree1 S E)) u, idxP us 0 = .ok u ↔ us.head? = some u := by
    intro us u; cases us <;> simp [idxP]
  constructor
  · rintro ⟨h1, h2, h3, h4, gs, h5, us, h6, u0, h7, rfl⟩
    obtain ⟨gs', e1, e2⟩ := splitGroups_eq sub top cs h4
    rw [h5] at e1
    obtain rfl : gs = gs' := by simpa using e1
    rw [e2] at h6
    obtain ⟨ts, h8, rfl⟩ := mapM_sub_iff.1 h6
    have hs : 0 < sub := by
      rw [mapM_ok_iff] at h8
      have hm : (cs.drop (sub * 0)).take sub ∈ (List.range top).map fun k => (cs.drop (sub * k)).take sub :=
        List.mem_map.2 ⟨0, List.mem_range.2 h1, rfl⟩
      obtain ⟨t, _, ht⟩ := Forall₂.exists_right h8 hm
      exact (fromTrees_facts ht).1
    refine ⟨hs, h1, h2, h3, h4, ts, u0, ?_, (hidx _ _).1 h7, rfl⟩
    rw [chunks_eq hs (m := top) (by rw [h4, Nat.mul_comm])]
    exact h8
  · rintro ⟨hs, h1, h2, h3, h4, ts, u0, h8, h7, rfl⟩
    obtain ⟨gs', e1, e2⟩ := splitGroups_eq sub top cs h4
    rw [chunks_eq hs (m := top) (by rw [h4, Nat.mul_comm]), ← e2] at h8
    exact ⟨h1, h2, h3, h4, gs', e1, _, mapM_sub_iff.2 ⟨ts, h8, rfl⟩, u0, (hidx _ _).2 h7, rfl⟩

theorem flat_eq_nested (A : Alg E) (sub top : Nat) (cs : List (BaseTree S E))
    (t : Node (Tree1 S E) E) :
    fromSubTreesAsTrees A sub top cs = .ok t ↔
      ∃ ts, (chunks sub cs).mapM (fromTrees A sub) = .ok ts ∧
        fromSubTrees A top (ts.map Tree1.sub) = .ok t := by
  rw [fromSubTreesAsTrees_ok_iff]
  constructor
  · rintro ⟨hs, h1, h2, h3, h4, ts, u0, h8, h7, rfl⟩
    refine ⟨ts, h8, Node.assemble_ok_iff.2 ⟨u0, h7, ?_, ?_⟩⟩
    · rw [mapM_ok_iff] at h8
      have := h8.length_eq
      rw [List.length_map, ← this, chunks_eq hs (m := top) (by rw [h4, Nat.mul_comm])]
      simp
    · rw [mapM_ok_iff] at h8
      have hsub : ∀ g ∈ chunks sub cs, ∀ c ∈ g, c ∈ cs := by
        intro g hg c hc
        rw [← chunks_flatten hs cs]
        exact List.mem_flatten.2 ⟨g, hg, hc⟩
      have hu : ∀ u ∈ ts.map Tree1.sub, ∃ c0 ∈ cs, u.rowCount = c0.rowCount + 1 ∧
          u.length = c0.length * sub + 1 := by
        intro u hu
        obtain ⟨n, hn, rfl⟩ := List.mem_map.1 hu
        obtain ⟨g, hg, ht⟩ := Forall₂.exists_left h8 hn
        obtain ⟨_, _, c0, hc0, e1, e2, _⟩ := fromTrees_facts ht
        exact ⟨c0, hsub g hg c0 hc0, e1, e2⟩
      have hu0 : u0 ∈ ts.map Tree1.sub := List.mem_of_mem_head? (by rw [h7]; rfl)
      obtain ⟨d, hd, d1, d2⟩ := hu u0 hu0
      have hl : ∀ u ∈ ts.map Tree1.sub, Tree1.length u = u0.length := by
        intro u hx
        obtain ⟨c, hc, _, c2⟩ := hu u hx
        rw [c2, d2, h3 c hc d hd]
      refine ⟨?_, hl, ?_⟩
      · intro u hx
        obtain ⟨c, hc, c1, _⟩ := hu u hx
        rw [c1, d1, h2 c hc d hd]
      · have hsum := foldl_add_const Tree1.length u0.length (ts.map Tree1.sub) 0 hl
        rw [foldl_add_sum] at hsum
        simp only [Nat.zero_add] at hsum
        rw [hsum]
        have : (ts.map Tree1.sub).length = top := by
          rw [List.length_map, ← h8.length_eq, chunks_eq hs (m := top) (by rw [h4, Nat.mul_comm])]
          simp
        rw [this, Nat.mul_comm]
  · rintro ⟨ts, h8, ht⟩
    obtain ⟨u0, h0, h1, h2, h3, rfl⟩ := Node.assemble_ok_iff.1 ht
    have h8' := mapM_ok_iff.1 h8
    have hu0 : u0 ∈ ts.map Tree1.sub := List.mem_of_mem_head? (by rw [h0]; rfl)
    obtain ⟨n0, hn0, hn0'⟩ := List.mem_map.1 hu0
    obtain ⟨g0, hg0, ht0⟩ := Forall₂.exists_left h8' hn0
    have hs := (fromTrees_facts ht0).1
    have htop : 0 < top := by rw [← h1]; exact List.length_pos_of_mem hu0
    have hgl : ∀ g ∈ chunks sub cs, g.length = sub := fun g hg => by
      obtain ⟨n, _, hn⟩ := Forall₂.exists_right h8' hg
      exact (fromTrees_facts hn).2.1
    have hlen : cs.length = top * sub := by
      conv_lhs => rw [← chunks_flatten hs cs]
      rw [length_flatten_uniform hgl, h8'.length_eq]
      rw [List.length_map] at h1; rw [h1]
    have hval : ∀ c ∈ cs, c.rowCount + 1 = u0.rowCount ∧ c.length * sub + 1 = u0.length := by
      intro c hc
      rw [← chunks_flatten hs cs] at hc
      obtain ⟨g, hg, hcg⟩ := List.mem_flatten.1 hc
      obtain ⟨n, hn, hgn⟩ := Forall₂.exists_right h8' hg
      obtain ⟨_, _, c0, hc0, e1, e2, e3⟩ := fromTrees_facts hgn
      have f1 := h2 _ (List.mem_map.2 ⟨n, hn, rfl⟩)
      have f2 := h3 _ (List.mem_map.2 ⟨n, hn, rfl⟩)
      simp only [Tree1.rowCount, Tree1.length] at f1 f2
      obtain ⟨g1, g2⟩ := e3 c hcg
      rw [g1, g2, ← e1, ← e2]
      exact ⟨f1, f2⟩
    refine ⟨hs, htop, fun c hc d hd => ?_, fun c hc d hd => ?_, hlen, ts, u0, h8, h0, ?_⟩
    · have := (hval c hc).1; have := (hval d hd).1; omega
    · have e1 := (hval c hc).2
      have e2 := (hval d hd).2
      have : c.length * sub = d.length * sub := by omega
      exact Nat.eq_of_mul_eq_mul_right hs this
    · have hsum := foldl_add_const Tree1.length u0.length (ts.map Tree1.sub) 0 h3
      rw [foldl_add_sum] at hsum
      simp only [Nat.zero_add] at hsum
      rw [hsum, h1, Nat.mul_comm]

theorem fromSubTreesAsTrees_returns (A : Alg E) (sub top : Nat) (cs : List (BaseTree S E)) :
    Res.Returns (fromSubTreesAsTrees A sub top cs) := by
  unfold fromSubTreesAsTrees
  by_cases h1 : top > 0
  · rw [ensure_true h1, Res.ok_bind]
    by_cases h2 : ∀ c ∈ cs, some c.rowCount = cs.head?.map BaseTree.rowCount
    · rw [ensure_true h2, Res.ok_bind]
      by_cases h3 : ∀ c ∈ cs, some c.length = cs.head?.map BaseTree.length
      · rw [ensure_true h3, Res.ok_bind]
        by_cases h4 : cs.length = top * sub
        · rw [ensure_true h4, Res.ok_bind]
          obtain ⟨gs', e1, e2⟩ := splitGroups_eq sub top cs h4
          rw [e1, Res.ok_bind, e2]
          have hr : ∀ gs : List (List (BaseTree S E)), Res.Returns (gs.mapM fun g => do
              let t ← fromTrees A sub g
              (.ok (Tree1.sub t) : Res (Tree1 S E))) := by
            intro gs
            induction gs with
            | nil => exact .inl ⟨[], rfl⟩
            | cons g gs ih =>
              rw [List.mapM_cons]
              have hft : Res.Returns (fromTrees A sub g) := Node.assemble_returns
              rcases hft with ⟨t, ht⟩ | ⟨m, hm⟩
              · rw [ht, Res.ok_bind, Res.ok_bind]
                rcases ih with ⟨us, hu⟩ | ⟨m, hm⟩
                · rw [hu, Res.ok_bind]; exact .inl ⟨_, rfl⟩
                · rw [hm]; exact .inr ⟨_, rfl⟩
              · rw [hm]; exact .inr ⟨_, rfl⟩
          rcases hr ((List.range top).map fun k => (cs.drop (sub * k)).take sub) with ⟨us, hu⟩ | ⟨m, hm⟩
          · rw [hu, Res.ok_bind]
            have hl := (mapM_ok_iff.1 hu).length_eq
            rw [List.length_map, List.length_range] at hl
            rw [idxP_ok (by omega), Res.ok_bind]
            exact .inl ⟨_, rfl⟩
          · rw [hm]; exact .inr ⟨_, rfl⟩
        · rw [ensure_false h4]; exact .inr ⟨_, rfl⟩
      · rw [ensure_false h3]; exact .inr ⟨_, rfl⟩
    · rw [ensure_false h2]; exact .inr ⟨_, rfl⟩
  · rw [ensure_false h1]; exact .inr ⟨_, rfl⟩

theorem fromSubTreesAsTrees_isOk_iff (A : Alg E) (sub top : Nat) (cs : List (BaseTree S E)) :
    Res.IsOk (fromSubTreesAsTrees A sub top cs) ↔ 0 < sub ∧ 0 < top ∧ cs.length = top * sub ∧
      ∀ c ∈ cs, ∀ d ∈ cs, c.length = d.length ∧ c.rowCount = d.rowCount := by
  constructor
  · rintro ⟨t, ht⟩
    obtain ⟨h1, h2, h3, h4, h5, -⟩ := fromSubTreesAsTrees_ok_iff.1 ht
    exact ⟨h1, h2, h5, fun c hc d hd => ⟨h4 c hc d hd, h3 c hc d hd⟩⟩
  · rintro ⟨hs, h1, h4, h⟩
    have hgr : ∀ g ∈ chunks sub cs, g.length = sub ∧ ∀ c ∈ g, c ∈ cs := by
      intro g hg
      refine ⟨?_, fun c hc => ?_⟩
      · rw [chunks_eq hs (m := top) (by rw [h4, Nat.mul_comm])] at hg
        obtain ⟨k, hk, rfl⟩ := List.mem_map.1 hg
        rw [List.mem_range] at hk
        have : sub * k + sub ≤ top * sub := by
          calc sub * k + sub = (k + 1) * sub := by ring
            _ ≤ top * sub := Nat.mul_le_mul_right _ hk
        rw [List.length_take, List.length_drop, h4]
        omega
      · rw [← chunks_flatten hs cs]
        exact List.mem_flatten.2 ⟨g, hg, hc⟩
    have hm : ∀ gs : List (List (BaseTree S E)), (∀ g ∈ gs, g.length = sub ∧ ∀ c ∈ g, c ∈ cs) →
        ∃ ts, gs.mapM (fromTrees A sub) = .ok ts := by
      intro gs
      induction gs with
      | nil => intro _; exact ⟨[], rfl⟩
      | cons g gs ih =>
        intro hg
        obtain ⟨ts, hts⟩ := ih (fun g' h' => hg g' (List.mem_cons_of_mem _ h'))
        obtain ⟨hgl, hgc⟩ := hg g List.mem_cons_self
        have : ∃ t, fromTrees A sub g = .ok t := by
          cases g with
          | nil => simp at hgl; omega
          | cons c g =>
            exact ⟨_, Node.assemble_ok_iff.2 ⟨c, rfl, hgl,
              fun d hd => (h d (hgc d hd) c (hgc c List.mem_cons_self)).2,
              fun d hd => (h d (hgc d hd) c (hgc c List.mem_cons_self)).1, rfl⟩⟩
        obtain ⟨t, ht⟩ := this
        exact ⟨t :: ts, by rw [List.mapM_cons, ht, Res.ok_bind, hts, Res.ok_bind]; rfl⟩
    obtain ⟨ts, hts⟩ := hm _ hgr
    have hl := (mapM_ok_iff.1 hts).length_eq
    have hcl : (chunks sub cs).length = top := by
      rw [chunks_eq hs (m := top) (by rw [h4, Nat.mul_comm])]; simp
    cases ts with
    | nil => simp at hl; rw [hl] at hcl; simp at hcl; omega
    | cons u us =>
      exact ⟨_, fromSubTreesAsTrees_ok_iff.2 ⟨hs, h1, fun c hc d hd => (h c hc d hd).2,
        fun c hc d hd => (h c hc d hd).1, h4, _, _, hts, rfl, rfl⟩⟩

theorem forall₂_chunks {α β : Type} {R : α → β → Prop} (n : Nat) {xs : List α} {ys : List β}
    (h : List.Forall₂ R xs ys) : List.Forall₂ (List.Forall₂ R) (chunks n xs) (chunks n ys) := by
  have : ∀ (f : Nat) (xs : List α) (ys : List β), List.Forall₂ R xs ys →
      List.Forall₂ (List.Forall₂ R) (chunks.go n f xs) (chunks.go n f ys) := by
    intro f
    induction f with
    | zero => intro xs ys _; exact .nil
    | succ f ih =>
      intro xs ys h
      cases h with
      | nil => exact .nil
      | cons h1 h2 =>
        simp only [chunks.go, List.isEmpty_cons, Bool.false_eq_true, ↓reduceIte]
        exact .cons (List.forall₂_take n (.cons h1 h2)) (ih _ _ (List.forall₂_drop n (.cons h1 h2)))
  unfold chunks
  rw [h.length_eq]
  exact this _ _ _ h

theorem asTrees_compound {b sub top : Nat} {fs : FS} {cs : List (BaseTree S E)} {t : Node (Tree1 S E) E}
    {lss : List (List E)} (ht : fromSubTreesAsTrees A sub top cs = .ok t)
    (hcs : List.Forall₂ (BaseTree.IsTree A b fs) cs lss) :
    ∃ (us : List (Tree1 S E)) (mss : List (List E)), fromSubTrees A top us = .ok t ∧
      List.Forall₂ (Tree1.IsCompound A b sub fs) us mss ∧ mss.flatten = lss.flatten := by
  obtain ⟨ts, h1, h2⟩ := (flat_eq_nested A sub top cs t).1 ht
  have hs : 0 < sub := (fromSubTreesAsTrees_ok_iff.1 ht).1
  refine ⟨_, (chunks sub lss).map List.flatten, h2, ?_, ?_⟩
  · have h3 := forall₂_chunks sub hcs
    rw [mapM_ok_iff] at h1
    clear h2 ht
    generalize chunks sub cs = gs at h1 h3
    generalize chunks sub lss = ms at h3
    induction h1 generalizing ms with
    | nil => cases h3; exact .nil
    | cons e1 e2 ih =>
      cases h3 with
      | cons f1 f2 =>
        exact .cons ⟨_, _, _, rfl, e1, f1, rfl⟩ (ih _ f2)
  · conv_rhs => rw [← chunks_flatten hs lss]
    rw [List.flatten_flatten]

end
end Verif
