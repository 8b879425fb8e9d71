import Verif.Lemmas.Update
import Verif.Lemmas.Compound
import Verif.Lemmas.ProofGen
/-! What changes in a compound tree when a leaf changes. -/
set_option linter.unusedSectionVars false
namespace Verif
open Spec

theorem Spec.AgreeBut.eraseIdx_self {α : Type} {m : Nat} {xs ys : List α} (h : AgreeBut m xs ys) :
    xs.eraseIdx m = ys.eraseIdx m := by
  refine List.ext_getElem? fun n => ?_
  rw [List.getElem?_eraseIdx, List.getElem?_eraseIdx]
  split
  · exact h.2 n (by omega)
  · exact h.2 (n + 1) (by omega)

theorem Spec.AgreeBut.eraseIdx {α : Type} {m : Nat} {xs ys : List α} (h : AgreeBut m xs ys) (q : Nat) :
    AgreeBut (if m < q then m else m - 1) (xs.eraseIdx q) (ys.eraseIdx q) ∨ m = q := by
  by_cases hm : m = q
  · exact .inr hm
  refine .inl ⟨by rw [List.length_eraseIdx, List.length_eraseIdx, h.1], fun n hn => ?_⟩
  rw [List.getElem?_eraseIdx, List.getElem?_eraseIdx]
  split
  · exact h.2 n (by split at hn <;> omega)
  · exact h.2 (n + 1) (by split at hn <;> omega)

theorem Spec.AgreeBut.symm {α : Type} {m : Nat} {xs ys : List α} (h : AgreeBut m xs ys) : AgreeBut m ys xs :=
  ⟨h.1.symm, fun n hn => (h.2 n hn).symm⟩

/-- Parts of equal length: if the whole agrees except at `i`, the parts agree except part `i / n` at `i % n`. -/
theorem parts_agree {α : Type} {n : Nat} (hn : 0 < n) {xss yss : List (List α)} (hx : ∀ xs ∈ xss, xs.length = n)
    (hy : ∀ ys ∈ yss, ys.length = n) {i : Nat} (h : AgreeBut i xss.flatten yss.flatten) :
    xss.length = yss.length ∧ ∀ q (h1 : q < xss.length) (h2 : q < yss.length),
      AgreeBut (i % n) xss[q] yss[q] ∧ (q ≠ i / n → xss[q] = yss[q]) := by
  have hlx := length_flatten_uniform hx
  have hly := length_flatten_uniform hy
  have hlen : xss.length = yss.length := by
    have := h.1
    rw [hlx, hly] at this
    exact Nat.eq_of_mul_eq_mul_right hn this
  have key : ∀ (zss : List (List α)), (∀ zs ∈ zss, zs.length = n) → ∀ q (hq : q < zss.length) r, r < n →
      zss.flatten[q * n + r]? = (zss[q])[r]? := by
    intro zss hz q hq r hr
    have hl := length_flatten_uniform hz
    have hlt : q * n + r < zss.flatten.length := by
      rw [hl]
      calc q * n + r < (q + 1) * n := by rw [Nat.succ_mul]; omega
        _ ≤ _ := Nat.mul_le_mul_right _ hq
    obtain ⟨g1, g2, g3⟩ := flatten_getElem_uniform hn hz hlt
    have e1 : (q * n + r) / n = q := by
      rw [Nat.mul_comm, Nat.mul_add_div hn, Nat.div_eq_of_lt hr, Nat.add_zero]
    have e2 : (q * n + r) % n = r := by
      rw [Nat.mul_comm, Nat.mul_add_mod, Nat.mod_eq_of_lt hr]
    rw [List.getElem?_eq_getElem hlt, g3]
    simp only [e1, e2]
    have : r < (zss[q]).length := by rw [hz _ (List.getElem_mem _)]; exact hr
    rw [List.getElem?_eq_getElem this]
  refine ⟨hlen, fun q h1 h2 => ?_⟩
  have lx := hx _ (List.getElem_mem h1)
  have ly := hy _ (List.getElem_mem h2)
  have hne : ∀ r, ¬ (q = i / n ∧ r = i % n) → (xss[q])[r]? = (yss[q])[r]? := by
    intro r hr
    by_cases hrn : r < n
    · rw [← key xss hx q h1 r hrn, ← key yss hy q h2 r hrn]
      refine h.2 _ fun he => hr ?_
      rw [← he, Nat.mul_comm, Nat.mul_add_div hn, Nat.div_eq_of_lt hrn, Nat.add_zero, Nat.mul_add_mod,
        Nat.mod_eq_of_lt hrn]
      exact ⟨rfl, rfl⟩
    · rw [List.getElem?_eq_none (by omega), List.getElem?_eq_none (by omega)]
  exact ⟨⟨by rw [lx, ly], fun r hr => hne r fun hh => hr hh.2⟩,
    fun hq => List.ext_getElem? fun r => hne r fun hh => hq hh.1⟩

/-! ### Children -/
section
variable {E : Type}

theorem siblingsOf_layer (s : Proof E) (t n : Nat) (l : List E) (r : E) (path : List Nat) :
    siblingsOf (.nested s t n (l ++ [r]) path) = siblingsOf s ++ l := by
  simp [siblingsOf]

/-- A layer over two lists of children that differ at one place. -/
theorem Node.changed {C C' : Type} {A : Alg E} {b pTop pSub arity n : Nat}
    {leafsOf lenOf rowsOf : C → Nat} {rootOf : C → E} {gen : C → Nat → Res (Proof E)}
    {leafsOf' lenOf' rowsOf' : C' → Nat} {rootOf' : C' → E} {gen' : C' → Nat → Res (Proof E)}
    {cs : List C} {cs' : List C'} {t : Node C E} {t' : Node C' E}
    (ht : assemble A leafsOf lenOf rowsOf rootOf arity cs = .ok t)
    (ht' : assemble A leafsOf' lenOf' rowsOf' rootOf' arity cs' = .ok t')
    (hn : 0 < n) (hl : ∀ c ∈ cs, leafsOf c = n) (hl' : ∀ c ∈ cs', leafsOf' c = n)
    (hp : ¬ (pTop = 0 ∧ pSub = 0)) {i : Nat} (hi : i < arity * n)
    (hs : ∀ q (h : q < cs.length) (h' : q < cs'.length), q ≠ i / n →
      Alike n (gen cs[q]) (gen' cs'[q]) (rootOf cs[q]) (rootOf' cs'[q]))
    (hc : ∀ (h : i / n < cs.length) (h' : i / n < cs'.length),
      Changed n (i % n) (gen cs[i / n]) (gen' cs'[i / n])) :
    Changed (arity * n) i (t.genSubTreeProof leafsOf rootOf gen b pTop pSub arity)
      (t'.genSubTreeProof leafsOf' rootOf' gen' b pTop pSub arity) := by
  have hu : t.Uniform leafsOf arity n := .of_assemble ht hl
  have hu' : t'.Uniform leafsOf' arity n := .of_assemble ht' hl'
  obtain ⟨c0, -, h1, -, -, hte⟩ := Node.assemble_ok_iff.1 ht
  obtain ⟨c0', -, h1', -, -, hte'⟩ := Node.assemble_ok_iff.1 ht'
  have hch : t.children = cs := by rw [hte]
  have hch' : t'.children = cs' := by rw [hte']
  have hr : AgreeBut (i / n) (t.children.map rootOf) (t'.children.map rootOf') := by
    refine ⟨by simp [hch, hch', h1, h1'], fun q hq => ?_⟩
    rw [hch, hch', List.getElem?_map, List.getElem?_map]
    by_cases hqc : q < cs.length
    · have hqc' : q < cs'.length := by omega
      rw [List.getElem?_eq_getElem hqc, List.getElem?_eq_getElem hqc', Option.map_some, Option.map_some,
        (hs q hqc hqc' hq).root]
    · rw [List.getElem?_eq_none (by omega), List.getElem?_eq_none (by omega)]; rfl
  have hc' : Changed n (i % n) (gen (t.children[i / n]'(hu.index hi))) (gen' (t'.children[i / n]'(hu'.index hi))) := by
    simpa only [hch, hch'] using hc (by have := hu.index hi; rwa [hch] at this)
      (by have := hu'.index hi; rwa [hch'] at this)
  refine ⟨?_, fun j hj hji => ?_⟩
  · obtain ⟨p, p', e1, e2, e3, e4⟩ := hc'.self
    refine ⟨_, _, Node.genSubTreeProof_eq hu hi hp e1, Node.genSubTreeProof_eq hu' hi hp e2, ?_, ?_⟩
    · simp only [placesOf, e3]
    · rw [siblingsOf_layer, siblingsOf_layer, e4, hr.eraseIdx_self]
  · by_cases hq : j / n = i / n
    · have hm : j % n ≠ i % n := fun he => hji (by
        rw [← Nat.div_add_mod j n, ← Nat.div_add_mod i n, hq, he])
      obtain ⟨p, p', m, e1, e2, e3, e4, e5⟩ := hc'.other (j % n) (Nat.mod_lt _ hn) hm
      have e1' : gen (t.children[j / n]'(hu.index hj)) (j % n) = .ok p := by simpa only [hq] using e1
      have e2' : gen' (t'.children[j / n]'(hu'.index hj)) (j % n) = .ok p' := by simpa only [hq] using e2
      obtain ⟨M, e6⟩ := Exists.intro (p := fun M : Nat => AgreeBut M _ _) _ (e5.append_right (zs := (t'.children.map rootOf').eraseIdx (i / n)))
      refine ⟨_, _, M, Node.genSubTreeProof_eq hu hj hp e1', Node.genSubTreeProof_eq hu' hj hp e2',
        by simp only [placesOf, e3], e4, ?_⟩
      rw [siblingsOf_layer, siblingsOf_layer, hq, hr.eraseIdx_self]
      exact e6
    · have hj1 := hu.index hj
      have hj2 := hu'.index hj
      obtain ⟨p, e1, e2⟩ := (hs (j / n) (by rwa [hch] at hj1) (by rwa [hch'] at hj2) hq).proof (j % n)
        (Nat.mod_lt _ hn)
      have e1' : gen (t.children[j / n]'hj1) (j % n) = .ok p := by simpa only [hch] using e1
      have e2' : gen' (t'.children[j / n]'hj2) (j % n) = .ok p := by simpa only [hch'] using e2
      obtain ⟨M, e6⟩ := Exists.intro (p := fun M : Nat => AgreeBut M _ _) _
        (((hr.eraseIdx (j / n)).resolve_right (Ne.symm hq)).append_left (zs := siblingsOf p))
      refine ⟨_, _, M, Node.genSubTreeProof_eq hu hj hp e1', Node.genSubTreeProof_eq hu' hj hp e2', rfl, rfl, ?_⟩
      rw [siblingsOf_layer, siblingsOf_layer]
      exact e6

/-- A layer over two lists of children that are alike. -/
theorem Node.alike {C C' : Type} {A : Alg E} {b pTop pSub arity n : Nat}
    {leafsOf lenOf rowsOf : C → Nat} {rootOf : C → E} {gen : C → Nat → Res (Proof E)}
    {leafsOf' lenOf' rowsOf' : C' → Nat} {rootOf' : C' → E} {gen' : C' → Nat → Res (Proof E)}
    {cs : List C} {cs' : List C'} {t : Node C E} {t' : Node C' E}
    (ht : assemble A leafsOf lenOf rowsOf rootOf arity cs = .ok t)
    (ht' : assemble A leafsOf' lenOf' rowsOf' rootOf' arity cs' = .ok t')
    (hn : 0 < n) (hl : ∀ c ∈ cs, leafsOf c = n) (hl' : ∀ c ∈ cs', leafsOf' c = n)
    (hp : ¬ (pTop = 0 ∧ pSub = 0))
    (hs : ∀ q (h : q < cs.length) (h' : q < cs'.length),
      Alike n (gen cs[q]) (gen' cs'[q]) (rootOf cs[q]) (rootOf' cs'[q])) :
    Alike (arity * n) (t.genSubTreeProof leafsOf rootOf gen b pTop pSub arity)
      (t'.genSubTreeProof leafsOf' rootOf' gen' b pTop pSub arity) t.root t'.root := by
  have hu : t.Uniform leafsOf arity n := .of_assemble ht hl
  have hu' : t'.Uniform leafsOf' arity n := .of_assemble ht' hl'
  obtain ⟨c0, -, h1, -, -, hte⟩ := Node.assemble_ok_iff.1 ht
  obtain ⟨c0', -, h1', -, -, hte'⟩ := Node.assemble_ok_iff.1 ht'
  have hch : t.children = cs := by rw [hte]
  have hch' : t'.children = cs' := by rw [hte']
  have hr : cs.map rootOf = cs'.map rootOf' := by
    refine List.ext_getElem (by simp [h1, h1']) fun q g1 g2 => ?_
    rw [List.getElem_map, List.getElem_map]
    exact (hs q (by simpa using g1) (by simpa using g2)).root
  have hroot : t.root = t'.root := by rw [hte, hte']; simp only [hr]
  refine ⟨hroot, fun j hj => ?_⟩
  have hj1 := hu.index hj
  have hj2 := hu'.index hj
  obtain ⟨p, e1, e2⟩ := (hs (j / n) (by rwa [hch] at hj1) (by rwa [hch'] at hj2)).proof (j % n) (Nat.mod_lt _ hn)
  have e1' : gen (t.children[j / n]'hj1) (j % n) = .ok p := by simpa only [hch] using e1
  have e2' : gen' (t'.children[j / n]'hj2) (j % n) = .ok p := by simpa only [hch'] using e2
  refine ⟨_, Node.genSubTreeProof_eq hu hj hp e1', ?_⟩
  rw [Node.genSubTreeProof_eq hu' hj hp e2', hch, hch', hr, hroot]

end

/-! ### Base trees -/
section
variable {E : Type} [Element E] {S S' : Type} [StoreOps S E] [StoreOps S' E] {fs fs' : FS} {A : Alg E}
  {b k : Nat} {xs ys : List E} {t : BaseTree S E} {t' : BaseTree S' E}

theorem BaseTree.IsTreeOf.changed (hb : Arity b) (hk : 1 ≤ k) (ht : t.IsTreeOf A b k xs fs)
    (ht' : t'.IsTreeOf A b k ys fs') {i : Nat} (h : AgreeBut i xs ys) (hi : i < b ^ k) :
    Changed (b ^ k) i (t.genProof b 0 0 fs) (t'.genProof b 0 0 fs') := by
  obtain ⟨f, hf, hr⟩ := ht.exists_reads
  obtain ⟨g, hg, hr'⟩ := ht'.exists_reads
  have hb0 : 0 < b := by have := hb.two_le; omega
  have key := fun j (hj : j < b ^ k) => auth_agree (f := f) (g := g) (b := b) (k := k) hb0 (i := i) k j (Nat.le_refl _)
    (fun l _ hl c hc hlt => layout_local hb0 hf hg l c (by omega) hlt fun d hd => h.2 d fun e =>
      hc (by rw [← hd, e])) hj
  refine ⟨⟨_, _, BaseTree.genProof_eq hb hk hr hi, BaseTree.genProof_eq hb hk hr' hi, rfl, ?_⟩, fun j hj hji => ?_⟩
  · simp only [honestProof, siblingsOf, List.cons_append, List.tail_cons, List.dropLast_concat]
    exact (key i hi).1 (by simp)
  · obtain ⟨m, hm⟩ := (key j hj).2
    refine ⟨_, _, m, BaseTree.genProof_eq hb hk hr hj, BaseTree.genProof_eq hb hk hr' hj, rfl, ?_, ?_⟩
    · have hx : j < xs.length := hf.count ▸ hj
      have hy : j < ys.length := hg.count ▸ hj
      have := h.2 j hji
      rw [List.getElem?_eq_getElem hx, List.getElem?_eq_getElem hy, Option.some.injEq] at this
      simp only [honestProof, innermost, Proof.item, Proof.lem, List.cons_append, List.head?_cons]
      rw [hf.leaf j hx, hg.leaf j hy, this]
    · simpa only [honestProof, siblingsOf, List.cons_append, List.tail_cons, List.dropLast_concat] using hm

theorem BaseTree.IsTreeOf.alike (hb : Arity b) (hk : 1 ≤ k) (ht : t.IsTreeOf A b k xs fs)
    (ht' : t'.IsTreeOf A b k xs fs') :
    Alike (b ^ k) (t.genProof b 0 0 fs) (t'.genProof b 0 0 fs') t.root t'.root := by
  obtain ⟨f, hf, hr⟩ := ht.exists_reads
  obtain ⟨g, hg, hr'⟩ := ht'.exists_reads
  have hb0 : 0 < b := by have := hb.two_le; omega
  have hfg : ∀ p, p < Spec.nodes b k → f p = g p := fun p hp => by
    obtain ⟨l, j, hl, hj, rfl⟩ := row_of_pos b k p hp
    exact layout_local hb0 hf hg l j hl hj fun _ _ => rfl
  have hroot : t.root = t'.root := by
    rw [hr.root, hr'.root]
    exact hfg _ (by have := nodes_pos b k; omega)
  refine ⟨hroot, fun j hj => ⟨_, BaseTree.genProof_eq hb hk hr hj, ?_⟩⟩
  rw [BaseTree.genProof_eq hb hk hr' hj]
  have ha := (auth_agree (f := f) (g := g) (b := b) (k := k) hb0 (i := j) k j (Nat.le_refl _)
    (fun l _ hl c _ hlt => layout_local hb0 hf hg l c (by omega) hlt fun _ _ => rfl) hj).1 (by simp)
  have hj' := pow_le_nodes b k
  rw [honestProof, honestProof, ha, hfg j (by omega), hfg (Spec.nodes b k - 1) (by have := nodes_pos b k; omega)]

end

/-! ### Compound trees -/
section
variable {E : Type} [Element E] [DecidableEq E] {S S' : Type} [StoreOps S E] [StoreOps S' E] {fs fs' : FS} {A : Alg E}
  {b sub top : Nat}

/-- Two compound trees with the same number of leaves: the parts have one height, and all parts have `b ^ k`
leaves. -/
theorem fromTrees_pair (hb : Arity b) {cs : List (BaseTree S E)} {cs' : List (BaseTree S' E)}
    {t : Node (BaseTree S E) E} {t' : Node (BaseTree S' E) E} {lss lss' : List (List E)}
    (ht : fromTrees A sub cs = .ok t) (ht' : fromTrees A sub cs' = .ok t')
    (hcs : List.Forall₂ (BaseTree.IsTree A b fs) cs lss) (hcs' : List.Forall₂ (BaseTree.IsTree A b fs') cs' lss')
    (hl : lss.flatten.length = lss'.flatten.length) :
    ∃ k, 1 ≤ k ∧ lss.flatten.length = sub * b ^ k ∧
      List.Forall₂ (fun c ls => BaseTree.IsTreeOf A b k ls fs c) cs lss ∧
      List.Forall₂ (fun c ls => BaseTree.IsTreeOf A b k ls fs' c) cs' lss' := by
  obtain ⟨k, hk, h1, -, h2⟩ := fromTrees_height ht hcs
  obtain ⟨k', hk', h1', -, h2'⟩ := fromTrees_height ht' hcs'
  obtain ⟨j, -, g1, -, g2, g3, g4, -⟩ := fromTrees_layer hb (top := 0) (by simp [layerArity]) ht hcs
  obtain ⟨j', -, g1', -, -, g3', g4', -⟩ := fromTrees_layer hb (top := 0) (by simp [layerArity]) ht' hcs'
  obtain rfl : j = k := by omega
  obtain rfl : j' = k' := by omega
  have : j = j' := by
    have e : sub * b ^ j = sub * b ^ j' := by rw [← g3, ← g3', g4, g4', hl]
    exact Nat.pow_right_injective hb.two_le (Nat.eq_of_mul_eq_mul_left g2 e)
  subst this
  exact ⟨j, hk, by rw [← g4, g3], h2, h2'⟩

theorem forall₂_index {α β : Type} {R : α → β → Prop} {xs : List α} {ys : List β} (h : List.Forall₂ R xs ys)
    {q : Nat} (h1 : q < xs.length) (h2 : q < ys.length) : R xs[q] ys[q] :=
  (List.forall₂_iff_get.1 h).2 q h1 h2

theorem fromTrees_parts (hb : Arity b) {cs : List (BaseTree S E)} {cs' : List (BaseTree S' E)}
    {t : Node (BaseTree S E) E} {t' : Node (BaseTree S' E) E} {lss lss' : List (List E)}
    (ht : fromTrees A sub cs = .ok t) (ht' : fromTrees A sub cs' = .ok t')
    (hcs : List.Forall₂ (BaseTree.IsTree A b fs) cs lss) (hcs' : List.Forall₂ (BaseTree.IsTree A b fs') cs' lss')
    {i : Nat} (h : AgreeBut i lss.flatten lss'.flatten) :
    ∃ k, 1 ≤ k ∧ lss.flatten.length = sub * b ^ k ∧ t.children = cs ∧ t'.children = cs' ∧
      cs.length = sub ∧ cs'.length = sub ∧ lss.length = sub ∧ lss'.length = sub ∧ (∀ c ∈ cs, c.leafs = b ^ k) ∧
      (∀ c ∈ cs', c.leafs = b ^ k) ∧
      ∀ q (g1 : q < cs.length) (g2 : q < cs'.length) (g3 : q < lss.length) (g4 : q < lss'.length),
        (cs[q]).IsTreeOf A b k lss[q] fs ∧ (cs'[q]).IsTreeOf A b k lss'[q] fs' ∧
        AgreeBut (i % b ^ k) lss[q] lss'[q] ∧ (q ≠ i / b ^ k → lss[q] = lss'[q]) := by
  obtain ⟨k, hk, hlen, h2, h2'⟩ := fromTrees_pair hb ht ht' hcs hcs' h.1
  obtain ⟨_, -, e1, -, -, e2⟩ := Node.assemble_ok_iff.1 ht
  obtain ⟨_, -, e1', -, -, e2'⟩ := Node.assemble_ok_iff.1 ht'
  have hcount : ∀ {S : Type} [StoreOps S E] {fs : FS} {cs : List (BaseTree S E)} {lss : List (List E)},
      List.Forall₂ (fun c ls => BaseTree.IsTreeOf A b k ls fs c) cs lss → ∀ ls ∈ lss, ls.length = b ^ k := by
    intro S _ fs cs lss hf ls hls
    obtain ⟨c, -, hc⟩ := Forall₂.exists_left hf hls
    obtain ⟨f, hf, -⟩ := hc.exists_reads
    exact hf.count
  obtain ⟨-, hp⟩ := parts_agree (Nat.pow_pos (n := k) (by have := hb.two_le; omega : 0 < b)) (hcount h2) (hcount h2') h
  refine ⟨k, hk, hlen, by rw [e2], by rw [e2'], e1, e1', by rw [← h2.length_eq, e1], by rw [← h2'.length_eq, e1'],
    fun c hc => ?_, fun c hc => ?_, fun q g1 g2 g3 g4 => ⟨forall₂_index h2 g1 g3, forall₂_index h2' g2 g4, hp q g3 g4⟩⟩
  · obtain ⟨ls, _, h⟩ := Forall₂.exists_right h2 hc; exact h.leafs
  · obtain ⟨ls, _, h⟩ := Forall₂.exists_right h2' hc; exact h.leafs

theorem fromTrees_changed (hb : Arity b) {cs : List (BaseTree S E)} {cs' : List (BaseTree S' E)}
    {t : Node (BaseTree S E) E} {t' : Node (BaseTree S' E) E} {lss lss' : List (List E)}
    (ht : fromTrees A sub cs = .ok t) (ht' : fromTrees A sub cs' = .ok t')
    (hcs : List.Forall₂ (BaseTree.IsTree A b fs) cs lss) (hcs' : List.Forall₂ (BaseTree.IsTree A b fs') cs' lss')
    {i : Nat} (hi : i < lss.flatten.length) (h : AgreeBut i lss.flatten lss'.flatten) :
    Changed lss.flatten.length i ((Tree1.sub t).genProof b sub fs) ((Tree1.sub t').genProof b sub fs') := by
  obtain ⟨k, hk, hlen, -, -, e1, e1', e2, e2', e3, e3', hp⟩ := fromTrees_parts hb ht ht' hcs hcs' h
  have hs : 0 < sub := Nat.pos_of_ne_zero fun e => by rw [hlen, e] at hi; omega
  have hn : 0 < b ^ k := Nat.pow_pos (by have := hb.two_le; omega)
  rw [hlen]
  refine Node.changed ht ht' hn e3 e3' (by omega) (by rwa [hlen] at hi) (fun q g1 g2 hq => ?_) (fun g1 g2 => ?_)
  · obtain ⟨p1, p2, -, p4⟩ := hp q g1 g2 (by omega) (by omega)
    exact p1.alike hb hk (p4 hq ▸ p2)
  · obtain ⟨p1, p2, p3, -⟩ := hp _ g1 g2 (by omega) (by omega)
    exact p1.changed hb hk p2 p3 (Nat.mod_lt _ hn)

theorem fromTrees_same (hb : Arity b) {cs : List (BaseTree S E)} {cs' : List (BaseTree S' E)}
    {t : Node (BaseTree S E) E} {t' : Node (BaseTree S' E) E} {lss lss' : List (List E)}
    (ht : fromTrees A sub cs = .ok t) (ht' : fromTrees A sub cs' = .ok t')
    (hcs : List.Forall₂ (BaseTree.IsTree A b fs) cs lss) (hcs' : List.Forall₂ (BaseTree.IsTree A b fs') cs' lss')
    (h : lss.flatten = lss'.flatten) :
    Alike lss.flatten.length ((Tree1.sub t).genProof b sub fs) ((Tree1.sub t').genProof b sub fs') t.root t'.root := by
  obtain ⟨k, hk, hlen, -, -, e1, e1', e2, e2', e3, e3', hp⟩ := fromTrees_parts hb ht ht' hcs hcs'
    (i := lss.flatten.length) ⟨by rw [h], fun n _ => by rw [h]⟩
  have hn : 0 < b ^ k := Nat.pow_pos (by have := hb.two_le; omega)
  obtain ⟨_, _, _, _, hs, _⟩ := fromTrees_layer hb (top := 0) (by simp [layerArity]) ht hcs
  rw [hlen]
  refine Node.alike ht ht' hn e3 e3' (by omega) (fun q g1 g2 => ?_)
  obtain ⟨p1, p2, -, p4⟩ := hp q g1 g2 (by omega) (by omega)
  have hq : q ≠ lss.flatten.length / b ^ k := by rw [hlen, Nat.mul_div_cancel _ hn]; omega
  exact p1.alike hb hk (p4 hq ▸ p2)

theorem fromSubTrees_height (hb : Arity b) {cs : List (Tree1 S E)}
    {t : Node (Tree1 S E) E} {lss : List (List E)} (ht : fromSubTrees A top cs = .ok t)
    (hcs : List.Forall₂ (Tree1.IsCompound A b sub fs) cs lss) :
    ∃ k, 0 < sub ∧ 0 < top ∧ lss.flatten.length = top * (sub * b ^ k) ∧ t.children = cs ∧ cs.length = top ∧
      lss.length = top ∧ (∀ c ∈ cs, c.leafs = sub * b ^ k) ∧ ∀ ls ∈ lss, ls.length = sub * b ^ k := by
  obtain ⟨c0, h0, h1, h2, -, hte⟩ := Node.assemble_ok_iff.1 ht
  have hc0 : c0 ∈ cs := List.mem_of_mem_head? (by rw [h0]; rfl)
  obtain ⟨ls, _, hc⟩ := Forall₂.exists_right hcs hc0
  obtain ⟨k, hk, hs, hr, -, -, -⟩ := hc.child hb
  have hall : List.Forall₂ (fun (c : Tree1 S E) ls => c.leafs = sub * b ^ k ∧ ls.length = sub * b ^ k) cs lss := by
    rw [List.forall₂_iff_get] at hcs ⊢
    refine ⟨hcs.1, fun i g1 g2 => ?_⟩
    obtain ⟨k', hk', _, hr', _, hlf', hch⟩ := (hcs.2 i g1 g2).child hb
    have e := h2 _ (List.getElem_mem g1)
    rw [List.get_eq_getElem] at hr' hlf' hch ⊢
    have : k' = k := by
      rw [hr', hr] at e; omega
    subst this
    exact ⟨hlf', hch.count⟩
  have hlen : ∀ ls ∈ lss, ls.length = sub * b ^ k := fun ls hls => by
    obtain ⟨c, -, hc⟩ := Forall₂.exists_left hall hls
    exact hc.2
  have htop : lss.length = top := by rw [← hcs.length_eq, h1]
  refine ⟨k, hs, ?_, by rw [length_flatten_uniform hlen, htop], by rw [hte], h1, htop, fun c hc => ?_, hlen⟩
  · rw [← h1]; exact List.length_pos_of_mem hc0
  · obtain ⟨_, -, h⟩ := Forall₂.exists_right hall hc
    exact h.1

/-- The same for trees assembled by `from_sub_trees`. -/
theorem fromSubTrees_parts (hb : Arity b) {cs : List (Tree1 S E)} {cs' : List (Tree1 S' E)}
    {t : Node (Tree1 S E) E} {t' : Node (Tree1 S' E) E} {lss lss' : List (List E)}
    (ht : fromSubTrees A top cs = .ok t) (ht' : fromSubTrees A top cs' = .ok t')
    (hcs : List.Forall₂ (Tree1.IsCompound A b sub fs) cs lss) (hcs' : List.Forall₂ (Tree1.IsCompound A b sub fs') cs' lss')
    {i : Nat} (h : AgreeBut i lss.flatten lss'.flatten) :
    ∃ n, 0 < n ∧ 0 < top ∧ lss.flatten.length = top * n ∧ t.children = cs ∧ t'.children = cs' ∧
      cs.length = top ∧ cs'.length = top ∧ lss.length = top ∧ lss'.length = top ∧ (∀ c ∈ cs, c.leafs = n) ∧
      (∀ c ∈ cs', c.leafs = n) ∧ (∀ ls ∈ lss, ls.length = n) ∧
      ∀ q (g1 : q < cs.length) (g2 : q < cs'.length) (g3 : q < lss.length) (g4 : q < lss'.length),
        (cs[q]).IsCompound A b sub fs lss[q] ∧ (cs'[q]).IsCompound A b sub fs' lss'[q] ∧
        AgreeBut (i % n) lss[q] lss'[q] ∧ (q ≠ i / n → lss[q] = lss'[q]) := by
  obtain ⟨k, hs, htp, e1, e2, e3, e4, e5, e6⟩ := fromSubTrees_height hb ht hcs
  obtain ⟨k', -, -, e1', e2', e3', e4', e5', e6'⟩ := fromSubTrees_height hb ht' hcs'
  have hkk : k = k' := by
    have e : top * (sub * b ^ k) = top * (sub * b ^ k') := by rw [← e1, ← e1', h.1]
    exact Nat.pow_right_injective hb.two_le (Nat.eq_of_mul_eq_mul_left hs (Nat.eq_of_mul_eq_mul_left htp e))
  subst hkk
  have hn : 0 < sub * b ^ k := Nat.mul_pos hs (Nat.pow_pos (by have := hb.two_le; omega))
  obtain ⟨-, hp⟩ := parts_agree hn e6 e6' h
  exact ⟨_, hn, htp, e1, e2, e2', e3, e3', e4, e4', e5, e5', e6, fun q g1 g2 g3 g4 =>
    ⟨forall₂_index hcs g1 g3, forall₂_index hcs' g2 g4, hp q g3 g4⟩⟩

theorem Tree1.IsCompound.changed (hb : Arity b) {t : Tree1 S E} {t' : Tree1 S' E} {xs ys : List E}
    (ht : t.IsCompound A b sub fs xs) (ht' : t'.IsCompound A b sub fs' ys) {i : Nat} (hi : i < xs.length)
    (h : AgreeBut i xs ys) : Changed xs.length i (t.genProof b sub fs) (t'.genProof b sub fs') := by
  obtain ⟨cs, lss, n, rfl, h1, h2, rfl⟩ := ht
  obtain ⟨cs', lss', n', rfl, h1', h2', rfl⟩ := ht'
  exact fromTrees_changed hb h1 h1' h2 h2' hi h

theorem Tree1.IsCompound.alike (hb : Arity b) {t : Tree1 S E} {t' : Tree1 S' E} {xs : List E}
    (ht : t.IsCompound A b sub fs xs) (ht' : t'.IsCompound A b sub fs' xs) :
    Alike xs.length (t.genProof b sub fs) (t'.genProof b sub fs') t.root t'.root := by
  obtain ⟨cs, lss, n, rfl, h1, h2, rfl⟩ := ht
  obtain ⟨cs', lss', n', rfl, h1', h2', e⟩ := ht'
  exact fromTrees_same hb h1 h1' h2 h2' e

theorem fromSubTrees_changed (hb : Arity b) {cs : List (Tree1 S E)} {cs' : List (Tree1 S' E)}
    {t : Node (Tree1 S E) E} {t' : Node (Tree1 S' E) E} {lss lss' : List (List E)}
    (ht : fromSubTrees A top cs = .ok t) (ht' : fromSubTrees A top cs' = .ok t')
    (hcs : List.Forall₂ (Tree1.IsCompound A b sub fs) cs lss) (hcs' : List.Forall₂ (Tree1.IsCompound A b sub fs') cs' lss')
    {i : Nat} (hi : i < lss.flatten.length) (h : AgreeBut i lss.flatten lss'.flatten) :
    Changed lss.flatten.length i ((Tree2.top t).genProof b sub top fs) ((Tree2.top t').genProof b sub top fs') := by
  obtain ⟨n, hn, htp, hlen, -, -, e1, e1', e2, e2', e3, e3', e4, hp⟩ := fromSubTrees_parts hb ht ht' hcs hcs' h
  rw [hlen]
  refine Node.changed ht ht' hn e3 e3' (by omega) (by rwa [hlen] at hi) (fun q g1 g2 hq => ?_) (fun g1 g2 => ?_)
  · obtain ⟨p1, p2, -, p4⟩ := hp q g1 g2 (by omega) (by omega)
    have := p1.alike hb (p4 hq ▸ p2)
    rwa [e4 _ (List.getElem_mem _)] at this
  · obtain ⟨p1, p2, p3, -⟩ := hp _ g1 g2 (by omega) (by omega)
    have hl := e4 _ (List.getElem_mem (show i / n < lss.length by omega))
    have := p1.changed hb p2 (by rw [hl]; exact Nat.mod_lt _ hn) p3
    rwa [hl] at this

theorem fromSubTrees_same (hb : Arity b) {cs : List (Tree1 S E)} {cs' : List (Tree1 S' E)}
    {t : Node (Tree1 S E) E} {t' : Node (Tree1 S' E) E} {lss lss' : List (List E)}
    (ht : fromSubTrees A top cs = .ok t) (ht' : fromSubTrees A top cs' = .ok t')
    (hcs : List.Forall₂ (Tree1.IsCompound A b sub fs) cs lss) (hcs' : List.Forall₂ (Tree1.IsCompound A b sub fs') cs' lss')
    (h : lss.flatten = lss'.flatten) :
    Alike lss.flatten.length ((Tree2.top t).genProof b sub top fs) ((Tree2.top t').genProof b sub top fs')
      t.root t'.root := by
  obtain ⟨n, hn, htp, hlen, -, -, e1, e1', e2, e2', e3, e3', e4, hp⟩ := fromSubTrees_parts hb ht ht' hcs hcs'
    (i := lss.flatten.length) ⟨by rw [h], fun n _ => by rw [h]⟩
  rw [hlen]
  refine Node.alike ht ht' hn e3 e3' (by omega) (fun q g1 g2 => ?_)
  obtain ⟨p1, p2, -, p4⟩ := hp q g1 g2 (by omega) (by omega)
  have hq : q ≠ lss.flatten.length / n := by rw [hlen, Nat.mul_div_cancel _ hn]; omega
  have := p1.alike hb (p4 hq ▸ p2)
  rwa [e4 _ (List.getElem_mem _)] at this

end

/-- The root of a layer: it changes with the root of any part, unless two lists collide. -/
theorem Node.root_changed {E C C' : Type} {A : Alg E} {arity : Nat}
    {leafsOf lenOf rowsOf : C → Nat} {rootOf : C → E} {leafsOf' lenOf' rowsOf' : C' → Nat} {rootOf' : C' → E}
    {cs : List C} {cs' : List C'} {t : Node C E} {t' : Node C' E}
    (ht : assemble A leafsOf lenOf rowsOf rootOf arity cs = .ok t)
    (ht' : assemble A leafsOf' lenOf' rowsOf' rootOf' arity cs' = .ok t') {q : Nat} (h : q < cs.length)
    (h' : q < cs'.length) (hne : rootOf cs[q] ≠ rootOf' cs'[q]) :
    t.root ≠ t'.root ∨ (cs.map rootOf ≠ cs'.map rootOf' ∧
      A.nodeHash (cs.map rootOf) 1 = A.nodeHash (cs'.map rootOf') 1) := by
  obtain ⟨c0, -, -, -, -, hte⟩ := Node.assemble_ok_iff.1 ht
  obtain ⟨c0', -, -, -, -, hte'⟩ := Node.assemble_ok_iff.1 ht'
  by_cases he : t.root = t'.root
  · refine .inr ⟨fun hm => hne ?_, by rw [hte, hte'] at he; exact he⟩
    have := congrArg (fun l => l[q]?) hm
    simpa [List.getElem?_eq_getElem h, List.getElem?_eq_getElem h'] using this
  · exact .inl he

end Verif
