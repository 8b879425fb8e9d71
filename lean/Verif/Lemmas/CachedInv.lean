import Verif.Lemmas.CachedTrees
import Verif.Lemmas.ProofCompound
/-! What every proof returned by `gen_cached_proof` looks like, whatever the store delivers. -/
set_option linter.unusedSectionVars false
namespace Verif
open Spec StoreOps

/-- A computation that leaves the file system alone. -/
def M.Keeps {α : Type} (x : M α) : Prop := ∀ fs, (x fs).2 = fs

namespace M.Keeps
variable {α β : Type}

theorem pure (a : α) : M.Keeps (Pure.pure a : M α) := fun _ => rfl
theorem ofRes (r : Res α) : M.Keeps (M.ofRes r) := fun _ => rfl
theorem get (f : FS → Res α) : M.Keeps (M.get f) := fun _ => rfl
theorem throw (e : Fault) : M.Keeps (M.throw e : M α) := fun _ => rfl
theorem mEnsure (c : Prop) [Decidable c] (m : String) : M.Keeps (Verif.mEnsure c m) := fun _ => rfl

theorem bind {x : M α} {f : α → M β} (hx : x.Keeps) (hf : ∀ a, (f a).Keeps) : (x >>= f).Keeps := by
  intro fs
  have h := hx fs
  rw [M.bind_run]
  split
  · rename_i a fs' e
    rw [e] at h
    have h : fs' = fs := h
    rw [h]
    exact hf a fs
  · rename_i e' fs' e
    rw [e] at h
    exact h

theorem ok {x : M α} (hx : x.Keeps) {fs fs' : FS} {r : Res α} (h : x fs = (r, fs')) : fs' = fs := by
  have := hx fs
  rw [h] at this
  exact this

end M.Keeps

theorem runSteps_keeps {S : Type} {rd : Nat → S → FS → Res Bytes} {wr : Nat → Bytes → S → M S}
    (h : ∀ t bs s, (wr t bs s).Keeps) :
    ∀ (ts : List Nat) (pend : Nat → Option Bytes) (s : S), (runSteps rd wr ts pend s).Keeps
  | [], _, s => M.Keeps.pure s
  | t :: ts, pend, s => by
    rw [runSteps]
    split
    · exact .bind (.get _) fun bs => runSteps_keeps h ts _ _
    · exact .bind (h _ _ _) fun s => runSteps_keeps h ts _ _

section
variable {E : Type} [Element E]

theorem VecStore.copyFromSlice_keeps (s : VecStore E) (buf : Bytes) (start : Nat) :
    (VecStore.copyFromSlice s buf start).Keeps :=
  .bind (.ofRes _) fun _ => .bind (.mEnsure _ _) fun _ => .bind (.ofRes _) fun _ => .pure _

theorem VecStore.writeLayer_keeps (w : Nat) : ∀ (es : List E) (i : Nat) (s : VecStore E),
    (writeLayer w es i s).Keeps
  | [], _, s => M.Keeps.pure s
  | _ :: es, i, _ => .bind (M.Keeps.pure _) fun s => VecStore.writeLayer_keeps w es (i + 1) s

theorem VecStore.smallTreeLoop_keeps (A : Alg E) (b : Nat) : ∀ (f w l i : Nat) (s : VecStore E),
    (smallTreeLoop A b f w l i s).Keeps
  | 0, _, _, _, _ => M.Keeps.throw _
  | f + 1, w, l, i, s => by
    rw [smallTreeLoop]
    split
    · exact .bind (.get _) fun ns => .bind (VecStore.writeLayer_keeps _ _ _ _) fun s =>
        VecStore.smallTreeLoop_keeps A b f _ _ _ s
    · exact .pure _

theorem VecStore.buildLoop_keeps (A : Alg E) (b : Nat) (σ : Sched) : ∀ (f w l i : Nat) (s : VecStore E),
    (buildLoop A b σ f w l i s).Keeps
  | 0, _, _, _, _ => M.Keeps.throw _
  | f + 1, w, l, i, s => by
    rw [buildLoop]
    split
    · exact .bind (.bind (.mEnsure _ _) fun _ => runSteps_keeps (fun _ _ _ => VecStore.copyFromSlice_keeps _ _ _) _ _ _)
        fun s => VecStore.buildLoop_keeps A b σ f _ _ _ s
    · exact .pure _

theorem VecStore.build_keeps (A : Alg E) (b : Nat) (σ : Sched) (s : VecStore E) (n r : Nat)
    (c : Option StoreConfig) : (defaultBuild A b σ s n r c).Keeps := by
  unfold defaultBuild
  refine .bind (.mEnsure _ _) fun _ => .bind (.mEnsure _ _) fun _ => .bind (.mEnsure _ _) fun _ => ?_
  split
  · exact .bind (.mEnsure _ _) fun _ => .bind (VecStore.smallTreeLoop_keeps _ _ _ _ _ _ _) fun _ =>
      .bind (.mEnsure _ _) fun _ => .bind (.get _) fun _ => .pure _
  · exact .bind (VecStore.buildLoop_keeps _ _ _ _ _ _ _ _) fun _ =>
      .bind (.mEnsure _ _) fun _ => .bind (.get _) fun _ => .pure _

variable [FloatRows] {S : Type} [StoreOps S E]

theorem BaseTree.buildPartialTree_keeps (A : Alg E) (b : Nat) (σ : Sched) (s : VecStore E) (n r : Nat) :
    (BaseTree.buildPartialTree A b σ s n r).Keeps :=
  .bind (VecStore.build_keeps A b σ s n r none) fun _ => .bind (.ofRes _) fun _ =>
    .bind (.mEnsure _ _) fun _ => .bind (.ofRes _) fun _ => .bind (.mEnsure _ _) fun _ => .pure _

/-- `gen_cached_proof` touches no file. -/
theorem BaseTree.genCachedProof_keeps (A : Alg E) (b sub top : Nat) (σ : Sched) (t : BaseTree S E)
    (i : Nat) (rows : Option Nat) : (t.genCachedProof A b sub top σ i rows).Keeps :=
  .bind (.mEnsure _ _) fun _ => .bind (.mEnsure _ _) fun _ => .bind (.ofRes _) fun _ =>
  .bind (.ofRes _) fun _ => .bind (.mEnsure _ _) fun _ => .bind (.ofRes _) fun _ =>
  .bind (.mEnsure _ _) fun _ => .bind (.ofRes _) fun _ => .bind (.ofRes _) fun _ =>
  .bind (.ofRes _) fun _ => .bind (.get _) fun _ => .bind (.ofRes _) fun _ =>
  .bind (.mEnsure _ _) fun _ => .bind (.ofRes _) fun _ =>
  .bind (BaseTree.buildPartialTree_keeps _ _ _ _ _ _) fun _ => .bind (.mEnsure _ _) fun _ => .get _

theorem cachedProofLoop_path {rd prd : Nat → Res E} {b k r : Nat} (hb : Arity b) {dw : Nat} :
    ∀ (n fuel j pb sw ss : Nat) (l : List E) (p : List Nat), n ≤ k →
    BaseTree.cachedProofLoop rd prd b (nodes b k) dw r fuel
        (rowStart b k (k - n)) (b ^ n) pb sw ss j = .ok (l, p) → p = digits b n j
  | _, 0, _, _, _, _, _, _, _, h => by
    rw [BaseTree.cachedProofLoop] at h
    cases h
  | 0, fuel + 1, j, _, _, _, l, p, _, h => by
    rw [BaseTree.cachedProofLoop, if_neg (by have := rowStart_top b k; simp only [Nat.sub_zero]; omega)] at h
    cases h
    rfl
  | n + 1, fuel + 1, j, pb, sw, ss, l, p, hn, h => by
    have hb2 := hb.two_le
    obtain ⟨hlt, hrow⟩ := cached_row hb2 hn
    rw [BaseTree.cachedProofLoop, if_pos hlt] at h
    simp only [bind_ok_iff] at h
    obtain ⟨sb, -, ⟨l', p'⟩, h2, h3⟩ := h
    rw [hrow, hb.shiftRight, hb.shiftRight, hb.shiftRight, hb.shiftRight, Nat.pow_succ,
      Nat.mul_div_cancel _ (by omega)] at h2
    have := cachedProofLoop_path hb n fuel _ _ _ _ l' p' (by omega) h2
    cases h3
    rw [this]
    rfl

/-- Every proof `gen_cached_proof` returns has the tree's root, the path of the index and the item the
store delivers for the index. -/
theorem BaseTree.genCachedProof_shape {A : Alg E} {b k : Nat} (hb : Arity b) {σ : Sched}
    {t : BaseTree S E} (h1 : t.leafs = b ^ k) (h2 : t.length = nodes b k)
    {i : Nat} {rows : Option Nat} {fs fs' : FS} {p : Proof E}
    (h : t.genCachedProof A b 0 0 σ i rows fs = (.ok p, fs')) :
    fs' = fs ∧ i < b ^ k ∧ ∃ x m, t.readAt fs i = .ok x ∧
      Proof.new b 0 0 none (x :: m ++ [t.root]) (digits b k i) = .ok p := by
  obtain rfl := (BaseTree.genCachedProof_keeps _ _ _ _ _ _ _ _).ok h
  refine ⟨rfl, ?_⟩
  unfold BaseTree.genCachedProof at h
  obtain ⟨_, f1, -, h⟩ := M.bind_ok_iff.1 h
  obtain ⟨_, f2, -, h⟩ := M.bind_ok_iff.1 h
  obtain ⟨_, f3, -, h⟩ := M.bind_ok_iff.1 h
  obtain ⟨_, f4, -, h⟩ := M.bind_ok_iff.1 h
  obtain ⟨_, f5, -, h⟩ := M.bind_ok_iff.1 h
  obtain ⟨_, f6, -, h⟩ := M.bind_ok_iff.1 h
  obtain ⟨_, f7, -, h⟩ := M.bind_ok_iff.1 h
  obtain ⟨_, f8, -, h⟩ := M.bind_ok_iff.1 h
  obtain ⟨_, f9, -, h⟩ := M.bind_ok_iff.1 h
  obtain ⟨_, f10, -, h⟩ := M.bind_ok_iff.1 h
  obtain ⟨_, f11, -, h⟩ := M.bind_ok_iff.1 h
  obtain ⟨_, f12, -, h⟩ := M.bind_ok_iff.1 h
  obtain ⟨_, f13, -, h⟩ := M.bind_ok_iff.1 h
  obtain ⟨_, f14, -, h⟩ := M.bind_ok_iff.1 h
  obtain ⟨pt, f15, -, h⟩ := M.bind_ok_iff.1 h
  obtain ⟨_, f16, -, h⟩ := M.bind_ok_iff.1 h
  rw [M.get_run] at h
  simp only [Prod.mk.injEq] at h
  obtain ⟨h, e⟩ := h
  rw [e] at h
  unfold BaseTree.genProofWithPartialTree at h
  simp only [bind_ok_iff, ensure_ok_iff, exists_const] at h
  obtain ⟨g1, g2, g3, n1, g4, n2, g5, n3, g6, n4, g7, g8, n5, g9, n6, g10, n7, g11, n8, g12, -, -, x, g13,
    ⟨sb, pa⟩, g14, g15, g16, g17⟩ := h
  rw [h1] at g1
  refine ⟨g1, x, sb, g13, ?_⟩
  rw [h1, h2] at g14
  have h0 : (0 : Nat) = rowStart b k (k - k) := by rw [Nat.sub_self]; rfl
  have hpow : (b ^ k : Nat) = b ^ k := rfl
  have := cachedProofLoop_path (rd := t.readAt fs') (prd := pt.readAt fs') hb k (nodes b k + b ^ k + 2)
    i 0 n5 (n6 * n5) sb pa (Nat.le_refl _) (by rw [← h0]; exact g14)
  rw [← this]
  exact g17

end

namespace Node
variable {C C' E : Type}

/-- A cached proof of a layer, over the cached proof of the tree that has the leaf. -/
theorem genCachedLayerProof_shape {leafsOf : C → Nat} {rootOf : C → E} {gen : C → Nat → M (Proof E)}
    {b pTop pSub : Nat} {t : Node C E} {arity n i : Nat} (h : t.Uniform leafsOf arity n)
    (hp : ¬ (pTop = 0 ∧ pSub = 0)) {p : Proof E} {fs fs' : FS}
    (hg : t.genCachedLayerProof leafsOf rootOf gen b pTop pSub arity i fs = (.ok p, fs')) :
    ∃ (hi : i < arity * n) (sp : Proof E),
      gen (t.children[i / n]'(h.index hi)) (i % n) fs = (.ok sp, fs') ∧
      p = .nested sp pTop pSub ((t.children.map rootOf).eraseIdx (i / n) ++ [t.root]) [i / n] := by
  unfold genCachedLayerProof at hg
  obtain ⟨_, f1, e1, hg1⟩ := M.bind_ok_iff.1 hg
  obtain ⟨_, f2, e2, hg2⟩ := M.bind_ok_iff.1 hg1
  clear hg hg1
  obtain ⟨ha, rfl⟩ := mEnsure_ok_iff.1 e1
  obtain ⟨hi, rfl⟩ := mEnsure_ok_iff.1 e2
  rw [h.leafs] at hi
  refine ⟨hi, ?_⟩
  rw [M.bind_ok (a := _) (fs' := f2) (by rw [M.ofRes_run, h.locate hi])] at hg2
  dsimp only at hg2
  obtain ⟨sp, f3, e3, hg3⟩ := M.bind_ok_iff.1 hg2
  clear hg2
  have := layerLemma_erase (rootOf := rootOf) (h.index hi)
  rw [h.count] at this
  rw [M.bind_ok (a := _) (fs' := f3) (by rw [M.ofRes_run, this]), M.ofRes_run, new_layer hp] at hg3
  simp only [Prod.mk.injEq, Except.ok.injEq] at hg3
  obtain ⟨rfl, rfl⟩ := hg3
  exact ⟨sp, e3, rfl⟩

/-- A layer over trees whose validating cached proofs are those of the trees of another layer. -/
theorem cached_layer_bind [DecidableEq E] {A : Alg E} {leafsOf : C → Nat} {rootOf : C → E}
    {gen : C → Nat → Res (Proof E)}
    {leafsOf' : C' → Nat} {rootOf' : C' → E} {gen' : C' → Nat → M (Proof E)}
    {b pTop pSub : Nat} {t : Node C E} {t' : Node C' E} {arity n i : Nat}
    (h : t.Uniform leafsOf arity n) (hroot : t'.root = t.root) (hleafs : t'.leafs = t.leafs)
    (hp : ¬ (pTop = 0 ∧ pSub = 0)) {fs fs'' : FS}
    (hg : List.Forall₂ (fun c c' => (leafsOf' c' = leafsOf c ∧ rootOf' c' = rootOf c) ∧
      ∀ j p fs'', gen' c' j fs = (.ok p, fs'') → fs'' = fs ∧ (p.validate A b = .ok true →
        ∃ q, gen c j = .ok q ∧ (p = q ∨ Collision A.nodeHash (proofTranscript A.nodeHash b p)
          (proofTranscript A.nodeHash b q)))) t.children t'.children) {p : Proof E}
    (hgp : t'.genCachedLayerProof leafsOf' rootOf' gen' b pTop pSub arity i fs = (.ok p, fs'')) :
    fs'' = fs ∧ (p.validate A b = .ok true →
      ∃ q, t.genSubTreeProof leafsOf rootOf gen b pTop pSub arity i = .ok q ∧
        (p = q ∨ Collision A.nodeHash (proofTranscript A.nodeHash b p)
          (proofTranscript A.nodeHash b q))) := by
  have hlen := hg.length_eq
  have h' : t'.Uniform leafsOf' arity n := by
    refine ⟨by rw [← hlen, h.count], ?_, by rw [hleafs, h.leafs]⟩
    intro c hc
    obtain ⟨j, hj, rfl⟩ := List.getElem_of_mem hc
    have := (List.forall₂_iff_get.1 hg).2 j (by omega) hj
    simp only [List.get_eq_getElem] at this
    rw [this.1.1]
    exact h.each _ (List.getElem_mem _)
  have hroots : t'.children.map rootOf' = t.children.map rootOf := by
    apply List.ext_getElem (by simp [hlen])
    intro j h1 h2
    have := (List.forall₂_iff_get.1 hg).2 j (by simpa using h2) (by simpa using h1)
    simp only [List.get_eq_getElem] at this
    simp [this.1.2]
  obtain ⟨hi, sp, e1, rfl⟩ := genCachedLayerProof_shape h' hp hgp
  have := (List.forall₂_iff_get.1 hg).2 (i / n) (h.index hi) (h'.index hi)
  simp only [List.get_eq_getElem] at this
  obtain ⟨rfl, hb⟩ := this.2 _ _ _ e1
  refine ⟨rfl, fun hv => ?_⟩
  obtain ⟨q, e2, hq⟩ := hb (validate_nested_true hv).1
  refine ⟨_, genSubTreeProof_eq h hi hp e2, ?_⟩
  rcases hq with rfl | hq
  · exact .inl (by rw [hroots, hroot])
  · right
    rw [hroots, hroot, proofTranscript, proofTranscript]
    exact Collision.left hq

end Node
end Verif
