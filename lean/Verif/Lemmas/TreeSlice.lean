import Verif.Lemmas.ProofGen
import Verif.Lemmas.Reject
import Verif.Lemmas.RangeReads
import Verif.Props.Sizing
/-! `from_tree_slice`. -/
set_option linter.unusedSectionVars false
namespace Verif
open Spec StoreOps

theorem merkleTreeLen.loop_returns {leafs s : Nat} (hs : 1 ≤ s) : ∀ f cur len, cur < f →
    Res.Returns (merkleTreeLen.loop leafs s f cur len)
  | 0, _, _, h => by omega
  | f + 1, cur, len, h => by
    unfold merkleTreeLen.loop
    by_cases h0 : cur > 0
    · rw [if_pos h0]
      dsimp only
      have hlt : cur >>> s < cur := by
        rw [Nat.shiftRight_eq_div_pow]
        exact Nat.div_lt_self h0 (by
          calc 1 < 2 ^ 1 := by decide
            _ ≤ 2 ^ s := Nat.pow_le_pow_right (by omega) hs)
      by_cases hc : cur >>> s < leafs
      · rw [ensure_true hc]
        exact merkleTreeLen.loop_returns hs f _ _ (by omega)
      · rw [ensure_false hc]; exact .inr ⟨_, rfl⟩
    · rw [if_neg h0]; exact .inl ⟨_, rfl⟩

/-- `get_merkle_tree_len` always returns, with a value or an error. -/
theorem merkleTreeLen_returns (leafs b : Nat) : Res.Returns (merkleTreeLen leafs b) := by
  unfold merkleTreeLen
  by_cases h1 : leafs ≥ b
  · rw [ensure_true h1, Res.ok_bind]
    by_cases h2 : b = nextPow2 b
    · rw [ensure_true h2, Res.ok_bind]
      split
      · by_cases h3 : leafs = nextPow2 leafs
        · rw [ensure_true h3, Res.ok_bind, subP_ok (by omega)]; exact .inl ⟨_, rfl⟩
        · rw [ensure_false h3]; exact .inr ⟨_, rfl⟩
      · dsimp only
        split
        · exact .inl ⟨_, rfl⟩
        · exact merkleTreeLen.loop_returns (by omega) _ _ _ (by omega)
    · rw [ensure_false h2]; exact .inr ⟨_, rfl⟩
  · rw [ensure_false h1]; exact .inr ⟨_, rfl⟩

section
variable {E : Type} [Element E] [LawfulElement E]

theorem treeSliceLen_returns {b : Nat} (hb : b ≠ 1) (sub top : Nat) (data : Bytes) (leafs : Nat) :
    Res.Returns (BaseTree.treeSliceLen E b sub top data leafs) := by
  unfold BaseTree.treeSliceLen
  by_cases h1 : sub = 0
  · rw [ensure_true h1, Res.ok_bind]
    by_cases h2 : top = 0
    · rw [ensure_true h2, Res.ok_bind]
      rcases merkleTreeLen_returns leafs b with ⟨n, hn⟩ | ⟨m, hm⟩
      · rw [hn, Res.ok_bind, divP_ok LawfulElement.byteLen_pos, Res.ok_bind]
        by_cases h3 : n = data.length / Element.byteLen E
        · rw [ensure_true h3, Res.ok_bind]
          obtain ⟨v, hv, _⟩ := C03_size_valid_exact_partial leafs b hb
          rw [hv, Res.ok_bind]
          by_cases h4 : v = true
          · rw [ensure_true h4]; exact .inl ⟨_, rfl⟩
          · rw [ensure_false h4]; exact .inr ⟨_, rfl⟩
        · rw [ensure_false h3]; exact .inr ⟨_, rfl⟩
      · rw [hm]; exact .inr ⟨_, rfl⟩
    · rw [ensure_false h2]; exact .inr ⟨_, rfl⟩
  · rw [ensure_false h1]; exact .inr ⟨_, rfl⟩

theorem pow_ge_iff_one_le {b k : Nat} (hb : Arity b) (h : b ≤ b ^ k) : 1 ≤ k :=
  (pow_le_iff hb.two_le).1 h

theorem treeSliceLen_ok_iff {b : Nat} (hb : b ≠ 1) {sub top : Nat} {data : Bytes} {leafs n : Nat} :
    BaseTree.treeSliceLen E b sub top data leafs = .ok n ↔
      Arity b ∧ sub = 0 ∧ top = 0 ∧ ∃ k, 1 ≤ k ∧ leafs = b ^ k ∧ n = nodes b k ∧
        data.length / Element.byteLen E = nodes b k := by
  have hp := LawfulElement.byteLen_pos (E := E)
  unfold BaseTree.treeSliceLen
  simp only [bind_ok_iff, ensure_ok_iff, exists_const, Except.ok.injEq]
  constructor
  · rintro ⟨h1, h2, t, ht, m, hm, h3, v, hv, h4, rfl⟩
    rw [divP_ok hp] at hm
    cases hm
    obtain ⟨v', hv', hval⟩ := C03_size_valid_exact_partial leafs b hb
    rw [hv] at hv'; cases hv'
    obtain ⟨ha, k, rfl⟩ := hval.1 h4
    have hle : b ≤ b ^ k := by
      unfold merkleTreeLen at ht
      simp only [bind_ok_iff, ensure_ok_iff, exists_const] at ht
      exact ht.1
    have hk := pow_ge_iff_one_le ha hle
    rw [merkleTreeLen_pow ha hk] at ht
    cases ht
    exact ⟨ha, h1, h2, k, hk, rfl, rfl, h3.symm⟩
  · rintro ⟨ha, h1, h2, k, hk, rfl, rfl, h3⟩
    obtain ⟨v', hv', hval⟩ := C03_size_valid_exact_partial (b ^ k) b hb
    exact ⟨h1, h2, _, merkleTreeLen_pow ha hk, _, divP_ok hp, h3.symm, v', hv',
      hval.2 ⟨ha, k, rfl⟩, rfl⟩

end

section
variable {E : Type} [Element E] [LawfulElement E] [FloatRows] {S : Type} [Store S E] [LawfulStore S E]
open LawfulWrite LawfulRead BaseTree

/-- A store holding the layout of a tree, as a tree. -/
theorem isTreeOf_of_filled {A : Alg E} {b k cap : Nat} (hf : FloatRows.ExactAt b k)
    {leaves : List E} {f : Nat → E} (hl : IsLayout A.nodeHash b k leaves f) {fs : FS} {s : S}
    (hs : Filled fs s cap (nodes b k) f) :
    BaseTree.IsTreeOf A b k leaves fs
      (⟨s, b ^ k, nodes b k, merkleTreeRowCount (b ^ k) b, f (nodes b k - 1)⟩ : BaseTree S E) where
  leafs := rfl
  len := hs.len_eq
  rows := rowCount_pow hf
  nodes := ⟨f, hl, fun i hi => readAt_ok hs.inv (by rw [hs.len_eq]; exact hi) (hs.vals i hi), rfl⟩

theorem fromTreeSlice_ok {A : Alg E} {b k : Nat} (hb : Arity b) (hk : 1 ≤ k)
    (hf : FloatRows.ExactAt b k) {leaves ns : List E} {f : Nat → E}
    (hl : IsLayout A.nodeHash b k leaves f) (hn : ns.length = nodes b k)
    (hns : ∀ i (h : i < ns.length), ns[i] = f i) (fs : FS) :
    ∃ (t : BaseTree S E) (fs' : FS), fromTreeSlice b 0 0 (encodeAll ns) (b ^ k) fs = (.ok t, fs') ∧
      t.IsTreeOf A b k leaves fs' ∧ t.root = f (nodes b k - 1) ∧
      ∀ i, i < nodes b k → t.readAt fs' i = .ok (f i) := by
  have hp := nodes_pos b k
  have h0 : treeSliceLen E b 0 0 (encodeAll ns) (b ^ k) = .ok (nodes b k) :=
    (treeSliceLen_ok_iff (by have := hb.two_le; omega)).2
      ⟨hb, rfl, rfl, k, hk, rfl, rfl, by rw [div_encodeAll, hn]⟩
  obtain ⟨s, fs', h1, h2, _⟩ := LawfulStore.newFromSlice_ok (S := S) fs (nodes b k) ns
    (f 0) (by omega)
  have h3 : Filled fs' s (nodes b k) (nodes b k) f := by
    refine ⟨h2.inv, by rw [h2.len_eq, hn], fun i hi => ?_⟩
    have := h2.vals i (by omega)
    simp only [getD_of_lt (show i < ns.length by omega)] at this
    rwa [hns] at this
  refine ⟨_, fs', ?_, isTreeOf_of_filled hf hl h3, rfl, fun i hi => readAt_ok h3.inv (by
    rw [h3.len_eq]; exact hi) (h3.vals i hi)⟩
  unfold fromTreeSlice
  rw [M.bind_ok (a := nodes b k) (fs' := fs) (by rw [M.ofRes_run, h0]), M.bind_ok h1,
    M.bind_ok (a := f (nodes b k - 1)) (fs' := fs') (by rw [M.get_run, h3.last hp])]
  rfl

theorem fromTreeSliceWithConfig_ok {A : Alg E} {b k : Nat} (hb : Arity b) (hk : 1 ≤ k)
    (hf : FloatRows.ExactAt b k) {leaves ns : List E} {f : Nat → E}
    (hl : IsLayout A.nodeHash b k leaves f) (hn : ns.length = nodes b k)
    (hns : ∀ i (h : i < ns.length), ns[i] = f i) {c : StoreConfig} (fs : FS)
    (hc : fs.file c.file = none) :
    ∃ (t : BaseTree S E) (fs' : FS),
      fromTreeSliceWithConfig b 0 0 (encodeAll ns) (b ^ k) c fs = (.ok t, fs') ∧
      t.IsTreeOf A b k leaves fs' ∧ t.root = f (nodes b k - 1) ∧
      ∀ i, i < nodes b k → t.readAt fs' i = .ok (f i) := by
  have hp := nodes_pos b k
  have h0 : treeSliceLen E b 0 0 (encodeAll ns) (b ^ k) = .ok (nodes b k) :=
    (treeSliceLen_ok_iff (by have := hb.two_le; omega)).2
      ⟨hb, rfl, rfl, k, hk, rfl, rfl, by rw [div_encodeAll, hn]⟩
  obtain ⟨s, fs', h1, h2, _⟩ := LawfulStore.newFromSliceWithConfig_ok (S := S) fs (nodes b k) b ns
    (f 0) c hc (by omega)
  have h3 : Filled fs' s (nodes b k) (nodes b k) f := by
    refine ⟨h2.inv, by rw [h2.len_eq, hn], fun i hi => ?_⟩
    have := h2.vals i (by omega)
    simp only [getD_of_lt (show i < ns.length by omega)] at this
    rwa [hns] at this
  refine ⟨_, fs', ?_, isTreeOf_of_filled hf hl h3, rfl, fun i hi => readAt_ok h3.inv (by
    rw [h3.len_eq]; exact hi) (h3.vals i hi)⟩
  unfold fromTreeSliceWithConfig
  rw [M.bind_ok (a := nodes b k) (fs' := fs) (by rw [M.ofRes_run, h0]), M.bind_ok h1,
    M.bind_ok (a := f (nodes b k - 1)) (fs' := fs') (by rw [M.get_run, h3.last hp])]
  rfl

end

section
variable {E : Type} [Element E]

/-- Two trees with the same leaves, sizes and nodes give the same proofs, also out of range. -/
theorem genProof_congr {S S' : Type} [StoreOps S E] [StoreOps S' E] {fs fs' : FS} {b k : Nat}
    (hb : Arity b) (hk : 1 ≤ k) {t : BaseTree S E} {t' : BaseTree S' E} {f : Nat → E}
    (h : t.Reads fs b k f) (h' : t'.Reads fs' b k f) (i : Nat) :
    t'.genProof b 0 0 fs' i = t.genProof b 0 0 fs i := by
  by_cases hi : i < b ^ k
  · rw [BaseTree.genProof_eq hb hk h hi, BaseTree.genProof_eq hb hk h' hi]
  · unfold BaseTree.genProof
    rw [h.leafs, h'.leafs, ensure_false hi]; rfl

end
end Verif
