import Verif.Lemmas.TreeSlice
import Verif.Spec.Toy
import Verif.Spec.Ideal
/-! Property C67: which stores `from_data_store` takes for a tree (src/merkle.rs:379-422). -/
set_option linter.unusedSectionVars false
namespace Verif
open Spec StoreOps
section
variable {S E : Type} [Element E] [Store S E] [FloatRows]

/-- The checks of `from_data_store`, all passed: arity, number of leaves and length of the store fit. -/
def WholeTree (b sub top leafs len : Nat) : Prop :=
  sub = 0 ∧ top = 0 ∧ Arity b ∧ ∃ k, 1 ≤ k ∧ leafs = b ^ k ∧ len = nodes b k

theorem fromDataStore_checks {b : Nat} (hb : b ≠ 1) {sub top leafs : Nat} {s : S} {fs : FS} :
    (WholeTree b sub top leafs (len (E := E) s) ∧
      BaseTree.fromDataStore (E := E) b sub top s leafs fs =
        (readAt fs s (len (E := E) s - 1)).map fun r =>
          ⟨s, leafs, len (E := E) s, merkleTreeRowCount leafs b, r⟩) ∨
    (¬ WholeTree b sub top leafs (len (E := E) s) ∧
      Res.IsErr (BaseTree.fromDataStore (E := E) b sub top s leafs fs)) := by
  unfold BaseTree.fromDataStore
  by_cases h1 : sub = 0
  case neg => rw [ensure_false h1]; exact .inr ⟨fun h => h1 h.1, ⟨_, rfl⟩⟩
  rw [ensure_true h1, Res.ok_bind]
  by_cases h2 : top = 0
  case neg => rw [ensure_false h2]; exact .inr ⟨fun h => h2 h.2.1, ⟨_, rfl⟩⟩
  rw [ensure_true h2, Res.ok_bind]
  by_cases h3 : nextPow2 leafs = leafs
  case neg =>
    rw [ensure_false h3]
    refine .inr ⟨fun ⟨_, _, ⟨m, _, e⟩, k, _, h, _⟩ => h3 ?_, ⟨_, rfl⟩⟩
    rw [h, e, ← Nat.pow_mul, nextPow2_pow]
  rw [ensure_true h3, Res.ok_bind]
  by_cases h4 : nextPow2 b = b
  case neg =>
    rw [ensure_false h4]
    refine .inr ⟨fun ⟨_, _, ⟨m, _, e⟩, _⟩ => h4 ?_, ⟨_, rfl⟩⟩
    rw [e, nextPow2_pow]
  rw [ensure_true h4, Res.ok_bind]
  rcases merkleTreeLen_returns leafs b with ⟨n, hn⟩ | ⟨m, hm⟩
  case inr =>
    rw [hm]
    refine .inr ⟨fun ⟨_, _, ha, k, hk, h, _⟩ => ?_, ⟨_, rfl⟩⟩
    rw [h, merkleTreeLen_pow ha hk] at hm
    cases hm
  rw [hn, Res.ok_bind]
  by_cases h5 : n = len (E := E) s
  case neg =>
    rw [ensure_false h5]
    refine .inr ⟨fun ⟨_, _, ha, k, hk, h, hl⟩ => h5 ?_, ⟨_, rfl⟩⟩
    rw [h, merkleTreeLen_pow ha hk] at hn
    cases hn
    exact hl.symm
  rw [ensure_true h5, Res.ok_bind]
  obtain ⟨v, hv, hval⟩ := C03_size_valid_exact_partial leafs b hb
  rw [hv, Res.ok_bind]
  by_cases h6 : v = true
  case neg =>
    rw [ensure_false h6]
    exact .inr ⟨fun ⟨_, _, ha, k, _, h, _⟩ => h6 (hval.2 ⟨ha, k, h⟩), ⟨_, rfl⟩⟩
  rw [ensure_true h6, Res.ok_bind]
  obtain ⟨ha, k, rfl⟩ := hval.1 h6
  have hk : 1 ≤ k := by
    have h := hn
    unfold merkleTreeLen at h
    simp only [bind_ok_iff, ensure_ok_iff, exists_const] at h
    exact pow_ge_iff_one_le ha h.1
  rw [merkleTreeLen_pow ha hk] at hn
  cases hn
  refine .inl ⟨⟨h1, h2, ha, k, hk, rfl, h5.symm⟩, ?_⟩
  unfold StoreOps.last
  rw [← h5, subP_ok (nodes_pos b k), Res.ok_bind]
  cases readAt (E := E) fs s (nodes b k - 1) <;> rfl

/-- **C67.** `from_data_store` accepts a store exactly if no compound arity is asked for, the arity is a
power of two, the number of leaves a positive power of the arity, the store has as many elements as such
a tree has nodes, and its last element can be read.  The tree keeps the store and the number of leaves,
has the length of the store, and its root is the last element. -/
theorem C67_ok_iff {b : Nat} (hb : b ≠ 1) {sub top leafs : Nat} {s : S} {fs : FS} {t : BaseTree S E} :
    BaseTree.fromDataStore b sub top s leafs fs = .ok t ↔
      WholeTree b sub top leafs (len (E := E) s) ∧ t.store = s ∧ t.leafs = leafs ∧
        t.len = len (E := E) s ∧ t.rowCount = merkleTreeRowCount leafs b ∧
        readAt fs s (len (E := E) s - 1) = .ok t.root := by
  rcases fromDataStore_checks (E := E) hb (sub := sub) (top := top) (leafs := leafs) (s := s) (fs := fs)
    with ⟨h1, h2⟩ | ⟨h1, m, h2⟩
  · rw [h2]
    cases readAt (E := E) fs s (len (E := E) s - 1) with
    | error e => exact ⟨nofun, fun h => nomatch h.2.2.2.2.2⟩
    | ok r =>
      constructor
      · intro h; cases h; exact ⟨h1, rfl, rfl, rfl, rfl, rfl⟩
      · rintro ⟨_, g1, g2, g3, g4, g5⟩
        obtain ⟨a1, a2, a3, a4, a5⟩ := t
        dsimp only at g1 g2 g3 g4
        subst g1 g2 g3 g4
        cases g5
        rfl
  · rw [h2]; exact ⟨nofun, fun h => absurd h.1 h1⟩

/-- **C67.** The number of rows is that of the tree, wherever the floating point computation of it is
exact. -/
theorem C67_rows {b k : Nat} (hf : FloatRows.ExactAt b k) {sub top : Nat} {s : S} {fs : FS}
    {t : BaseTree S E} (hb : b ≠ 1) (h : BaseTree.fromDataStore b sub top s (b ^ k) fs = .ok t) :
    t.rowCount = k + 1 := by
  rw [((C67_ok_iff hb).1 h).2.2.2.2.1, rowCount_pow hf]

/-- **C67.** Every other request is answered with `Err`; with a store whose reads return (`Ok` or `Err`),
so is every request. -/
theorem C67_refused {b : Nat} (hb : b ≠ 1) {sub top leafs : Nat} {s : S} {fs : FS}
    (h : ¬ WholeTree b sub top leafs (len (E := E) s)) :
    Res.IsErr (BaseTree.fromDataStore (E := E) b sub top s leafs fs) := by
  rcases fromDataStore_checks (E := E) hb (sub := sub) (top := top) (leafs := leafs) (s := s) (fs := fs)
    with ⟨h1, _⟩ | ⟨_, h2⟩
  · exact absurd h1 h
  · exact h2

/-- **C67** fails for arity 1: a store with `2 ^ m` elements, taken for a tree with as many leaves,
passes the length check, and the size check that follows never returns. -/
theorem C67_arity_one_refuted {m : Nat} (hm : 1 ≤ m) {s : S} (hs : len (E := E) s = 2 ^ m) (fs : FS) :
    BaseTree.fromDataStore (E := E) 1 0 0 s (2 ^ m) fs = .error .diverge := by
  have h1 : nextPow2 (2 ^ m) = 2 ^ m := nextPow2_pow m
  have h2 : nextPow2 1 = 1 := nextPow2_pow 0
  have h3 : merkleTreeLen (2 ^ m) 1 = .ok (2 ^ m) := by
    unfold merkleTreeLen
    rw [ensure_true (Nat.one_le_two_pow), Res.ok_bind, ensure_true h2.symm, Res.ok_bind]
    rfl
  unfold BaseTree.fromDataStore
  rw [ensure_true rfl, Res.ok_bind, ensure_true rfl, Res.ok_bind, ensure_true h1, Res.ok_bind,
    ensure_true h2, Res.ok_bind, h3, Res.ok_bind, ensure_true hs.symm, Res.ok_bind,
    C03_size_valid_arity_one_refuted m hm]
  rfl

/-- **C67.** The accepted tree is the Merkle tree of some leaves exactly if the store holds one: the
nodes read from it are the layout of a tree. -/
theorem C67_is_tree_iff {A : Alg E} {b k : Nat} (hb : b ≠ 1) (hf : FloatRows.ExactAt b k)
    {s : S} {fs : FS} {t : BaseTree S E} (h : BaseTree.fromDataStore b 0 0 s (b ^ k) fs = .ok t)
    (leaves : List E) :
    t.IsTreeOf A b k leaves fs ↔
      ∃ f, IsLayout A.nodeHash b k leaves f ∧ ∀ i, i < nodes b k → readAt fs s i = .ok (f i) := by
  obtain ⟨⟨_, _, ha, k', _, hk', hl⟩, h1, h2, h3, h4, h5⟩ := (C67_ok_iff hb).1 h
  have : k = k' := Nat.pow_right_injective ha.two_le hk'
  subst this
  constructor
  · rintro ⟨_, _, _, f, g1, g2, _⟩
    exact ⟨f, g1, fun i hi => by rw [← g2 i hi, ← h1]; rfl⟩
  · rintro ⟨f, g1, g2⟩
    refine ⟨h2, by rw [BaseTree.length, h1, hl], by rw [h4, rowCount_pow hf], f, g1, fun i hi => ?_, ?_⟩
    · show readAt fs t.store i = _
      rw [h1, g2 i hi]
    · have := nodes_pos b k
      rw [hl, g2 _ (by omega)] at h5
      exact (Except.ok.inj h5).symm

end

section examples
attribute [local instance] idealRows

/-- **C67**: nothing in the store is checked.  Three elements whose last is not the hash of the first
two are taken for a tree; it is the tree of no leaves. -/
theorem C67_contents_refuted : ∃ (s : VecStore UInt8) (t : BaseTree (VecStore UInt8) UInt8),
    BaseTree.fromDataStore 2 0 0 s 2 FS.empty = .ok t ∧
      ∀ leaves, ¬ t.IsTreeOf toyAlg 2 1 leaves FS.empty := by
  refine ⟨⟨[1, 2, 3]⟩, ⟨⟨[1, 2, 3]⟩, 2, 3, 2, 3⟩, rfl, fun leaves h => ?_⟩
  obtain ⟨f, h1, h2, h3⟩ := h.nodes
  have e0 : f 0 = 1 := (Except.ok.inj (h2 0 (by decide))).symm
  have e1 : f 1 = 2 := (Except.ok.inj (h2 1 (by decide))).symm
  have e2 : f 2 = 3 := (Except.ok.inj (h2 2 (by decide))).symm
  have h := h1.step 0 0 (by decide) (by decide)
  rw [show rowStart 2 1 (0 + 1) + 0 = 2 from rfl, show (List.range 2).map
    (fun c => f (rowStart 2 1 0 + (2 * 0 + c))) = [f 0, f 1] from rfl, e0, e1, e2] at h
  exact absurd h (by decide)

example : BaseTree.fromDataStore (S := VecStore UInt8) (E := UInt8) 2 0 0 ⟨[1, 2, 3]⟩ 2 FS.empty
    = .ok ⟨⟨[1, 2, 3]⟩, 2, 3, 2, 3⟩ := rfl
example : WholeTree 2 0 0 2 3 := ⟨rfl, rfl, ⟨1, by omega, rfl⟩, 1, by omega, rfl, rfl⟩
example : ¬ WholeTree 2 0 0 2 4 := by
  rintro ⟨_, _, _, k, _, h1, h2⟩
  have : k = 1 := (Nat.pow_right_injective (Nat.le_refl 2) h1).symm
  subst this
  revert h2; decide

end examples
end Verif
