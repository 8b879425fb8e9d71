import Verif.Lemmas.Compound
import Verif.Props.Construct
/-
C14, C15, C16 (second part), C20, C21: proofs generated from base trees (src/merkle.rs:928-998,
src/proof.rs).  The compound trees are in Verif/Props/Compound.lean.
-/
namespace Verif
open Spec

set_option linter.unusedSectionVars false

section
variable {E : Type} [Element E]

/-! ### C14 -/

section
variable {S : Type} [StoreOps S E]

/-- C14.  Let `t` be the Merkle tree of `leaves`.  For every leaf index `gen_proof` succeeds; the
proof's item is that leaf, its root is the tree's, its path is the index in base `b` (least
significant digit first); and it validates, for every algorithm that ignores the height (see C20),
and for every algorithm if the tree is binary. -/
theorem C14_proof_complete [DecidableEq E] {A : Alg E} {b k : Nat} (hb : Arity b) (hk : 1 ≤ k)
    {leaves : List E} {fs : FS} {t : BaseTree S E} (ht : t.IsTreeOf A b k leaves fs)
    {i : Nat} (hi : i < leaves.length) :
    ∃ p, t.genProof b 0 0 fs i = .ok p ∧ p.item = .ok leaves[i] ∧ p.root = .ok t.root ∧
      p.path = digits b k i ∧
      (A.LawfulReset → A.HeightsAgree b → p.validate A b = .ok true) := by
  obtain ⟨f, hf, hr⟩ := ht.exists_reads
  have hi' : i < b ^ k := hf.count ▸ hi
  refine ⟨_, BaseTree.genProof_eq hb hk hr hi', ?_, ?_, rfl, fun hA hh =>
    honest_validates hA hb.two_le hh hf hi'⟩
  · rw [← hf.leaf i hi]; rfl
  · rw [hr.root]; exact Proof.root_split ..

end

section
variable [LawfulElement E] [FloatRows] {S : Type} [Store S E] [RejectingStore S E] [NoArityOne S E]

/-- C14 for the tree any constructor returns, whatever the store that keeps all nodes. -/
theorem C14_built [DecidableEq E] {A : Alg E} (hA : A.LawfulReset) {b : Nat} {σ : Sched}
    (hσ : σ.Valid) {src : Source A} (hs : src.Valid)
    (hf : FloatRows.FloorAt b src.leaves.length) {cfg : Option StoreConfig} {fs fs' : FS}
    {t : BaseTree S E} (hc : ∀ c ∈ cfg, fs.file c.file = none)
    (h : src.build b σ cfg fs = (.ok t, fs')) {i : Nat} (hi : i < src.leaves.length) :
    ∃ p k, src.leaves.length = b ^ k ∧ t.genProof b 0 0 fs' i = .ok p ∧
      p.item = .ok src.leaves[i] ∧ p.root = .ok t.root ∧ p.path = digits b k i ∧
      (A.HeightsAgree b → p.validate A b = .ok true) := by
  obtain ⟨hb, _, k, d, hk, _, hn, hm, _⟩ := Source.build_sound hA hσ hs hf hc h
  obtain ⟨p, h1, h2, h3, h4, h5⟩ := C14_proof_complete hb hk (hm.isTreeOf hn) hi
  exact ⟨p, k, hn, h1, h2, h3, h4, h5 hA⟩

end

/-- C14 for `VecStore`. -/
theorem C14_vec [LawfulElement E] [FloatRows] [DecidableEq E] {A : Alg E} (hA : A.LawfulReset)
    {b : Nat} {σ : Sched} (hσ : σ.Valid) {src : Source A} (hs : src.Valid)
    (hf : FloatRows.FloorAt b src.leaves.length) {cfg : Option StoreConfig} {fs fs' : FS}
    {t : BaseTree (VecStore E) E} (hc : ∀ c ∈ cfg, fs.file c.file = none)
    (h : src.build b σ cfg fs = (.ok t, fs')) {i : Nat} (hi : i < src.leaves.length) :
    ∃ p k, src.leaves.length = b ^ k ∧ t.genProof b 0 0 fs' i = .ok p ∧
      p.item = .ok src.leaves[i] ∧ p.root = .ok t.root ∧ p.path = digits b k i ∧
      (A.HeightsAgree b → p.validate A b = .ok true) := C14_built hA hσ hs hf hc h hi

/-- C14 for `DiskStore`. -/
theorem C14_disk [LawfulElement E] [FloatRows] [DecidableEq E] {A : Alg E} (hA : A.LawfulReset)
    {b : Nat} {σ : Sched} (hσ : σ.Valid) {src : Source A} (hs : src.Valid)
    (hf : FloatRows.FloorAt b src.leaves.length) {cfg : Option StoreConfig} {fs fs' : FS}
    {t : BaseTree (DiskStore E) E} (hc : ∀ c ∈ cfg, fs.file c.file = none)
    (h : src.build b σ cfg fs = (.ok t, fs')) {i : Nat} (hi : i < src.leaves.length) :
    ∃ p k, src.leaves.length = b ^ k ∧ t.genProof b 0 0 fs' i = .ok p ∧
      p.item = .ok src.leaves[i] ∧ p.root = .ok t.root ∧ p.path = digits b k i ∧
      (A.HeightsAgree b → p.validate A b = .ok true) := C14_built hA hσ hs hf hc h hi

/-- C14 for `MmapStore`. -/
theorem C14_mmap [LawfulElement E] [FloatRows] [DecidableEq E] {A : Alg E} (hA : A.LawfulReset)
    {b : Nat} {σ : Sched} (hσ : σ.Valid) {src : Source A} (hs : src.Valid)
    (hf : FloatRows.FloorAt b src.leaves.length) {cfg : Option StoreConfig} {fs fs' : FS}
    {t : BaseTree (MmapStore E) E} (hc : ∀ c ∈ cfg, fs.file c.file = none)
    (h : src.build b σ cfg fs = (.ok t, fs')) {i : Nat} (hi : i < src.leaves.length) :
    ∃ p k, src.leaves.length = b ^ k ∧ t.genProof b 0 0 fs' i = .ok p ∧
      p.item = .ok src.leaves[i] ∧ p.root = .ok t.root ∧ p.path = digits b k i ∧
      (A.HeightsAgree b → p.validate A b = .ok true) := C14_built hA hσ hs hf hc h hi

/-! ### C15 -/

section
variable {S : Type} [StoreOps S E]

/-- C15 for `gen_proof` of base trees: an index past the leaves gives `Err`, for any tree. -/
theorem C15_base (b sub top : Nat) (fs : FS) (t : BaseTree S E) {i : Nat} (hi : t.leafs ≤ i) :
    Res.IsErr (t.genProof b sub top fs i) := by
  unfold BaseTree.genProof
  rw [ensure_false (by omega)]
  exact ⟨_, rfl⟩

/-- C15 for `gen_cached_proof`, base and compound: an index past the leaves gives `Err`, for any
tree. -/
theorem C15_cached [FloatRows] (A : Alg E) (b sub top : Nat) (σ : Sched) (t : Tree2 S E) {i : Nat}
    (hi : t.leafs ≤ i) (rows : Option Nat) (fs : FS) :
    Res.IsErr (t.genCachedProof A b sub top σ i rows fs).1 := by
  have hl : ∀ {C : Type} (leafsOf : C → Nat) (rootOf : C → E) (gen : C → Nat → M (Proof E))
      (pTop pSub arity : Nat) (t : Node C E), t.leafs ≤ i →
      Res.IsErr (t.genCachedLayerProof leafsOf rootOf gen b pTop pSub arity i fs).1 := by
    intro C leafsOf rootOf gen pTop pSub arity t hi
    unfold Node.genCachedLayerProof
    by_cases ha : arity ≠ 0
    · rw [M.bind_ok (mEnsure_true ha _ _), M.bind_error (mEnsure_false (by omega) _ _)]
      exact ⟨_, rfl⟩
    · rw [M.bind_error (mEnsure_false ha _ _)]
      exact ⟨_, rfl⟩
  cases t with
  | base t =>
    simp only [Tree2.genCachedProof, BaseTree.genCachedProof]
    rw [M.bind_error (mEnsure_false (by simpa [Tree2.leafs] using hi) _ _)]
    exact ⟨_, rfl⟩
  | sub t => exact hl _ _ _ _ _ _ t hi
  | top t => exact hl _ _ _ _ _ _ t hi

/-- C15 for `gen_proof` of compound trees, the part that holds: an index past the leaves never gives a
proof. -/
theorem C15_compound_partial (b sub top : Nat) (fs : FS) (t : Tree2 S E) {i : Nat}
    (hi : t.leafs ≤ i) (p : Proof E) : t.genProof b sub top fs i ≠ .ok p := by
  have hl : ∀ {C : Type} (leafsOf : C → Nat) (rootOf : C → E) (gen : C → Nat → Res (Proof E))
      (pTop pSub arity : Nat) (t : Node C E), t.leafs ≤ i →
      t.genSubTreeProof leafsOf rootOf gen b pTop pSub arity i ≠ .ok p := by
    intro C leafsOf rootOf gen pTop pSub arity t hi h
    unfold Node.genSubTreeProof at h
    simp only [bind_ok_iff, ensure_ok_iff, exists_const] at h
    obtain ⟨ha, per, h1, ti, h2, h3, c, h4, -⟩ := h
    have h5 : ti < t.children.length := by
      by_contra hc
      simp [idxP, List.getElem?_eq_none (by omega : t.children.length ≤ ti)] at h4
    unfold divP at h1 h2
    rw [if_neg ha] at h1
    split at h2
    · simp at h2
    · rename_i hp
      simp only [Except.ok.injEq] at h1 h2
      have : per * arity ≤ i := by
        rw [← h1]; exact le_trans (Nat.div_mul_le_self _ _) hi
      have : arity ≤ ti := by
        rw [← h2, Nat.le_div_iff_mul_le (by omega), Nat.mul_comm]; exact this
      omega
  cases t with
  | base t =>
    intro h
    obtain ⟨m, hm⟩ := C15_base b sub top fs t (i := i) hi
    simp only [Tree2.genProof] at h
    rw [hm] at h
    simp at h
  | sub t => exact hl _ _ _ _ _ _ t hi
  | top t => exact hl _ _ _ _ _ _ t hi

/-- C15 is false for `gen_proof` of compound trees: on every tree made by `from_trees`, every index
past the leaves panics. -/
theorem C15_compound_refuted {A : Alg E} {sub : Nat} {cs : List (BaseTree S E)}
    {t : Node (BaseTree S E) E} (ht : fromTrees A sub cs = .ok t) (b : Nat) (fs : FS) {i : Nat}
    (hi : t.leafs ≤ i) : ∃ m, (Tree1.sub t).genProof b sub fs i = .error (.panic m) := by
  obtain ⟨c0, h0, h1, -, -, rfl⟩ := Node.assemble_ok_iff.1 ht
  have ha : 0 < sub := by
    cases cs with
    | nil => simp at h0
    | cons c cs => simp at h1; omega
  simp only [Tree1.genProof, Node.genSubTreeProof] at hi ⊢
  generalize (cs.map BaseTree.leafs).sum = n at hi
  rw [ensure_true (by omega), Res.ok_bind, divP_ok ha, Res.ok_bind]
  by_cases hp : n / sub = 0
  · exact ⟨"attempt to divide by zero", by simp [divP, hp]⟩
  · rw [divP_ok (Nat.pos_of_ne_zero hp), Res.ok_bind, ensure_true h1.symm, Res.ok_bind]
    have : cs.length ≤ i / (n / sub) := by
      rw [h1, Nat.le_div_iff_mul_le (Nat.pos_of_ne_zero hp), Nat.mul_comm]
      exact le_trans (Nat.div_mul_le_self _ _) hi
    exact ⟨"index out of bounds", by simp [idxP, List.getElem?_eq_none this]⟩

end

/-! ### C16, for the root of a built tree -/

/-- C16.  A base proof for position `i` (its path is `i` in base `b`) that validates and has the root
of the Merkle tree of `leaves` has leaf `i` as its item, and indeed is the proof `gen_proof` gives;
or its transcript collides with that of the honest proof. -/
theorem C16_built_tree [DecidableEq E] {S : Type} [StoreOps S E] {A : Alg E} (hA : A.LawfulReset)
    {b k : Nat} (hb : Arity b) (hk : 1 ≤ k) (hh : A.HeightsAgree b) {leaves : List E} {fs : FS}
    {t : BaseTree S E} (ht : t.IsTreeOf A b k leaves fs) {i : Nat} (hi : i < leaves.length)
    {l : List E} {p : Proof E} (hp : Proof.new b 0 0 none l (digits b k i) = .ok p)
    (hv : p.validate A b = .ok true) (hr : p.root = .ok t.root) :
    (p.item = .ok leaves[i] ∧ t.genProof b 0 0 fs i = .ok p) ∨
      ∃ q, t.genProof b 0 0 fs i = .ok q ∧
        Collision A.nodeHash (baseTranscript A.nodeHash b p.lem p.path)
          (baseTranscript A.nodeHash b q.lem q.path) := by
  obtain ⟨f, hf, hrd⟩ := ht.exists_reads
  have hi' : i < b ^ k := hf.count ▸ hi
  have hg := BaseTree.genProof_eq hb hk hrd hi'
  have hroot : (honestProof f b k i).root = .ok t.root := by
    rw [hrd.root]; exact Proof.root_split ..
  obtain ⟨_, _, _, hp'⟩ := Proof.new_base_ok hp
  rcases C16_aux A hA b _ _ _ p (honestProof f b k i) hp (honest_new f hb.two_le hk i) hv
    (honest_validates hA hb.two_le hh hf hi') (hr.trans hroot.symm) with h | h
  · left
    refine ⟨h.2.trans ?_, ?_⟩
    · rw [← hf.leaf i hi]; rfl
    · rw [hg, hp', h.1]; rfl
  · right
    refine ⟨_, hg, ?_⟩
    rw [hp']; exact h

/-! ### C20 -/

/-- C20, the part that holds: binary base trees, for every algorithm (with a lawful `reset`). -/
theorem C20_binary_partial [DecidableEq E] {S : Type} [StoreOps S E] {A : Alg E}
    (hA : A.LawfulReset) {k : Nat} (hk : 1 ≤ k) {leaves : List E} {fs : FS} {t : BaseTree S E}
    (ht : t.IsTreeOf A 2 k leaves fs) {i : Nat} (hi : i < leaves.length) :
    ∃ p, t.genProof 2 0 0 fs i = .ok p ∧ p.validate A 2 = .ok true := by
  obtain ⟨p, h1, _, _, _, h2⟩ := C14_proof_complete ⟨1, by decide, rfl⟩ hk ht hi
  exact ⟨p, h1, h2 hA (.inr rfl)⟩

/-! ### C21 -/

/-- C21, second half: `validate_with_data` is false whenever the leaf hash of the data differs from
the proof's item; for every proof that has an item. -/
theorem C21_other_data [DecidableEq E] {A : Alg E} (hA : A.LawfulReset) (b : Nat) {p : Proof E}
    {x : E} (hx : p.item = .ok x) (d : HashableVal A)
    (hd : A.leafHash (A.hash (d A.init)).1 ≠ x) : p.validateWithData A b d = .ok false := by
  unfold Proof.validateWithData
  simp only [hA _, hx, Res.ok_bind]
  exact if_neg hd

/-- C21, first half: on a proof generated from a tree that `from_data` returned, the datum itself
validates. -/
theorem C21_own_data [LawfulElement E] [FloatRows] [DecidableEq E] {S : Type} [Store S E]
    [RejectingStore S E] [NoArityOne S E] {A : Alg E} (hA : A.LawfulReset) {b : Nat}
    (hh : A.HeightsAgree b) {σ : Sched} (hσ : σ.Valid) {ds : List (HashableVal A)}
    (hf : FloatRows.FloorAt b ds.length) {fs fs' : FS} {t : BaseTree S E}
    (h : BaseTree.fromData A b σ ds fs = (.ok t, fs')) {i : Nat} (hi : i < ds.length) :
    ∃ p, t.genProof b 0 0 fs' i = .ok p ∧ p.validateWithData A b ds[i] = .ok true := by
  obtain ⟨p, k, _, h1, h2, _, _, h3⟩ := C14_built (src := Source.data ds) (cfg := none) hA hσ trivial
    (by simpa [Source.leaves] using hf) (by simp) h (i := i) (by simpa [Source.leaves] using hi)
  refine ⟨p, h1, ?_⟩
  unfold Proof.validateWithData
  simp only [hA _, h2, Res.ok_bind]
  exact (if_pos (by simp [Source.leaves, Alg.leafHash])).trans (h3 hh)

end

/-! ### Where C20 and C21 fail, and the hypotheses can be met -/
section examples
local instance : FloatRows := idealRows

/-- Sixteen items. -/
def sixteen : List UInt8 := (List.range 16).map UInt8.ofNat

/-- C20 is false for arity 4: with an algorithm whose `multi_node` uses the height, `new` builds a tree
whose own proof for leaf 0 does not validate (row 1 is hashed with height 1 by `build` and with height
3 by `validate`). -/
theorem C20_quad_refuted : ∃ (t : BaseTree (VecStore UInt8) UInt8) (p : Proof UInt8),
    BaseTree.new toyAlgH 4 Sched.sequential sixteen FS.empty = (.ok t, FS.empty) ∧
      t.genProof 4 0 0 FS.empty 0 = .ok p ∧ p.validate toyAlgH 4 = .ok false :=
  ⟨_, _, rfl, rfl, rfl⟩

/-- C20 is false for compound trees, whatever the base arity: `from_trees` hashes the sub-roots with
height 1, `validate` with height 0. -/
theorem C20_compound_refuted : ∃ (t : BaseTree (VecStore UInt8) UInt8)
    (n : Node (BaseTree (VecStore UInt8) UInt8) UInt8) (p : Proof UInt8),
    BaseTree.new toyAlgH 2 Sched.sequential [1, 2, 3, 4] FS.empty = (.ok t, FS.empty) ∧
      fromTrees toyAlgH 2 [t, t] = .ok n ∧ (Tree1.sub n).genProof 2 2 FS.empty 0 = .ok p ∧
      p.validate toyAlgH 2 = .ok false :=
  ⟨_, _, _, rfl, rfl, rfl, rfl⟩

/-- Outside C21 (which is about trees made by `from_data`): on a compound proof `validate_with_data`
looks at the first entry of the outer lemma, which is the root of a sibling sub-tree, so the datum
that was proved is not accepted although the proof validates. -/
theorem C21_compound_own_data_false : ∃ (d : HashableVal toyAlg) (t : BaseTree (VecStore UInt8) UInt8)
    (n : Node (BaseTree (VecStore UInt8) UInt8) UInt8) (p : Proof UInt8),
    BaseTree.fromData toyAlg 2 Sched.sequential [d, d] FS.empty = (.ok t, FS.empty) ∧
      fromTrees toyAlg 2 [t, t] = .ok n ∧ (Tree1.sub n).genProof 2 2 FS.empty 0 = .ok p ∧
      p.validate toyAlg 2 = .ok true ∧ p.validateWithData toyAlg 2 d = .ok false :=
  ⟨fun s => toyAlg.write s [3], _, _, _, rfl, rfl, rfl, rfl, rfl⟩

-- C14, C16: a tree of sixteen leaves, and the proof of leaf 7.
example : ∃ (t : BaseTree (VecStore UInt8) UInt8) (p : Proof UInt8),
    BaseTree.new toyAlg 4 Sched.sequential sixteen FS.empty = (.ok t, FS.empty) ∧
      t.genProof 4 0 0 FS.empty 7 = .ok p ∧ p.path = [3, 1] ∧ p.item = .ok (toyAlg.leafHash 7) ∧
      p.validate toyAlg 4 = .ok true :=
  ⟨_, _, rfl, rfl, rfl, rfl, rfl⟩
example : ∃ p, Proof.new 4 0 0 none ([1, 2, 3, 4] ++ [5, 6, 7] ++ [9]) (digits 4 2 7)
    = .ok (p : Proof UInt8) := ⟨_, rfl⟩
example : ∃ (t : BaseTree (VecStore UInt8) UInt8) (k : Nat), 1 ≤ k ∧
    t.IsTreeOf toyAlg 4 k exampleSource.leaves FS.empty := by
  obtain ⟨k, hk, ht⟩ := C08_vec (A := toyAlg) (src := exampleSource) (cfg := none) (fs := FS.empty)
    toyAlg_reset (b := 4) Sched.sequential_valid trivial
    (idealRows_floor (by decide) (by decide)) (by simp) (by rfl)
  exact ⟨_, k, hk, ht⟩
example : toyAlg.HeightsAgree 4 := .inl toyAlg_height
-- C15: leaf 16 of sixteen.
example : ∃ t : BaseTree (VecStore UInt8) UInt8,
    BaseTree.new toyAlg 4 Sched.sequential sixteen FS.empty = (.ok t, FS.empty) ∧ t.leafs ≤ 16 ∧
      ∃ n, fromTrees toyAlg 2 [t, t] = .ok n ∧ n.leafs ≤ 32 :=
  ⟨_, rfl, by decide, _, rfl, by decide⟩
-- C21: data.
example : ∃ (d : HashableVal toyAlg) (t : BaseTree (VecStore UInt8) UInt8) (p : Proof UInt8),
    BaseTree.fromData toyAlg 2 Sched.sequential [d, d] FS.empty = (.ok t, FS.empty) ∧
      t.genProof 2 0 0 FS.empty 1 = .ok p ∧ p.validateWithData toyAlg 2 d = .ok true ∧
      p.validateWithData toyAlg 2 (fun s => toyAlg.write s [4]) = .ok false :=
  ⟨fun s => toyAlg.write s [3], _, _, rfl, rfl, rfl, rfl⟩

end examples
end Verif
