import Verif.Lemmas.Construct
/-!
Every constructor of a base tree, on `b ^ k` leaves, produces the Merkle tree of these leaves.
-/
set_option linter.unusedSectionVars false
namespace Verif
open Spec StoreOps LawfulWrite

section
variable {S E : Type} [Element E] [LawfulElement E] [Store S E] [LawfulStore S E]

/-- `t` is the Merkle tree over the leaves `leaf 0, ..., leaf (b ^ k - 1)` and its store holds it. -/
structure BaseTree.IsMerkle (A : Alg E) (b k : Nat) (leaf : Nat → E) (fs : FS) (t : BaseTree S E) :
    Prop where
  leafs : t.leafs = b ^ k
  len : t.len = nodes b k
  rows : t.rowCount = k + 1
  root : t.root = Spec.root A.nodeHash b k leaf
  filled : Filled fs t.store (nodes b k) (nodes b k) (flat A.nodeHash b k leaf)

/-- The leaf hashes of a list of items, as a function. -/
def hashedLeaves (A : Alg E) (items : List E) (i : Nat) : E := A.leafHash (items.getD i Element.default)

theorem hashedLeaves_eq (A : Alg E) (items : List E) :
    (fun i => (items.map A.leafHash).getD i (A.leafHash Element.default)) = hashedLeaves A items := by
  funext i
  simp only [hashedLeaves, List.getD_eq_getElem?_getD, List.getElem?_map]
  cases items[i]? <;> rfl

theorem Fresh.sameOutside {own P : FileId → Prop} {fs fs1 fs2 : FS} (h : Fresh own P fs fs1)
    (h2 : SameOutside own fs1 fs2) : Fresh own P fs fs2 :=
  ⟨fun f hf => (h2.1 f hf).trans (h.same f hf), h.own, by rw [h2.2]; exact h.temp⟩

theorem NewTemp.congr {fs fs1 fs2 : FS} (h : fs2.nextTemp = fs1.nextTemp) :
    NewTemp fs fs2 = NewTemp fs fs1 := by
  funext f; simp [NewTemp, h]

namespace BaseTree
variable [FloatRows]

theorem sizes_ok {b k : Nat} (hb : Arity b) (hk : 1 ≤ k) (hf : FloatRows.ExactAt b k) :
    sizes b (b ^ k) = .ok (nodes b k, k + 1) := by
  have hp : 1 < b ^ k := Nat.one_lt_pow (by omega) hb.two_le
  unfold sizes
  rw [ensure_true hp, Res.ok_bind,
    ensure_true ((eq_nextPow2_iff _).2 (hb.pow_isPow2 k)).symm, Res.ok_bind,
    ensure_true ((eq_nextPow2_iff _).2 hb.pow2).symm, Res.ok_bind, merkleTreeLen_pow hb hk,
    Res.ok_bind, rowCount_pow hf]

/-- The last steps of every constructor: build and assemble. -/
theorem finish_ok {A : Alg E} {b k : Nat} (hb : Arity b) (hb' : b ≤ buildChunkNodes) (hk : 1 ≤ k)
    {σ : Sched} (hσ : σ.Valid) {leaf : Nat → E} {s : S} {fs : FS}
    (hs : Filled fs s (nodes b k) (b ^ k) leaf) (cfg : Option StoreConfig) :
    ∃ (t : BaseTree S E) (fs' : FS), (do
        let (root, s) ← Store.build A b σ s (b ^ k) (k + 1) cfg
        pure (⟨s, b ^ k, nodes b k, k + 1, root⟩ : BaseTree S E) : M (BaseTree S E)) fs = (.ok t, fs') ∧
      t.IsMerkle A b k leaf fs' ∧ SameOutside (owns s) fs fs' ∧ owns t.store = owns s := by
  obtain ⟨s', fs', h1, h2, h3, h4⟩ := LawfulStore.build_ok (A := A) hb hb' hk leaf (Nat.le_refl _) hσ hs cfg
  refine ⟨⟨s', b ^ k, nodes b k, k + 1, _⟩, fs', ?_, ⟨rfl, rfl, rfl, rfl, h2⟩, h3, h4⟩
  rw [M.bind_ok h1]
  rfl

theorem M.expect_ok {α : Type} {x : M α} {fs fs' : FS} {a : α} (msg : String)
    (h : x fs = (.ok a, fs')) : M.expect msg x fs = (.ok a, fs') := by
  unfold M.expect
  rw [h]

variable {A : Alg E} (hA : A.LawfulReset) {b k : Nat} (hb : Arity b) (hb' : b ≤ buildChunkNodes)
  (hk : 1 ≤ k) (hf : FloatRows.ExactAt b k) {σ : Sched} (hσ : σ.Valid)
include hA hb hb' hk hf hσ

theorem tryFromIter_ok {items : List E} (hn : items.length = b ^ k) (fs : FS) :
    ∃ (t : BaseTree S E) (fs' : FS),
      tryFromIter A b σ (some items.length) (items.map .ok) fs = (.ok t, fs') ∧
      t.IsMerkle A b k (hashedLeaves A items) fs' ∧
      Fresh (owns t.store) (NewTemp fs fs') fs fs' := by
  obtain ⟨s, fs1, h1, h2, h3, h4, h5⟩ := LawfulStore.new_ok (S := S) fs (nodes b k)
  obtain ⟨s2, fs2, g1, g2, g3, g4, g5⟩ := populateData_ok hA items (A.leafHash Element.default)
    (hn ▸ pow_le_nodes b k) h2 ((LawfulStore.isEmpty_iff s).2 h3) h3
  rw [hashedLeaves_eq, hn] at g2
  obtain ⟨t, fs3, r1, r2, r3, r4⟩ := finish_ok (A := A) hb hb' hk hσ g2 none
  have hr := h5.sameOutside (g3.trans (g4 ▸ r3))
  refine ⟨t, fs3, ?_, r2, ?_⟩
  · unfold tryFromIter
    dsimp only
    rw [M.bind_ok (a := (nodes b k, k + 1)) (fs' := fs) (by rw [M.ofRes_run, hn, sizes_ok hb hk hf])]
    dsimp only
    rw [M.bind_ok h1, M.bind_ok g1, hn]
    exact r1
  · rw [r4, g4, NewTemp.congr (fs1 := fs1) (r3.2.trans g3.2)]
    exact hr

theorem tryFromIterWithConfig_ok {items : List E} (hn : items.length = b ^ k) {fs : FS}
    {c : StoreConfig} (hc : fs.file c.file = none) :
    ∃ (t : BaseTree S E) (fs' : FS),
      tryFromIterWithConfig A b σ (some items.length) (items.map .ok) c fs = (.ok t, fs') ∧
      t.IsMerkle A b k (hashedLeaves A items) fs' ∧
      Fresh (owns t.store) (fun f => f = c.file) fs fs' := by
  obtain ⟨s, fs1, h1, h2, h3, h4, h5⟩ := LawfulStore.newWithConfig_ok (S := S) fs (nodes b k) b c hc
  obtain ⟨s2, fs2, g1, g2, g3, g4, g5⟩ := populateData_ok hA items (A.leafHash Element.default)
    (hn ▸ pow_le_nodes b k) h2 ((LawfulStore.isEmpty_iff s).2 h3) h3
  rw [hashedLeaves_eq, hn] at g2
  obtain ⟨t, fs3, r1, r2, r3, r4⟩ := finish_ok (A := A) hb hb' hk hσ g2 (some c)
  have hr := h5.sameOutside (g3.trans (g4 ▸ r3))
  refine ⟨t, fs3, ?_, r2, ?_⟩
  · unfold tryFromIterWithConfig
    dsimp only
    rw [M.bind_ok (a := (nodes b k, k + 1)) (fs' := fs) (by rw [M.ofRes_run, hn, sizes_ok hb hk hf])]
    dsimp only
    rw [M.bind_ok h1, h4]
    simp only [Bool.false_eq_true, ↓reduceIte]
    rw [M.bind_ok (M.expect_ok _ g1), hn]
    exact r1
  · rw [r4, g4]
    exact hr

theorem fromParIter_ok {π : ParOrder} (hπ : π.Valid) {items : List E} (hn : items.length = b ^ k)
    (fs : FS) :
    ∃ (t : BaseTree S E) (fs' : FS),
      fromParIter A b σ π items fs = (.ok t, fs') ∧
      t.IsMerkle A b k (hashedLeaves A items) fs' ∧
      Fresh (owns t.store) (NewTemp fs fs') fs fs' := by
  obtain ⟨s, fs1, h1, h2, h3, h4, h5⟩ := LawfulStore.new_ok (S := S) fs (nodes b k)
  obtain ⟨s2, fs2, g1, g2, g3, g4, g5⟩ := populateDataPar_ok hA items (A.leafHash Element.default)
    (hn ▸ pow_le_nodes b k) hπ h2 ((LawfulStore.isEmpty_iff s).2 h3) h3
  rw [hashedLeaves_eq, hn] at g2
  obtain ⟨t, fs3, r1, r2, r3, r4⟩ := finish_ok (A := A) hb hb' hk hσ g2 none
  have hr := h5.sameOutside (g3.trans (g4 ▸ r3))
  refine ⟨t, fs3, ?_, r2, ?_⟩
  · unfold fromParIter
    dsimp only
    rw [M.bind_ok (a := (nodes b k, k + 1)) (fs' := fs) (by rw [M.ofRes_run, hn, sizes_ok hb hk hf])]
    dsimp only
    rw [M.bind_ok (M.expect_ok _ h1), M.bind_ok g1, hn]
    exact r1
  · rw [r4, g4, NewTemp.congr (fs1 := fs1) (r3.2.trans g3.2)]
    exact hr

theorem fromParIterWithConfig_ok {π : ParOrder} (hπ : π.Valid) {items : List E}
    (hn : items.length = b ^ k) {fs : FS} {c : StoreConfig} (hc : fs.file c.file = none) :
    ∃ (t : BaseTree S E) (fs' : FS),
      fromParIterWithConfig A b σ π items c fs = (.ok t, fs') ∧
      t.IsMerkle A b k (hashedLeaves A items) fs' ∧
      Fresh (owns t.store) (fun f => f = c.file) fs fs' := by
  obtain ⟨s, fs1, h1, h2, h3, h4, h5⟩ := LawfulStore.newWithConfig_ok (S := S) fs (nodes b k) b c hc
  obtain ⟨s2, fs2, g1, g2, g3, g4, g5⟩ := populateDataPar_ok hA items (A.leafHash Element.default)
    (hn ▸ pow_le_nodes b k) hπ h2 ((LawfulStore.isEmpty_iff s).2 h3) h3
  rw [hashedLeaves_eq, hn] at g2
  obtain ⟨t, fs3, r1, r2, r3, r4⟩ := finish_ok (A := A) hb hb' hk hσ g2 (some c)
  have hr := h5.sameOutside (g3.trans (g4 ▸ r3))
  refine ⟨t, fs3, ?_, r2, ?_⟩
  · unfold fromParIterWithConfig
    dsimp only
    rw [M.bind_ok (a := (nodes b k, k + 1)) (fs' := fs) (by rw [M.ofRes_run, hn, sizes_ok hb hk hf])]
    dsimp only
    rw [M.bind_ok h1, h4]
    simp only [Bool.false_eq_true, ↓reduceIte]
    rw [M.bind_ok g1, hn]
    exact r1
  · rw [r4, g4]
    exact hr

omit hA in
theorem fromByteSlice_ok {es : List E} (d : E) (hn : es.length = b ^ k) (fs : FS) :
    ∃ (t : BaseTree S E) (fs' : FS),
      fromByteSlice A b σ (encodeAll es) fs = (.ok t, fs') ∧
      t.IsMerkle A b k (fun i => es.getD i d) fs' ∧
      Fresh (owns t.store) (NewTemp fs fs') fs fs' := by
  obtain ⟨s, fs1, h1, h2, h3⟩ := LawfulStore.newFromSlice_ok (S := S) fs (nodes b k) es d
    (hn ▸ pow_le_nodes b k)
  rw [hn] at h2
  obtain ⟨t, fs3, r1, r2, r3, r4⟩ := finish_ok (A := A) hb hb' hk hσ h2 none
  refine ⟨t, fs3, ?_, r2, ?_⟩
  · unfold fromByteSlice
    rw [M.bind_ok (a := b ^ k) (fs' := fs) (by
      unfold sliceLeafs
      rw [M.ofRes_run, modP_encodeAll, Res.ok_bind, ensure_true rfl, Res.ok_bind, div_encodeAll, hn])]
    rw [M.bind_ok (a := (nodes b k, k + 1)) (fs' := fs) (by rw [M.ofRes_run, sizes_ok hb hk hf])]
    dsimp only
    rw [M.bind_ok h1]
    exact r1
  · rw [r4, NewTemp.congr (fs1 := fs1) r3.2]
    exact h3.sameOutside r3

omit hA in
theorem fromByteSliceWithConfig_ok {es : List E} (d : E) (hn : es.length = b ^ k) {fs : FS}
    {c : StoreConfig} (hc : fs.file c.file = none) :
    ∃ (t : BaseTree S E) (fs' : FS),
      fromByteSliceWithConfig A b σ (encodeAll es) c fs = (.ok t, fs') ∧
      t.IsMerkle A b k (fun i => es.getD i d) fs' ∧
      Fresh (owns t.store) (fun f => f = c.file) fs fs' := by
  obtain ⟨s, fs1, h1, h2, h3⟩ := LawfulStore.newFromSliceWithConfig_ok (S := S) fs (nodes b k) b es d
    c hc (hn ▸ pow_le_nodes b k)
  rw [hn] at h2
  obtain ⟨t, fs3, r1, r2, r3, r4⟩ := finish_ok (A := A) hb hb' hk hσ h2 (some c)
  refine ⟨t, fs3, ?_, r2, ?_⟩
  · unfold fromByteSliceWithConfig
    rw [M.bind_ok (a := b ^ k) (fs' := fs) (by
      unfold sliceLeafs
      rw [M.ofRes_run, modP_encodeAll, Res.ok_bind, ensure_true rfl, Res.ok_bind, div_encodeAll, hn])]
    rw [M.bind_ok (a := (nodes b k, k + 1)) (fs' := fs) (by rw [M.ofRes_run, sizes_ok hb hk hf])]
    dsimp only
    rw [M.bind_ok h1]
    exact r1
  · rw [r4]
    exact h3.sameOutside r3

omit hA hb hb' hk hf hσ in
theorem dataItems_eq {A : Alg E} (hA : A.LawfulReset) : ∀ (data : List (HashableVal A)) (a : A.σ),
    dataItems A data a = data.map fun x => (A.hash (x A.init)).1
  | [], _ => rfl
  | x :: xs, a => by
    show (A.hash (x (A.reset a))).1 :: dataItems A xs (A.hash (x (A.reset a))).2 = _
    rw [dataItems_eq hA xs, hA]; rfl

end BaseTree
end
end Verif
