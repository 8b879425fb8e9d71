import Verif.Lemmas.Iterators
/-!
Constructors of base trees over `LevelCacheStore`.
-/
set_option linter.unusedSectionVars false
namespace Verif
open Spec StoreOps

theorem bytes_of_slots {E : Type} [Element E] : ∀ (m : Nat) (g : Nat → E) (bs : Bytes),
    bs.length = m * Element.byteLen E →
    (∀ i, i < m → region bs (i * Element.byteLen E) (Element.byteLen E) = Element.toBytes (g i)) →
    bs = encodeAll ((List.range m).map g)
  | 0, g, bs, hl, _ => by
    simp at hl; subst hl; rfl
  | m + 1, g, bs, hl, h => by
    rw [List.range_succ, List.map_append, encodeAll_append,
      ← bytes_of_slots m g (bs.take (m * Element.byteLen E)) (by
        rw [List.length_take, hl, Nat.add_mul]; omega) (fun i hi => by
        rw [← h i (by omega)]
        have : i * Element.byteLen E + Element.byteLen E ≤ m * Element.byteLen E := by
          rw [← Nat.succ_mul]; exact Nat.mul_le_mul_right _ hi
        have e := region_region bs 0 (m * Element.byteLen E) (i * Element.byteLen E)
          (Element.byteLen E) this
        simpa [region] using e)]
    have := h m (by omega)
    rw [region, List.take_of_length_le (by rw [List.length_drop, hl, Nat.add_mul]; omega)] at this
    simp only [List.map_cons, List.map_nil, encodeAll, List.flatMap_cons, List.flatMap_nil,
      List.append_nil]
    rw [← this, List.take_append_drop]

theorem nodes_mod {b : Nat} (hb : 2 ≤ b) : ∀ k, nodes b k % b = 1
  | 0 => Nat.mod_eq_of_lt hb
  | k + 1 => by
    rw [nodes, Nat.pow_succ, Nat.add_mul_mod_self_right]
    exact nodes_mod hb k

section
variable {E : Type} [Element E] [LawfulElement E] [FloatRows]
namespace LevelCacheStore

/-- The nodes a level cache keeps: all rows above the discarded ones. -/
def cachedNodes (A : Alg E) (b k d : Nat) (leaf : Nat → E) : List E :=
  (List.range (nodes b (k - 1 - d))).map fun i => flat A.nodeHash b k leaf (rowStart b k (d + 1) + i)

/-- The store a construction works with, at length `n`; a completed one has `n = nodes b k`. -/
def built (E : Type) [Element E] (b k : Nat) (c : StoreConfig) (n : Nat) : LevelCacheStore E :=
  ⟨n, c.file, b ^ k, rowStart b k (c.rowsToDiscard + 1) * Element.byteLen E, false,
    Element.byteLen E * nodes b k, none⟩

omit [LawfulElement E] in
theorem rowStart_cache {b k d : Nat} (hd : d < k) :
    rowStart b k (d + 1) + nodes b (k - 1 - d) = nodes b k := by
  rw [show k - 1 - d = k - (d + 1) by omega]
  exact rowStart_le_nodes b k (d + 1) hd

omit [LawfulElement E] in
theorem plan_ok {b k : Nat} (hb : Arity b) (hk : 1 ≤ k) (hf : FloatRows.ExactAt b k)
    {c : StoreConfig} (hd : c.rowsToDiscard < k) :
    plan E (nodes b k) b c = .ok (b ^ k, nodes b (k - 1 - c.rowsToDiscard) * Element.byteLen E,
      rowStart b k (c.rowsToDiscard + 1) * Element.byteLen E) := by
  unfold plan
  rw [(merkleTreeLeafs_ok_iff hb _ _).2 ⟨k, rfl, Or.inl rfl⟩, Res.ok_bind,
    ensure_true ((eq_nextPow2_iff _).2 (hb.pow_isPow2 k)), Res.ok_bind,
    merkleTreeCacheSize_pow hb hk hf hd, Res.ok_bind]
  dsimp only
  rw [← rowStart_cache hd, Nat.add_mul, subP_ok (by omega), Res.ok_bind, Nat.add_sub_cancel]

omit [LawfulElement E] in
theorem plan_err {b size : Nat} (hb : Arity b) {c : StoreConfig}
    (h : (∃ k, 1 ≤ k ∧ size = nodes b k ∧ FloatRows.ExactAt b k ∧ k ≤ c.rowsToDiscard) ∨
      ∃ x q, 1 < x ∧ x < b ∧ size = x * nodes b q) : Res.IsErr (plan E size b c) := by
  rcases h with ⟨k, hk, rfl, hf, hd⟩ | ⟨x, q, hx, hxb, rfl⟩
  · obtain ⟨m, hm⟩ := merkleTreeCacheSize_err hb hk hf hd
    refine ⟨m, ?_⟩
    unfold plan
    rw [(merkleTreeLeafs_ok_iff hb _ _).2 ⟨k, rfl, Or.inl rfl⟩, Res.ok_bind,
      ensure_true ((eq_nextPow2_iff _).2 (hb.pow_isPow2 k)), Res.ok_bind, hm]
    rfl
  · obtain ⟨m, hm⟩ := isErr_of_not_ok (merkleTreeLeafs_returns (x * nodes b q) b) (by
      intro r h
      obtain ⟨k, _, h | h⟩ := (merkleTreeLeafs_ok_iff hb _ _).1 h
      · have h1 := nodes_mod hb.two_le k
        rw [← h, Nat.mul_mod, nodes_mod hb.two_le q, Nat.mul_one, Nat.mod_mod, Nat.mod_eq_of_lt hxb] at h1
        omega
      · omega)
    refine ⟨m, ?_⟩
    unfold plan
    rw [hm]; rfl

omit [LawfulElement E] in
theorem newWithConfig_run {b k : Nat} (hb : Arity b) (hk : 1 ≤ k) (hf : FloatRows.ExactAt b k)
    {c : StoreConfig} (hd : c.rowsToDiscard < k) {fs : FS} (h : fs.file c.file = none) :
    ∃ fs', newWithConfig (E := E) (nodes b k) b c fs
        = (.ok (built E b k c 0), fs') ∧
      fs'.file c.file = some (List.replicate (Element.byteLen E * nodes b k) 0) ∧
      SameOutside (fun f => f = c.file) fs fs' := by
  obtain ⟨fs1, h1, h2, h3, h4⟩ := createNew_run fs h
  obtain ⟨fs2, g1, g2, g3, g4⟩ := setLen_empty fs1 (Element.byteLen E * nodes b k) h2
  refine ⟨fs2, ?_, g2, fun f hf => (g3 f hf).trans (h3 f hf), g4.trans h4⟩
  unfold newWithConfig
  rw [M.bind_ok (pathExists_run _ _), h]
  simp only [Option.isSome_none, Bool.false_eq_true, ↓reduceIte]
  rw [M.bind_ok h1, M.bind_ok (a := _) (fs' := fs1) (by rw [M.ofRes_run, plan_ok hb hk hf hd])]
  dsimp only
  rw [M.bind_ok g1]
  rfl

omit [LawfulElement E] in
theorem newWithConfig_err {b size : Nat} (hb : Arity b) {c : StoreConfig}
    (h : (∃ k, 1 ≤ k ∧ size = nodes b k ∧ FloatRows.ExactAt b k ∧ k ≤ c.rowsToDiscard) ∨
      ∃ x q, 1 < x ∧ x < b ∧ size = x * nodes b q) (fs : FS) :
    ∃ m fs', newWithConfig (E := E) size b c fs = (.error (.err m), fs') := by
  obtain ⟨m, hm⟩ := plan_err (E := E) hb h
  unfold newWithConfig
  rw [M.bind_ok (pathExists_run _ _)]
  rcases hx : fs.file c.file with _ | bs
  · obtain ⟨fs1, h1, h2, h3, h4⟩ := createNew_run fs hx
    refine ⟨m, fs1, ?_⟩
    simp only [Option.isSome_none, Bool.false_eq_true, ↓reduceIte]
    rw [M.bind_ok h1]
    apply M.bind_error
    rw [M.ofRes_run, hm]
  · refine ⟨m, fs, ?_⟩
    simp only [Option.isSome_some, ↓reduceIte]
    unfold newFromDisk
    rw [M.bind_ok (pathExists_run _ _), hx, M.bind_ok (mEnsure_true (by rfl) _ _),
      M.bind_ok (a := bs.length) (fs' := fs) (by rw [M.get_run, FS.fileLen, FS.contents_ok hx]; rfl)]
    apply M.bind_error
    rw [M.ofRes_run, hm]

/-- Every write only moves the length. -/
theorem copyFromSlice_rel (s : LevelCacheStore E) (buf : Bytes) (i : Nat) (fs : FS)
    (s' : LevelCacheStore E) (fs' : FS)
    (h : StoreOps.copyFromSlice (E := E) s buf i fs = (.ok s', fs')) : ∃ n, s' = { s with len := n } := by
  change LevelCacheStore.copyFromSlice s buf i fs = _ at h
  unfold LevelCacheStore.copyFromSlice at h
  simp only [M.bind_ok_iff, M.pure_run, Prod.mk.injEq, Except.ok.injEq] at h
  obtain ⟨_, _, _, _, _, _, _, _, _, rfl, _⟩ := h
  exact ⟨_, rfl⟩

theorem filled_partial {fs : FS} {s : LevelCacheStore E} {b k : Nat} {g : Nat → E}
    (hsz : s.storeSize = Element.byteLen E * nodes b k)
    (h : Filled fs s (nodes b k) (b ^ k) g) : Partial fs s 0 (b ^ k) (nodes b k) g := by
  obtain ⟨⟨bs, h1, h2, _⟩, _, h3⟩ := h
  exact ⟨⟨bs, h1, by rw [h2, hsz, Nat.mul_comm]; rfl⟩, fun i _ hi => h3 i hi⟩

theorem partial_bytes {fs : FS} {s : LevelCacheStore E} {A : Alg E} {b k d : Nat} {leaf : Nat → E}
    (hd : d < k)
    (h : Partial fs s (rowStart b k (d + 1)) (nodes b k) (nodes b k) (flat A.nodeHash b k leaf)) :
    fs.file s.file = some (encodeAll (cachedNodes A b k d leaf)) := by
  obtain ⟨⟨bs, h1, h2⟩, h3⟩ := h
  have hc := rowStart_cache (b := b) hd
  rw [h1]
  congr 1
  apply bytes_of_slots
  · rw [h2, ← hc, Nat.add_sub_cancel_left]
  · intro i hi
    obtain ⟨bs', g1, g2, g3⟩ := h3 (rowStart b k (d + 1) + i) (by omega) (by omega)
    rw [h1] at g1
    cases g1
    rw [Nat.add_sub_cancel_left] at g3
    exact g3

end LevelCacheStore

/-- `t` is the tree a level cache construction gives: only the rows above the discarded ones are in
the file. -/
structure BaseTree.IsCached (A : Alg E) (b k : Nat) (leaf : Nat → E) (c : StoreConfig) (fs : FS)
    (t : BaseTree (LevelCacheStore E) E) : Prop where
  store : t.store = LevelCacheStore.built E b k c (nodes b k)
  leafs : t.leafs = b ^ k
  len : t.len = nodes b k
  rows : t.rowCount = k + 1
  root : t.root = Spec.root A.nodeHash b k leaf
  file : fs.file c.file = some (encodeAll (LevelCacheStore.cachedNodes A b k c.rowsToDiscard leaf))

namespace BaseTree

theorem cache_finish {A : Alg E} {b k : Nat} (hb : Arity b) (hb' : b ≤ buildChunkNodes) (hk : 1 ≤ k)
    (hf : FloatRows.ExactAt b k) {σ : Sched} (hσ : σ.Valid) {leaf : Nat → E}
    {s : LevelCacheStore E} {c : StoreConfig} (hd : c.rowsToDiscard < k) {fs : FS}
    (hs : ∃ n, s = LevelCacheStore.built E b k c n)
    (h : Filled fs s (nodes b k) (b ^ k) leaf) :
    ∃ (t : BaseTree (LevelCacheStore E) E) (fs' : FS), (do
        let (root, s) ← Store.build A b σ s (b ^ k) (k + 1) (some c)
        pure (⟨s, b ^ k, nodes b k, k + 1, root⟩ : BaseTree (LevelCacheStore E) E) :
          M (BaseTree (LevelCacheStore E) E)) fs = (.ok t, fs') ∧
      t.IsCached A b k leaf c fs' ∧ SameOutside (fun f => f = c.file) fs fs' := by
  obtain ⟨n, rfl⟩ := hs
  obtain ⟨fs', h1, h2, h3⟩ := LevelCacheStore.build_ok (A := A) hb hb' hk leaf hσ hf hd rfl rfl
    h.len_eq (LevelCacheStore.filled_partial rfl h)
  refine ⟨⟨LevelCacheStore.built E b k c (nodes b k), b ^ k, nodes b k, k + 1, _⟩, fs', ?_,
    ⟨rfl, rfl, rfl, rfl, rfl, LevelCacheStore.partial_bytes hd h2⟩, h3⟩
  exact (M.bind_ok h1).trans rfl

section
variable {A : Alg E} (hA : A.LawfulReset) {b k : Nat} (hb : Arity b) (hb' : b ≤ buildChunkNodes)
  (hk : 1 ≤ k) (hf : FloatRows.ExactAt b k) {σ : Sched} (hσ : σ.Valid) {c : StoreConfig}
  (hd : c.rowsToDiscard < k) {fs : FS} (hc : fs.file c.file = none)
include hA hb hb' hk hf hσ hd hc

omit hA hb' hσ in
theorem cache_new : ∃ (s : LevelCacheStore E) (fs' : FS),
    Store.newWithConfig (nodes b k) b c fs = (.ok s, fs') ∧
    s = LevelCacheStore.built E b k c 0 ∧
    LawfulWrite.Inv fs' s (nodes b k) ∧ SameOutside (fun f => f = c.file) fs fs' := by
  obtain ⟨fs1, h1, h2, h3⟩ := LevelCacheStore.newWithConfig_run (E := E) hb hk hf hd hc
  refine ⟨_, fs1, h1, rfl, ⟨_, h2, by rw [List.length_replicate]; rfl, ?_⟩, h3⟩
  show _ ≤ Element.byteLen E * nodes b k
  rw [Nat.mul_comm]

theorem tryFromIterWithConfig_cached {items : List E} (hn : items.length = b ^ k) :
    ∃ (t : BaseTree (LevelCacheStore E) E) (fs' : FS),
      tryFromIterWithConfig A b σ (some items.length) (items.map .ok) c fs = (.ok t, fs') ∧
      t.IsCached A b k (hashedLeaves A items) c fs' ∧ SameOutside (fun f => f = c.file) fs fs' := by
  obtain ⟨s, fs1, h1, hs, h2, h3⟩ := cache_new (E := E) hb hk hf hd hc
  obtain ⟨s2, fs2, g1, g2, g3, g4, g5⟩ := populateData_ok hA items (A.leafHash Element.default)
    (hn ▸ pow_le_nodes b k) h2 (by rw [hs]; rfl) (by rw [hs]; rfl)
  have hrel := populateData_rel (R := fun s s' : LevelCacheStore E => ∃ n, s' = { s with len := n })
    (fun s => ⟨s.len, rfl⟩) (by rintro a _ _ ⟨m, rfl⟩ ⟨n, rfl⟩; exact ⟨n, rfl⟩)
    LevelCacheStore.copyFromSlice_rel g1
  rw [hashedLeaves_eq, hn] at g2
  obtain ⟨t, fs3, r1, r2, r3⟩ := cache_finish (A := A) hb hb' hk hf hσ hd
    (by obtain ⟨n, h⟩ := hrel; exact ⟨n, by rw [h, hs]; rfl⟩) g2
  refine ⟨t, fs3, ?_, r2, h3.trans (SameOutside.trans ?_ r3)⟩
  · unfold tryFromIterWithConfig
    dsimp only
    rw [M.bind_ok (a := (nodes b k, k + 1)) (fs' := fs) (by rw [M.ofRes_run, hn, sizes_ok hb hk hf])]
    dsimp only
    rw [M.bind_ok h1, show loadedFromDisk (E := E) s = false by rw [hs]; rfl]
    simp only [Bool.false_eq_true, ↓reduceIte]
    rw [M.bind_ok (M.expect_ok _ g1), hn]
    exact r1
  · rw [hs] at g3; exact g3

theorem fromParIterWithConfig_cached {π : ParOrder} (hπ : π.Valid) {items : List E}
    (hn : items.length = b ^ k) :
    ∃ (t : BaseTree (LevelCacheStore E) E) (fs' : FS),
      fromParIterWithConfig A b σ π items c fs = (.ok t, fs') ∧
      t.IsCached A b k (hashedLeaves A items) c fs' ∧ SameOutside (fun f => f = c.file) fs fs' := by
  obtain ⟨s, fs1, h1, hs, h2, h3⟩ := cache_new (E := E) hb hk hf hd hc
  obtain ⟨s2, fs2, g1, g2, g3, g4, g5⟩ := populateDataPar_ok hA items (A.leafHash Element.default)
    (hn ▸ pow_le_nodes b k) hπ h2 (by rw [hs]; rfl) (by rw [hs]; rfl)
  have hrel := populateDataPar_rel (R := fun s s' : LevelCacheStore E => ∃ n, s' = { s with len := n })
    (fun s => ⟨s.len, rfl⟩) (by rintro a _ _ ⟨m, rfl⟩ ⟨n, rfl⟩; exact ⟨n, rfl⟩)
    LevelCacheStore.copyFromSlice_rel g1
  rw [hashedLeaves_eq, hn] at g2
  obtain ⟨t, fs3, r1, r2, r3⟩ := cache_finish (A := A) hb hb' hk hf hσ hd
    (by obtain ⟨n, h⟩ := hrel; exact ⟨n, by rw [h, hs]; rfl⟩) g2
  refine ⟨t, fs3, ?_, r2, h3.trans (SameOutside.trans ?_ r3)⟩
  · unfold fromParIterWithConfig
    dsimp only
    rw [M.bind_ok (a := (nodes b k, k + 1)) (fs' := fs) (by rw [M.ofRes_run, hn, sizes_ok hb hk hf])]
    dsimp only
    rw [M.bind_ok h1, show loadedFromDisk (E := E) s = false by rw [hs]; rfl]
    simp only [Bool.false_eq_true, ↓reduceIte]
    rw [M.bind_ok g1, hn]
    exact r1
  · rw [hs] at g3; exact g3

omit hA in
theorem fromByteSliceWithConfig_cached {es : List E} (d : E) (hn : es.length = b ^ k) :
    ∃ (t : BaseTree (LevelCacheStore E) E) (fs' : FS),
      fromByteSliceWithConfig A b σ (encodeAll es) c fs = (.ok t, fs') ∧
      t.IsCached A b k (fun i => es.getD i d) c fs' ∧ SameOutside (fun f => f = c.file) fs fs' := by
  obtain ⟨fs1, h1, h2, h3⟩ := LevelCacheStore.newWithConfig_run (E := E) hb hk hf hd hc
  have hl : (encodeAll es).length ≤ Element.byteLen E * nodes b k := by
    rw [length_encodeAll, hn, Nat.mul_comm]
    exact Nat.mul_le_mul_left _ (pow_le_nodes b k)
  obtain ⟨fs2, w1, w2, w3⟩ := LevelCacheStore.storeCopy_ok (E := E) (data := encodeAll es) (off := 0)
    (s := LevelCacheStore.built E b k c 0)
    h2 (by rw [List.length_replicate]; rfl) (by rw [Nat.zero_add]; exact hl)
  have hfill : Filled fs2 (LevelCacheStore.built E b k c es.length : LevelCacheStore E)
      (nodes b k) (b ^ k) (fun i => es.getD i d) := by
    refine ⟨⟨_, w2, ?_, ?_⟩, hn, fun i hi => ?_⟩
    · rw [patch_length (by simpa using hl)]; simp [LevelCacheStore.built]
    · show _ ≤ Element.byteLen E * nodes b k
      rw [Nat.mul_comm]
    · exact fill_front d w2 (by simpa using hl) i (by omega)
  obtain ⟨t, fs3, r1, r2, r3⟩ := cache_finish (A := A) hb hb' hk hf hσ hd ⟨_, rfl⟩ hfill
  refine ⟨t, fs3, ?_, r2, h3.trans (SameOutside.trans w3 r3)⟩
  unfold fromByteSliceWithConfig
  rw [M.bind_ok (a := b ^ k) (fs' := fs) (by
    unfold sliceLeafs
    rw [M.ofRes_run, modP_encodeAll, Res.ok_bind, ensure_true rfl, Res.ok_bind, div_encodeAll, hn])]
  rw [M.bind_ok (a := (nodes b k, k + 1)) (fs' := fs) (by rw [M.ofRes_run, sizes_ok hb hk hf])]
  dsimp only
  rw [M.bind_ok (a := (LevelCacheStore.built E b k c es.length : LevelCacheStore E))
    (fs' := fs2) (by
    show LevelCacheStore.newFromSliceWithConfig _ _ _ _ _ = _
    unfold LevelCacheStore.newFromSliceWithConfig
    rw [M.bind_ok (a := 0) (fs' := fs) (by rw [M.ofRes_run, modP_encodeAll]),
      M.bind_ok (mEnsure_true rfl _ _), M.bind_ok h1]
    rw [if_neg (by simp [LevelCacheStore.built])]
    rw [M.bind_ok w1, div_encodeAll]
    rfl)]
  exact r1

end

/-! ### What is rejected -/

theorem _root_.Verif.LevelCacheStore.build_none (A : Alg E) (b : Nat) (σ : Sched) (s : LevelCacheStore E)
    (n rows : Nat) (fs : FS) : ∃ m, Store.build A b σ s n rows none fs = (.error (.err m), fs) := by
  show ∃ m, LevelCacheStore.build A b σ s n rows none fs = (.error (.err m), fs)
  unfold LevelCacheStore.build
  by_cases h1 : nextPow2 b = b
  · rw [M.bind_ok (mEnsure_true h1 _ _)]
    by_cases h2 : s.len = n
    · rw [M.bind_ok (mEnsure_true h2 _ _)]
      by_cases h3 : n % 2 = 0
      · rw [M.bind_ok (mEnsure_true h3 _ _)]
        exact ⟨_, rfl⟩
      · exact ⟨_, M.bind_error (mEnsure_false h3 _ _)⟩
    · exact ⟨_, M.bind_error (mEnsure_false h2 _ _)⟩
  · exact ⟨_, M.bind_error (mEnsure_false h1 _ _)⟩

theorem _root_.Verif.LevelCacheStore.build_wide {A : Alg E} {b k : Nat} (hb : Arity b)
    (hw : buildChunkNodes < b) (hk : 1 ≤ k) (hf : FloatRows.ExactAt b k) (σ : Sched)
    {s : LevelCacheStore E} {c : StoreConfig} (hd : c.rowsToDiscard < k) {fs : FS} (rows : Nat)
    (hlen : s.len = b ^ k) {bs : Bytes} (hx : fs.file s.file = some bs) :
    LevelCacheStore.build A b σ s (b ^ k) rows (some c) fs = (.error (.err "Invalid chunk size"), fs) := by
  have hp : 1 < b ^ k := Nat.one_lt_pow (by omega) hb.two_le
  unfold LevelCacheStore.build
  rw [M.bind_ok (mEnsure_true ((eq_nextPow2_iff b).2 hb.pow2).symm _ _),
    M.bind_ok (mEnsure_true hlen _ _), M.bind_ok (mEnsure_true (even_pow hb hk) _ _)]
  dsimp only
  rw [M.bind_ok (a := nodes b (k - 1 - c.rowsToDiscard)) (fs' := fs)
    (by rw [M.ofRes_run, merkleTreeCacheSize_pow hb hk hf hd]),
    M.bind_ok (a := nodes b k) (fs' := fs) (by rw [M.ofRes_run, merkleTreeLen_pow hb hk]),
    M.bind_ok (a := rowStart b k (c.rowsToDiscard + 1)) (fs' := fs) (by
      rw [M.ofRes_run, ← LevelCacheStore.rowStart_cache hd, subP_ok (by omega), Nat.add_sub_cancel])]
  apply M.bind_error
  unfold LevelCacheStore.buildLoop
  simp only [gt_iff_lt, hp, ↓reduceIte]
  apply M.bind_error
  unfold LevelCacheStore.processLayer
  rw [M.bind_ok (a := ()) (fs' := fs) (by unfold FS.openFile; rw [M.get_run, FS.contents_ok hx]; rfl)]
  apply M.bind_error
  refine mEnsure_false ?_ _ _
  rw [Nat.mod_eq_of_lt hw]
  simp [buildChunkNodes]

theorem arity_of_sizes {b n : Nat} {r : Nat × Nat} (hb : b ≠ 1) (h : sizes b n = .ok r) : Arity b := by
  by_contra ha
  obtain ⟨m, hm⟩ := sizes_err (b := b) (n := n)
    (Or.inr (Or.inr (Or.inl fun hp => ha (arity_of_pow2 hp hb))))
  rw [h] at hm
  simp at hm

theorem _root_.Verif.LevelCacheStore.new_run (size : Nat) (fs : FS) : ∃ fs',
    Store.new (S := LevelCacheStore E) size fs
      = (.ok ⟨0, .temp fs.nextTemp, size, 0, false, Element.byteLen E * size, none⟩, fs') ∧
    LawfulWrite.Inv fs' (⟨0, .temp fs.nextTemp, size, 0, false, Element.byteLen E * size, none⟩ :
      LevelCacheStore E) size := by
  obtain ⟨fs1, h1, h2, h3, h4⟩ := createTemp_run fs
  obtain ⟨fs2, g1, g2, g3, g4⟩ := setLen_empty fs1 (Element.byteLen E * size) h2
  refine ⟨fs2, ?_, ⟨_, g2, by simp, by rw [Nat.mul_comm]⟩⟩
  show LevelCacheStore.new _ _ = _
  unfold LevelCacheStore.new
  rw [M.bind_ok h1, M.bind_ok g1]
  rfl

/-- No level cache tree without a configuration. -/
theorem tryFromIter_noConfig {A : Alg E} (hA : A.LawfulReset) {b : Nat} (hb : b ≠ 1) (σ : Sched)
    {items : List E} (hf : FloatRows.FloorAt b items.length) (fs : FS) :
    ∃ m, (tryFromIter (S := LevelCacheStore E) A b σ (some items.length) (items.map .ok) fs).1
      = .error (.err m) := by
  unfold tryFromIter
  dsimp only
  rcases hsz : sizes b items.length with e | ⟨size, rows⟩
  · obtain ⟨m, hm⟩ := isErr_of_not_ok (sizes_returns (n := items.length) hb) (by rw [hsz]; simp)
    rw [hsz] at hm
    cases hm
    exact ⟨m, by rw [M.bind_error (M.ofRes_run _ _)]⟩
  have ha := arity_of_sizes hb hsz
  obtain ⟨fs1, h1, h2⟩ := LevelCacheStore.new_run (E := E) size fs
  obtain ⟨s2, fs2, g1, _⟩ := populateData_ok hA items (A.leafHash Element.default)
    (sizes_leafs_le ha hf hsz) h2 rfl rfl
  obtain ⟨m, hm⟩ := LevelCacheStore.build_none A b σ s2 items.length rows fs2
  refine ⟨m, ?_⟩
  rw [M.bind_ok (M.ofRes_ok _ _)]
  dsimp only
  rw [M.bind_ok (a := _) (fs' := fs1) h1, M.bind_ok g1]
  rw [M.bind_error hm]

theorem fromParIter_noConfig {A : Alg E} (hA : A.LawfulReset) {b : Nat} (hb : b ≠ 1) (σ : Sched)
    {π : ParOrder} (hπ : π.Valid)
    {items : List E} (hf : FloatRows.FloorAt b items.length) (fs : FS) :
    ∃ m, (fromParIter (S := LevelCacheStore E) A b σ π items fs).1 = .error (.err m) := by
  unfold fromParIter
  dsimp only
  rcases hsz : sizes b items.length with e | ⟨size, rows⟩
  · obtain ⟨m, hm⟩ := isErr_of_not_ok (sizes_returns (n := items.length) hb) (by rw [hsz]; simp)
    rw [hsz] at hm
    cases hm
    exact ⟨m, by rw [M.bind_error (M.ofRes_run _ _)]⟩
  have ha := arity_of_sizes hb hsz
  obtain ⟨fs1, h1, h2⟩ := LevelCacheStore.new_run (E := E) size fs
  obtain ⟨s2, fs2, g1, _⟩ := populateDataPar_ok hA items (A.leafHash Element.default)
    (sizes_leafs_le ha hf hsz) hπ h2 rfl rfl
  obtain ⟨m, hm⟩ := LevelCacheStore.build_none A b σ s2 items.length rows fs2
  refine ⟨m, ?_⟩
  rw [M.bind_ok (M.ofRes_ok _ _)]
  dsimp only
  rw [M.bind_ok (a := _) (fs' := fs1) (M.expect_ok _ h1), M.bind_ok g1]
  rw [M.bind_error hm]

theorem fromByteSlice_noConfig {A : Alg E} {b : Nat} (hb : b ≠ 1) (σ : Sched)
    {es : List E} (hf : FloatRows.FloorAt b es.length) (fs : FS) :
    ∃ m, (fromByteSlice (S := LevelCacheStore E) A b σ (encodeAll es) fs).1 = .error (.err m) := by
  unfold fromByteSlice
  rw [M.bind_ok (a := es.length) (fs' := fs) (by
      unfold sliceLeafs
      rw [M.ofRes_run, modP_encodeAll, Res.ok_bind, ensure_true rfl, Res.ok_bind, div_encodeAll])]
  rcases hsz : sizes b es.length with e | ⟨size, rows⟩
  · obtain ⟨m, hm⟩ := isErr_of_not_ok (sizes_returns (n := es.length) hb) (by rw [hsz]; simp)
    rw [hsz] at hm
    cases hm
    exact ⟨m, by rw [M.bind_error (M.ofRes_run _ _)]⟩
  have ha := arity_of_sizes hb hsz
  obtain ⟨fs1, h1, bs, h2, h3, _⟩ := LevelCacheStore.new_run (E := E) size fs
  obtain ⟨fs2, w1, _⟩ := LevelCacheStore.storeCopy_ok (E := E) (data := encodeAll es) (off := 0)
    h2 h3 (by
      rw [Nat.zero_add, length_encodeAll, Nat.mul_comm]
      exact Nat.mul_le_mul_left _ (sizes_leafs_le ha hf hsz))
  obtain ⟨m, hm⟩ := LevelCacheStore.build_none A b σ
    (⟨es.length, .temp fs.nextTemp, size, 0, false, Element.byteLen E * size, none⟩ : LevelCacheStore E)
    es.length rows fs2
  refine ⟨m, ?_⟩
  rw [M.bind_ok (M.ofRes_ok _ _)]
  dsimp only
  rw [M.bind_ok (a := (⟨es.length, .temp fs.nextTemp, size, 0, false, Element.byteLen E * size, none⟩ :
      LevelCacheStore E)) (fs' := fs2) (by
    show LevelCacheStore.newFromSlice _ _ _ = _
    unfold LevelCacheStore.newFromSlice
    rw [M.bind_ok (a := 0) (fs' := fs) (by rw [M.ofRes_run, modP_encodeAll]),
      M.bind_ok (mEnsure_true rfl _ _)]
    refine (M.bind_ok h1).trans ?_
    rw [M.bind_ok w1, div_encodeAll]
    rfl)]
  rw [M.bind_error hm]

/-- When the sizes do not fit, either the store cannot be created or the arity is too large. -/
theorem cache_cases {b n size rows : Nat} (hb : Arity b) (hf : FloatRows.FloorAt b n)
    (hsz : sizes b n = .ok (size, rows)) {c : StoreConfig}
    (hno : ¬ (b ≤ buildChunkNodes ∧ ∃ k, c.rowsToDiscard < k ∧ n = b ^ k)) :
    (∀ fs, ∃ m fs', Store.newWithConfig (S := LevelCacheStore E) size b c fs = (.error (.err m), fs')) ∨
    (buildChunkNodes < b ∧ ∃ k, 1 ≤ k ∧ FloatRows.ExactAt b k ∧ c.rowsToDiscard < k ∧ n = b ^ k ∧
      size = nodes b k) := by
  rcases sizes_cases hb hf with ⟨m, h⟩ | ⟨k, hk, rfl⟩ | ⟨x, q, hq, hx, hxb, hn, hp2, h⟩
  · rw [hsz] at h; simp at h
  · have he := hf.exact hb (by omega)
    rw [sizes_ok hb hk he] at hsz
    simp only [Except.ok.injEq, Prod.mk.injEq] at hsz
    obtain ⟨rfl, rfl⟩ := hsz
    rcases Nat.lt_or_ge c.rowsToDiscard k with hd | hd
    · refine Or.inr ⟨?_, k, hk, he, hd, rfl, rfl⟩
      by_contra hc
      exact hno ⟨by omega, k, hd, rfl⟩
    · exact Or.inl fun fs => LevelCacheStore.newWithConfig_err hb (Or.inl ⟨k, hk, rfl, he, hd⟩) fs
  · rw [hsz] at h
    simp only [Except.ok.injEq, Prod.mk.injEq] at h
    obtain ⟨rfl, rfl⟩ := h
    exact Or.inl fun fs => LevelCacheStore.newWithConfig_err hb (Or.inr ⟨x, q, hx, hxb, rfl⟩) fs

theorem tryFromIterWithConfig_cache_err {A : Alg E} (hA : A.LawfulReset) {b : Nat} (hb : b ≠ 1)
    (σ : Sched) {items : List E} (hf : FloatRows.FloorAt b items.length) {c : StoreConfig}
    (hno : ¬ (Arity b ∧ b ≤ buildChunkNodes ∧ ∃ k, c.rowsToDiscard < k ∧ items.length = b ^ k))
    {fs : FS} (hc : fs.file c.file = none) :
    ∃ m, (tryFromIterWithConfig (S := LevelCacheStore E) A b σ (some items.length) (items.map .ok) c fs).1
      = .error (.err m) := by
  unfold tryFromIterWithConfig
  dsimp only
  rcases hsz : sizes b items.length with e | ⟨size, rows⟩
  · obtain ⟨m, hm⟩ := isErr_of_not_ok (sizes_returns (n := items.length) hb) (by rw [hsz]; simp)
    rw [hsz] at hm
    cases hm
    exact ⟨m, by rw [M.bind_error (M.ofRes_run _ _)]⟩
  have ha := arity_of_sizes hb hsz
  rw [M.bind_ok (M.ofRes_ok _ _)]
  dsimp only
  rcases cache_cases (E := E) ha hf hsz (c := c) (fun h => hno ⟨ha, h⟩) with h | ⟨hw, k, hk, he, hd, hn, rfl⟩
  · obtain ⟨m, fs', h⟩ := h fs
    exact ⟨m, by rw [M.bind_error h]⟩
  obtain ⟨s, fs1, h1, hs, h2, h3⟩ := cache_new (E := E) ha hk he hd hc
  obtain ⟨s2, fs2, g1, g2, g3, g4, g5⟩ := populateData_ok hA items (A.leafHash Element.default)
    (sizes_leafs_le ha hf hsz) h2 (by rw [hs]; rfl) (by rw [hs]; rfl)
  obtain ⟨bs, hbs, _⟩ := g2.inv
  refine ⟨"Invalid chunk size", ?_⟩
  rw [M.bind_ok h1, show loadedFromDisk (E := E) s = false by rw [hs]; rfl]
  simp only [Bool.false_eq_true, ↓reduceIte]
  rw [M.bind_ok (M.expect_ok _ g1), M.bind_error (e := .err "Invalid chunk size") (fs' := fs2)]
  rw [hn]
  exact LevelCacheStore.build_wide ha hw hk he σ hd rows (g2.len_eq.trans hn) hbs

theorem fromParIterWithConfig_cache_err {A : Alg E} (hA : A.LawfulReset) {b : Nat} (hb : b ≠ 1)
    (σ : Sched) {π : ParOrder} (hπ : π.Valid) {items : List E} (hf : FloatRows.FloorAt b items.length)
    {c : StoreConfig}
    (hno : ¬ (Arity b ∧ b ≤ buildChunkNodes ∧ ∃ k, c.rowsToDiscard < k ∧ items.length = b ^ k))
    {fs : FS} (hc : fs.file c.file = none) :
    ∃ m, (fromParIterWithConfig (S := LevelCacheStore E) A b σ π items c fs).1 = .error (.err m) := by
  unfold fromParIterWithConfig
  dsimp only
  rcases hsz : sizes b items.length with e | ⟨size, rows⟩
  · obtain ⟨m, hm⟩ := isErr_of_not_ok (sizes_returns (n := items.length) hb) (by rw [hsz]; simp)
    rw [hsz] at hm
    cases hm
    exact ⟨m, by rw [M.bind_error (M.ofRes_run _ _)]⟩
  have ha := arity_of_sizes hb hsz
  rw [M.bind_ok (M.ofRes_ok _ _)]
  dsimp only
  rcases cache_cases (E := E) ha hf hsz (c := c) (fun h => hno ⟨ha, h⟩) with h | ⟨hw, k, hk, he, hd, hn, rfl⟩
  · obtain ⟨m, fs', h⟩ := h fs
    exact ⟨m, by rw [M.bind_error h]⟩
  obtain ⟨s, fs1, h1, hs, h2, h3⟩ := cache_new (E := E) ha hk he hd hc
  obtain ⟨s2, fs2, g1, g2, g3, g4, g5⟩ := populateDataPar_ok hA items (A.leafHash Element.default)
    (sizes_leafs_le ha hf hsz) hπ h2 (by rw [hs]; rfl) (by rw [hs]; rfl)
  obtain ⟨bs, hbs, _⟩ := g2.inv
  refine ⟨"Invalid chunk size", ?_⟩
  rw [M.bind_ok h1, show loadedFromDisk (E := E) s = false by rw [hs]; rfl]
  simp only [Bool.false_eq_true, ↓reduceIte]
  rw [M.bind_ok g1, M.bind_error (e := .err "Invalid chunk size") (fs' := fs2)]
  rw [hn]
  exact LevelCacheStore.build_wide ha hw hk he σ hd rows (g2.len_eq.trans hn) hbs

theorem fromByteSliceWithConfig_cache_err {A : Alg E} {b : Nat} (hb : b ≠ 1)
    (σ : Sched) {es : List E} (hf : FloatRows.FloorAt b es.length) {c : StoreConfig}
    (hno : ¬ (Arity b ∧ b ≤ buildChunkNodes ∧ ∃ k, c.rowsToDiscard < k ∧ es.length = b ^ k))
    {fs : FS} (hc : fs.file c.file = none) :
    ∃ m, (fromByteSliceWithConfig (S := LevelCacheStore E) A b σ (encodeAll es) c fs).1
      = .error (.err m) := by
  unfold fromByteSliceWithConfig
  rw [M.bind_ok (a := es.length) (fs' := fs) (by
      unfold sliceLeafs
      rw [M.ofRes_run, modP_encodeAll, Res.ok_bind, ensure_true rfl, Res.ok_bind, div_encodeAll])]
  rcases hsz : sizes b es.length with e | ⟨size, rows⟩
  · obtain ⟨m, hm⟩ := isErr_of_not_ok (sizes_returns (n := es.length) hb) (by rw [hsz]; simp)
    rw [hsz] at hm
    cases hm
    exact ⟨m, by rw [M.bind_error (M.ofRes_run _ _)]⟩
  have ha := arity_of_sizes hb hsz
  rw [M.bind_ok (M.ofRes_ok _ _)]
  dsimp only
  rcases cache_cases (E := E) ha hf hsz (c := c) (fun h => hno ⟨ha, h⟩) with h | ⟨hw, k, hk, he, hd, hn, rfl⟩
  · obtain ⟨m, fs', h⟩ := h fs
    refine ⟨m, ?_⟩
    rw [M.bind_error (e := .err m) (fs' := fs')]
    show LevelCacheStore.newFromSliceWithConfig _ _ _ _ _ = _
    unfold LevelCacheStore.newFromSliceWithConfig
    rw [M.bind_ok (a := 0) (fs' := fs) (by rw [M.ofRes_run, modP_encodeAll]),
      M.bind_ok (mEnsure_true rfl _ _)]
    exact M.bind_error h
  obtain ⟨fs1, h1, h2, h3⟩ := LevelCacheStore.newWithConfig_run (E := E) ha hk he hd hc
  have hl : (encodeAll es).length ≤ Element.byteLen E * nodes b k := by
    rw [length_encodeAll, hn, Nat.mul_comm]
    exact Nat.mul_le_mul_left _ (pow_le_nodes b k)
  obtain ⟨fs2, w1, w2, w3⟩ := LevelCacheStore.storeCopy_ok (E := E) (data := encodeAll es) (off := 0)
    (s := LevelCacheStore.built E b k c 0)
    h2 (by rw [List.length_replicate]; rfl) (by rw [Nat.zero_add]; exact hl)
  refine ⟨"Invalid chunk size", ?_⟩
  rw [M.bind_ok (a := LevelCacheStore.built E b k c es.length)
    (fs' := fs2) (by
    show LevelCacheStore.newFromSliceWithConfig _ _ _ _ _ = _
    unfold LevelCacheStore.newFromSliceWithConfig
    rw [M.bind_ok (a := 0) (fs' := fs) (by rw [M.ofRes_run, modP_encodeAll]),
      M.bind_ok (mEnsure_true rfl _ _), M.bind_ok h1]
    rw [if_neg (by simp [LevelCacheStore.built])]
    rw [M.bind_ok w1, div_encodeAll]
    rfl)]
  rw [M.bind_error (e := .err "Invalid chunk size") (fs' := fs2)]
  rw [hn]
  exact LevelCacheStore.build_wide ha hw hk he σ hd rows rfl w2

end BaseTree
end
end Verif
