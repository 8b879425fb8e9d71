import Verif.Lemmas.CachedTrees
import Verif.Spec.CachedProof
import Verif.Props.Compound
import Verif.Spec.Toy
import Verif.Spec.Ideal
/-! Property C28: `gen_cached_proof` returns the proofs of the full tree. -/
set_option linter.unusedSectionVars false
namespace Verif
open Spec StoreOps

section
variable {E : Type} [Element E] [LawfulElement E] [FloatRows] {A : Alg E} {b k : Nat}

/-- **C28** for a tree on a `DiskStore`: `gen_cached_proof(i, rows)` returns the proof `gen_proof(i)`
returns, for every requested number of rows. -/
theorem C28_disk (hb : Arity b) (hb' : b ≤ buildChunkNodes) (hk : 1 ≤ k)
    (hf : ∀ j, j ≤ k → FloatRows.ExactAt b j) {σ : Sched} (hσ : σ.Valid) {leaves : List E} {fs : FS}
    {t : BaseTree (DiskStore E) E} (ht : t.IsTreeOf A b k leaves fs) (rows : Option Nat) :
    t.CachedProofsAgree A b σ rows fs fs t := by
  obtain ⟨f, hl, hr⟩ := ht.exists_reads
  refine ⟨rfl, rfl, fun i hi => ?_⟩
  rw [ht.leafs] at hi
  exact ⟨_, BaseTree.genProof_eq hb hk hr hi,
    genCachedProof_eq hb hb' hk (hf k (Nat.le_refl _)) (hf _ (by omega)) hσ hl (hr.readsCached hl 0)
      (Nat.zero_le _) hi⟩

/-- A tree that reads its base and cached rows. -/
theorem agree_of_readsCached {S S' : Type} [StoreOps S E] [StoreOps S' E] (hb : Arity b)
    (hb' : b ≤ buildChunkNodes) (hk : 1 ≤ k)
    (hf : ∀ j, j ≤ k → FloatRows.ExactAt b j) {σ : Sched} (hσ : σ.Valid) {leaves : List E} {fs fs' : FS}
    {t : BaseTree S E} (ht : t.IsTreeOf A b k leaves fs) {f : Nat → E}
    (hl : IsLayout A.nodeHash b k leaves f) {d : Nat}
    {u : BaseTree S' E} (hu : u.ReadsCached fs' b k d leaves f) {rows : Option Nat}
    (hd : d ≤ BaseTree.effectiveDiscard (b ^ k) b rows) :
    t.CachedProofsAgree A b σ rows fs fs' u := by
  obtain ⟨g, hg, hr⟩ := ht.exists_reads
  have hfg : ∀ i, i < nodes b k → g i = f i := layout_unique hg hl
  have hp := nodes_pos b k
  have hr' : t.Reads fs b k f := ⟨hr.leafs, hr.len, hr.rows, fun i hi => by rw [hr.reads i hi, hfg i hi],
    by rw [hr.root, hfg _ (by omega)]⟩
  refine ⟨by rw [hu.leafs, ht.leafs], by rw [hu.root, hr'.root], fun i hi => ?_⟩
  rw [ht.leafs] at hi
  exact ⟨_, BaseTree.genProof_eq hb hk hr' hi,
    genCachedProof_eq hb hb' hk (hf k (Nat.le_refl _)) (hf _ (by omega)) hσ hl hu hd hi⟩

section
variable (hb : Arity b) (hb' : b ≤ buildChunkNodes) (hk : 1 ≤ k)
    (hf : ∀ j, j ≤ k → FloatRows.ExactAt b j) {leaves : List E} {f : Nat → E} {c : StoreConfig} {fs : FS}
    {t : BaseTree (DiskStore E) E}
    (ht : t.IsFileTree A b k leaves f c fs) (hd : c.rowsToDiscard < k)
include hb hb' hk hf ht hd

/-- **C28** for a level-cache tree over a version 2 file.  Compact a tree, open the file with any
reader that delivers the original leaves: when the rows `gen_cached_proof` takes as discarded (the
smaller of the request and the default) include those that were discarded, it returns the full tree's
proofs; otherwise it returns `Err` for every leaf.  It never returns a different proof. -/
theorem C28_v2 {version : Nat} (hv : version ≠ 1) {t' : BaseTree (DiskStore E) E} {fs' : FS}
    (h : t.compact b c version fs = (.ok true, t', fs')) (r : ExternalReader)
    (hr : r.Serves fs' leaves) :
    ∃ (s : LevelCacheStore E) (u : BaseTree (LevelCacheStore E) E),
      LevelCacheStore.newFromDiskWithReader t.length b c r fs' = (.ok s, fs') ∧
      BaseTree.fromDataStore b 0 0 s t.leafs fs' = .ok u ∧
      ∀ (σ : Sched), σ.Valid → ∀ rows : Option Nat,
        (c.rowsToDiscard ≤ BaseTree.effectiveDiscard t.leafs b rows →
          t.CachedProofsAgree A b σ rows fs fs' u) ∧
        (BaseTree.effectiveDiscard t.leafs b rows < c.rowsToDiscard → ∀ i, i < t.leafs →
          ∃ m, u.genCachedProof A b 0 0 σ i rows fs' = (.error (.err m), fs')) := by
  obtain ⟨fs₁, g1, g2, g3⟩ :=
    DiskStore.compact_ok hb hk (hf k (Nat.le_refl _)) hd ht.len ht.size ht.layout ht.file version
  have h0 := BaseTree.compact_of_store (t := t) g1
  rw [h] at h0
  simp only [Prod.mk.injEq, true_and] at h0
  obtain ⟨-, rfl⟩ := h0
  unfold compacted at g2
  rw [if_neg hv] at g2
  have hl : LevelCacheStore.View b k c.rowsToDiscard
      (⟨nodes b k, c.file, b ^ k, rowStart b k (c.rowsToDiscard + 1) * Element.byteLen E, false,
        (encodeAll (cachedRows b k c.rowsToDiscard f)).length, some r⟩ : LevelCacheStore E) :=
    ⟨rfl, rfl, rfl⟩
  have hlen : t.length = nodes b k := ht.len
  have hp := nodes_pos b k
  have hle := rowStart_le_nodes b k (c.rowsToDiscard + 1) hd
  have hp2 := nodes_pos b (k - (c.rowsToDiscard + 1))
  have hu : (⟨⟨nodes b k, c.file, b ^ k, rowStart b k (c.rowsToDiscard + 1) * Element.byteLen E, false,
        (encodeAll (cachedRows b k c.rowsToDiscard f)).length, some r⟩, b ^ k, nodes b k, k + 1,
        f (nodes b k - 1)⟩ : BaseTree (LevelCacheStore E) E).ReadsCached fs' b k c.rowsToDiscard leaves f :=
    BaseTree.readsCached_v2 ht.layout hd hl rfl hr rfl rfl rfl g2
  refine ⟨_, _, by rw [hlen]; exact LevelCacheStore.newFromDiskWithReader_run hb hk (hf k (Nat.le_refl _)) hd g2 (by
    rw [length_encodeAll, cachedRows_length]) r,
    by rw [ht.leafs]; exact fromDataStore_view hb hk (hf k (Nat.le_refl _)) hl
        (hl.readAt_cached_v2 hd rfl g2 (by omega) (by omega)), fun σ hσ rows => ?_⟩
  rw [ht.leafs]
  refine ⟨fun he => agree_of_readsCached hb hb' hk hf hσ ht.isTreeOf ht.layout hu he,
    fun he i hi => genCachedProof_err hb hb' hk (hf k (Nat.le_refl _)) (hf _ (by omega)) hσ ht.layout hu he hd
      (fun i h1 h2 => ?_) hi⟩
  rcases Nat.lt_or_ge (b ^ k) i with h3 | h3
  · exact hl.discarded_err h3 h2 _
  · obtain rfl : i = b ^ k := by omega
    exact hl.readAt_boundary_v2 hb.two_le hd (by omega) rfl g2

/-- **C28** fails for configurations that discard more rows than the default for the tree's size: the
tree compacts and opens, but `gen_cached_proof` returns `Err` whatever is requested. -/
theorem C28_v2_beyond_default_refuted {version : Nat} (hv : version ≠ 1)
    {t' : BaseTree (DiskStore E) E} {fs' : FS}
    (h : t.compact b c version fs = (.ok true, t', fs')) (r : ExternalReader)
    (hr : r.Serves fs' leaves) (hdef : defaultRowsToDiscard t.leafs b < c.rowsToDiscard) :
    ∃ (s : LevelCacheStore E) (u : BaseTree (LevelCacheStore E) E),
      LevelCacheStore.newFromDiskWithReader t.length b c r fs' = (.ok s, fs') ∧
      BaseTree.fromDataStore b 0 0 s t.leafs fs' = .ok u ∧
      ∀ (σ : Sched), σ.Valid → ∀ (rows : Option Nat) (i : Nat), i < t.leafs →
        ∃ m, u.genCachedProof A b 0 0 σ i rows fs' = (.error (.err m), fs') := by
  obtain ⟨s, u, h1, h2, h3⟩ := C28_v2 hb hb' hk hf ht hd hv h r hr
  refine ⟨s, u, h1, h2, fun σ hσ rows i hi => (h3 σ hσ rows).2 ?_ i hi⟩
  unfold BaseTree.effectiveDiscard
  cases rows with
  | none => exact hdef
  | some r => exact lt_of_le_of_lt (Nat.min_le_right _ _) hdef

/-- **C28** for a level-cache tree over a version 1 file, for requests that cover the discarded rows. -/
theorem C28_v1_partial {t' : BaseTree (DiskStore E) E} {fs' : FS}
    (h : t.compact b c 1 fs = (.ok true, t', fs')) :
    ∃ (s : LevelCacheStore E) (u : BaseTree (LevelCacheStore E) E),
      LevelCacheStore.newFromDisk t.length b c fs' = (.ok s, fs') ∧
      BaseTree.fromDataStore b 0 0 s t.leafs fs' = .ok u ∧
      ∀ (σ : Sched), σ.Valid → ∀ rows : Option Nat,
        c.rowsToDiscard ≤ BaseTree.effectiveDiscard t.leafs b rows →
          t.CachedProofsAgree A b σ rows fs fs' u := by
  obtain ⟨fs₁, g1, g2, g3⟩ :=
    DiskStore.compact_ok hb hk (hf k (Nat.le_refl _)) hd ht.len ht.size ht.layout ht.file 1
  have h0 := BaseTree.compact_of_store (t := t) g1
  rw [h] at h0
  simp only [Prod.mk.injEq, true_and] at h0
  obtain ⟨-, rfl⟩ := h0
  unfold compacted at g2
  rw [if_pos rfl] at g2
  have hl : LevelCacheStore.View b k c.rowsToDiscard
      (⟨nodes b k, c.file, b ^ k, rowStart b k (c.rowsToDiscard + 1) * Element.byteLen E, true,
        (encodeAll (leaves ++ cachedRows b k c.rowsToDiscard f)).length, none⟩ : LevelCacheStore E) :=
    ⟨rfl, rfl, rfl⟩
  have hlen : t.length = nodes b k := ht.len
  have hp := nodes_pos b k
  have hle := rowStart_le_nodes b k (c.rowsToDiscard + 1) hd
  have hp2 := nodes_pos b (k - (c.rowsToDiscard + 1))
  refine ⟨_, _, by rw [hlen]; exact LevelCacheStore.newFromDisk_run hb hk (hf k (Nat.le_refl _)) hd g2,
    by rw [ht.leafs]; exact fromDataStore_view hb hk (hf k (Nat.le_refl _)) hl
        (hl.readAt_cached_v1 hd rfl ht.layout.count g2 (by omega) (by omega)), fun σ hσ rows he => ?_⟩
  rw [ht.leafs] at he
  exact agree_of_readsCached hb hb' hk hf hσ ht.isTreeOf ht.layout
    (BaseTree.readsCached_v1 ht.layout hd hl rfl rfl rfl rfl g2) he

end

/-- **C28** for a tree built directly on a `LevelCacheStore`, once `set_external_reader_path` points it
to a file that starts with the leaves. -/
theorem C28_built_partial (hA : A.LawfulReset) {S : Type} [StoreOps S E] {σ : Sched} (hσ : σ.Valid)
    {src : Source A} (hs : src.Valid) (hf : FloatRows.FloorAt b src.leaves.length) {c : StoreConfig}
    {fs fs' : FS} {t : BaseTree (LevelCacheStore E) E}
    (hc : fs.file c.file = none) (h : src.build b σ (some c) fs = (.ok t, fs'))
    {path : String} {post : Bytes} (hrep : fs'.file (.named path) = some (encodeAll src.leaves ++ post))
    (hf' : ∀ j, b ^ j ≤ src.leaves.length → FloatRows.ExactAt b j)
    {fsu : FS} {u : BaseTree S E} (hu : u.IsTreeOf A b k src.leaves fsu) :
    ∃ t', t.setExternalReaderPath path fs' = (.ok t', fs') ∧
      ∀ τ : Sched, τ.Valid → ∀ rows : Option Nat,
        c.rowsToDiscard ≤ BaseTree.effectiveDiscard t.leafs b rows →
          u.CachedProofsAgree A b τ rows fsu fs' t' := by
  obtain ⟨hb, hb', k', e, hd, hex, hn, ht, -⟩ := Source.build_cached_sound hA hσ hs hf hc h
  have hkk : k' = k := by
    obtain ⟨g, hg, -⟩ := hu.exists_reads
    have := hg.count
    rw [hn] at this
    exact Nat.pow_right_injective hb.two_le this
  subst hkk
  have hcount : src.leaves.length = b ^ k' := hn
  have hlay := flat_isLayout A.nodeHash src.leaves e hcount
  refine ⟨{ t with store := t.store.setExternalReader (.ofFile (.named path) 0) }, ?_, fun τ hτ rows he => ?_⟩
  · unfold BaseTree.setExternalReaderPath ExternalReader.newFromPath ExternalReader.newFromConfig
    have hop : FS.openFile (.named path) fs' = (.ok (), fs') := by
      unfold FS.openFile; rw [M.get_run, FS.contents_ok hrep]; rfl
    have : (do
        FS.openFile (.named path)
        let off ← M.ofRes (idxP [0] 0)
        pure (ExternalReader.ofFile (.named path) off) : M ExternalReader) fs'
        = (.ok (.ofFile (.named path) 0), fs') := by
      rw [M.bind_ok hop]; rfl
    rw [M.bind_ok this]; rfl
  · rw [ht.leafs] at he
    have h1 : LevelCacheStore.View b k' c.rowsToDiscard
        (t.store.setExternalReader (.ofFile (.named path) 0)) := by
      rw [ht.store]
      exact ⟨rfl, rfl, rfl⟩
    have h2 : (ExternalReader.ofFile (.named path) 0).Serves fs' src.leaves := by
      refine ExternalReader.ofFile_serves hrep ?_
      unfold region
      rw [List.drop_zero, ← length_encodeAll src.leaves, List.take_left]
    have h3 : fs'.file t.store.file = some (encodeAll
        (cachedRows b k' c.rowsToDiscard (flat A.nodeHash b k' fun i => src.leaves.getD i e))) := by
      rw [ht.store]
      exact ht.file
    have h4 : t.root = flat A.nodeHash b k' (fun i => src.leaves.getD i e) (nodes b k' - 1) := by
      rw [ht.root, flat_root]
    have h5 := BaseTree.readsCached_v2
      (t := { t with store := t.store.setExternalReader (.ofFile (.named path) 0) })
      hlay hd h1 rfl h2 ht.leafs ht.rows h4 h3
    exact agree_of_readsCached hb hb' (by omega) (fun j hj => hf' j (by
      rw [hn]; exact Nat.pow_le_pow_right (by have := hb.two_le; omega) hj)) hτ hu hlay h5 he

end

/-! Compound trees. -/
section
variable {S S' E : Type} [Element E] [StoreOps S E] [StoreOps S' E] [FloatRows] {A : Alg E}
  {b sub : Nat} {σ : Sched} {rows : Option Nat} {fs fs' : FS}

/-- **C28** for compound trees: when the cached proofs of the parts are those of the parts of the full
tree, the cached proofs of the compound tree are those of the full compound tree. -/
theorem C28_compound {cs : List (BaseTree S E)} {cs' : List (BaseTree S' E)} {lss : List (List E)}
    {n : Node (BaseTree S E) E} {n' : Node (BaseTree S' E) E}
    (hn : fromTrees A sub cs = .ok n) (hn' : fromTrees A sub cs' = .ok n')
    (hcs : List.Forall₂ (BaseTree.IsTree A b fs) cs lss)
    (h : List.Forall₂ (BaseTree.CachedProofsAgree A b σ rows fs fs') cs cs') :
    Tree1.CachedProofsAgree A b sub σ rows fs fs' (.sub n) (.sub n') := by
  classical
  obtain ⟨k, hk, hr, hl, hk2⟩ := fromTrees_height hn hcs
  obtain ⟨c1, r1, l1⟩ := C39_from_trees_result hn
  obtain ⟨c2, r2, l2⟩ := C39_from_trees_result hn'
  have hs := ((C39_from_trees A sub cs).1.1 ⟨_, hn⟩).1
  have hu : n.Uniform BaseTree.leafs sub (b ^ k) := .of_assemble hn (fun c hc => by
    obtain ⟨ls, _, h⟩ := Forall₂.exists_right hk2 hc; exact h.leafs)
  have hroots : cs'.map BaseTree.root = cs.map BaseTree.root := by
    clear hn hn' hcs hk2 c1 c2 r1 r2 l1 l2 hu
    induction h with
    | nil => rfl
    | cons e _ ih => simp [e.2.1, ih]
  have hleafs : cs'.map BaseTree.leafs = cs.map BaseTree.leafs := by
    clear hn hn' hcs hk2 c1 c2 r1 r2 l1 l2 hu hroots
    induction h with
    | nil => rfl
    | cons e _ ih => simp [e.1, ih]
  have hroot : n'.root = n.root := by rw [r1, r2, hroots]
  have hle : n'.leafs = n.leafs := by rw [l1, l2, hleafs]
  refine ⟨hle, hroot, fun i hi => ?_⟩
  have hi : i < n.leafs := hi
  rw [hu.leafs] at hi
  rw [← c1, ← c2] at h
  have h0 : ¬ (0 = 0 ∧ sub = 0) := by omega
  exact Node.cached_layer_agrees (pTop := 0) (pSub := sub) (b := b) (gen := BaseTree.genProof b 0 0 fs) (rootOf := BaseTree.root)
    (leafsOf' := BaseTree.leafs) (rootOf' := BaseTree.root) (fs := fs')
    (gen' := fun c i => c.genCachedProof A b 0 0 σ i rows) hu hroot hle hi h0 h

/-- **C28** with a top layer. -/
theorem C28_compound_top (hb : Arity b) {top : Nat} {cs : List (Tree1 S E)} {cs' : List (Tree1 S' E)}
    {lss : List (List E)} {n : Node (Tree1 S E) E} {n' : Node (Tree1 S' E) E}
    (hn : fromSubTrees A top cs = .ok n) (hn' : fromSubTrees A top cs' = .ok n')
    (hcs : List.Forall₂ (Tree1.IsCompound A b sub fs) cs lss)
    (h : List.Forall₂ (Tree1.CachedProofsAgree A b sub σ rows fs fs') cs cs') :
    n'.leafs = n.leafs ∧ n'.root = n.root ∧ ∀ i, i < n.leafs →
      ∃ p, (Tree2.top n).genProof b sub top fs i = .ok p ∧
        (Tree2.top n').genCachedProof A b sub top σ i rows fs' = (.ok p, fs') := by
  classical
  obtain ⟨k, -, hs, ht, -, -, hl, -⟩ := fromSubTrees_layer hb hn hcs
  obtain ⟨c1, r1, l1⟩ := C39_from_sub_trees_result hn
  obtain ⟨c2, r2, l2⟩ := C39_from_sub_trees_result hn'
  have hu := fromSubTrees_uniform hb hn hcs
  have hroots : cs'.map Tree1.root = cs.map Tree1.root := by
    clear hn hn' hcs c1 c2 r1 r2 l1 l2 hu
    induction h with
    | nil => rfl
    | cons e _ ih => simp [e.2.1, ih]
  have hleafs : cs'.map Tree1.leafs = cs.map Tree1.leafs := by
    clear hn hn' hcs c1 c2 r1 r2 l1 l2 hu hroots
    induction h with
    | nil => rfl
    | cons e _ ih => simp [e.1, ih]
  have hroot : n'.root = n.root := by rw [r1, r2, hroots]
  have hle : n'.leafs = n.leafs := by rw [l1, l2, hleafs]
  refine ⟨hle, hroot, fun i hi => ?_⟩
  obtain ⟨m, hu⟩ := hu
  rw [hu.leafs] at hi
  rw [← c1, ← c2] at h
  have h0 : ¬ (top = 0 ∧ sub = 0) := by omega
  exact Node.cached_layer_agrees (pTop := top) (pSub := sub) (b := b) (gen := Tree1.genProof b sub fs) (rootOf := Tree1.root)
    (leafsOf' := Tree1.leafs) (rootOf' := Tree1.root) (fs := fs')
    (gen' := fun c i => c.genCachedProof A b sub σ i rows) hu hroot hle hi h0 h

end

section
variable {E : Type} [Element E] [LawfulElement E] [FloatRows] {A : Alg E} {b k : Nat}

/-- `gen_cached_proof` is not usable on the in-memory store: reading the segment panics. -/
theorem C28_vec_unimplemented (hb : Arity b) (hk : 1 ≤ k) (hf : ∀ j, j ≤ k → FloatRows.ExactAt b j)
    {σ : Sched} {leaves : List E} {fs : FS}
    {t : BaseTree (VecStore E) E} (ht : t.IsTreeOf A b k leaves fs) (rows : Option Nat) {i : Nat}
    (hi : i < b ^ k) : ∃ m, t.genCachedProof A b 0 0 σ i rows fs = (.error (.panic m), fs) := by
  have hr := effectiveDiscard_lt hk (hf k (Nat.le_refl _)) rows
  have hb2 := hb.two_le
  set r := BaseTree.effectiveDiscard (b ^ k) b rows with hr'
  have hm : nodes b (k - 1 - r) < nodes b k := by
    have := nodes_mono b (show k - 1 - r ≤ k - 1 by omega)
    obtain ⟨n, rfl⟩ : ∃ n, k = n + 1 := ⟨k - 1, by omega⟩
    have hp : 0 < b ^ (n + 1) := Nat.pow_pos (by omega)
    show _ < nodes b n + b ^ (n + 1)
    simp only [Nat.add_sub_cancel] at this ⊢
    omega
  have hW : 0 < b ^ k / b ^ (k - 1 - r) :=
    Nat.div_pos (Nat.pow_le_pow_right (by omega) (by omega)) (Nat.pow_pos (by omega))
  unfold BaseTree.genCachedProof
  rw [M.bind_ok (mEnsure_true (by rw [ht.leafs]; exact hi) _ _),
    M.bind_ok (mEnsure_true (by rw [ht.leafs]; exact (eq_nextPow2_iff _).2 (hb.pow_isPow2 k)) _ _),
    M.bind_ok (a := nodes b k) (fs' := fs) (by rw [M.ofRes_run, ht.leafs, merkleTreeLen_pow hb hk])]
  dsimp only
  rw [ht.leafs, ← hr', M.bind_ok (a := nodes b (k - 1 - r)) (fs' := fs) (by
      rw [M.ofRes_run, merkleTreeCacheSize_pow hb hk (hf k (Nat.le_refl _)) hr]),
    M.bind_ok (mEnsure_true hm _ _),
    M.bind_ok (a := b ^ (k - 1 - r)) (fs' := fs) (by
      rw [M.ofRes_run, (merkleTreeLeafs_ok_iff hb _ _).2 ⟨k - 1 - r, rfl, Or.inl rfl⟩]),
    M.bind_ok (mEnsure_true ((eq_nextPow2_iff _).2 (hb.pow_isPow2 _)) _ _),
    M.bind_ok (a := r + 1) (fs' := fs) (by
      rw [M.ofRes_run, rowCount_pow (hf _ (by omega)), ht.rows, subP_ok (by omega)]
      congr 2; omega),
    M.bind_ok (a := b ^ k / b ^ (k - 1 - r)) (fs' := fs) (by
      rw [M.ofRes_run, divP_ok (Nat.pow_pos (by omega))]),
    M.bind_ok (a := i / (b ^ k / b ^ (k - 1 - r))) (fs' := fs) (by rw [M.ofRes_run, divP_ok hW])]
  exact ⟨_, rfl⟩

end

/-! Concrete instances: the tree `72, 73, 74, 75 | 91, 155 | 250`, in full and compacted with one row
discarded, its leaves also in a replica file at offset 2. -/
section
attribute [local instance] idealRows

def toyCachedFs (d : Nat) : FS :=
  (FS.empty.set (StoreConfig.new "d" "t" d).file (some [72, 73, 74, 75, 91, 155, 250])).set
    (.named "r") (some [0, 0, 72, 73, 74, 75, 9])
def toyCachedFull (d : Nat) : BaseTree (DiskStore UInt8) UInt8 :=
  ⟨⟨7, (StoreConfig.new "d" "t" d).file, false, 7⟩, 4, 7, 3, 250⟩

/-- What `gen_proof` and `gen_cached_proof` push on the lemma. -/
def lemmaOf : Res (Proof UInt8) → Option (List UInt8)
  | .ok p => some p.lem
  | .error _ => none

def toyCachedProofs (t : BaseTree (LevelCacheStore UInt8) UInt8) (fs : FS) (rows : Option Nat) :
    List (Option (List UInt8)) :=
  (List.range 4).map fun i => lemmaOf (t.genCachedProof toyAlg 2 0 0 Sched.sequential i rows fs).1

def toyFullProofs (t : BaseTree (DiskStore UInt8) UInt8) (fs : FS) : List (Option (List UInt8)) :=
  (List.range 4).map fun i => lemmaOf (t.genProof 2 0 0 fs i)

/-- Compact to version 2 and open with the reader. -/
def toyOpenV2 (d : Nat) (rows : Option Nat) : Option (List (Option (List UInt8))) :=
  let fs := ((toyCachedFull d).compact 2 (StoreConfig.new "d" "t" d) 2 (toyCachedFs d)).2.2
  match LevelCacheStore.newFromDiskWithReader (E := UInt8) 7 2 (StoreConfig.new "d" "t" d)
    (.ofFile (.named "r") 2) fs with
  | (.ok s, fs) => match BaseTree.fromDataStore 2 0 0 s 4 fs with
    | .ok t => some (toyCachedProofs t fs rows)
    | _ => none
  | _ => none

/-- Compact to version 1 and open. -/
def toyOpenV1 (d : Nat) (rows : Option Nat) : Option (List (Option (List UInt8))) :=
  let fs := ((toyCachedFull d).compact 2 (StoreConfig.new "d" "t" d) 1 (toyCachedFs d)).2.2
  match LevelCacheStore.newFromDisk (E := UInt8) 7 2 (StoreConfig.new "d" "t" d) fs with
  | (.ok s, fs) => match BaseTree.fromDataStore 2 0 0 s 4 fs with
    | .ok t => some (toyCachedProofs t fs rows)
    | _ => none
  | _ => none

example : toyFullProofs (toyCachedFull 1) (toyCachedFs 1)
    = [some [72, 73, 155, 250], some [73, 72, 155, 250], some [74, 75, 91, 250],
      some [75, 74, 91, 250]] := by decide +kernel
example : toyOpenV2 1 none = some (toyFullProofs (toyCachedFull 1) (toyCachedFs 1)) := by decide +kernel
example : toyOpenV2 1 (some 5) = some (toyFullProofs (toyCachedFull 1) (toyCachedFs 1)) := by decide +kernel
example : toyOpenV2 0 (some 0) = some (toyFullProofs (toyCachedFull 0) (toyCachedFs 0)) := by decide +kernel
example : toyOpenV1 1 none = some (toyFullProofs (toyCachedFull 1) (toyCachedFs 1)) := by decide +kernel
/-- Asking for fewer rows than were discarded: `Err` on version 2. -/
example : toyOpenV2 1 (some 0) = some [none, none, none, none] := by decide +kernel

/-- **C28** fails on a version 1 file when fewer rows are requested than were discarded: for leaves 2
and 3 of this tree `gen_cached_proof` returns, without any error, proofs other than the full tree's
(the root stands where the sibling should be). -/
theorem C28_v1_wrong_proof_refuted : toyOpenV1 1 (some 0)
    = some [none, none, some [74, 75, 250, 250], some [75, 74, 250, 250]] := by decide +kernel

/-- Build on a `LevelCacheStore`, then point the tree to a file with the leaves. -/
def toyBuilt : Option (List (Option (List UInt8))) :=
  let src : Source toyAlg := .bytes [72, 73, 74, 75]
  match src.build (S := LevelCacheStore UInt8) 2 Sched.sequential (some (StoreConfig.new "d" "t" 1))
    (FS.empty.set (.named "r") (some [72, 73, 74, 75, 9])) with
  | (.ok t, fs) => match t.setExternalReaderPath "r" fs with
    | (.ok t, fs) => some (toyCachedProofs t fs none)
    | _ => none
  | _ => none
example : toyBuilt = some (toyFullProofs (toyCachedFull 1) (toyCachedFs 1)) := by decide +kernel

example : defaultRowsToDiscard (8 ^ 4) 8 < 3 := by decide +kernel

end
end Verif
