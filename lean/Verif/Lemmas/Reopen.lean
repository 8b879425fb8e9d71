import Verif.Lemmas.Compacted
import Verif.Lemmas.CachedTrees
import Verif.Lemmas.Reject
import Verif.Spec.Reopen
/-!
Opening files that already hold a tree.
-/
namespace Verif
open Spec StoreOps

set_option linter.unusedSectionVars false

section
variable {S E : Type} [Element E] [LawfulElement E]

theorem BaseTree.genProof_congr [StoreOps S E] {t u : BaseTree S E} {b sub top : Nat} {fs fs' : FS}
    (hl : u.leafs = t.leafs) (hlen : u.length = t.length) (hr : u.rowCount = t.rowCount)
    (hroot : u.root = t.root) (hread : ∀ i, u.readAt fs' i = t.readAt fs i) (i : Nat) :
    u.genProof b sub top fs' i = t.genProof b sub top fs i := by
  have : u.readAt fs' = t.readAt fs := funext hread
  unfold BaseTree.genProof
  rw [hl, hlen, hr, hroot, this]

/-! ### Constructors over a store that says it was loaded -/

variable [Store S E] [FloatRows] {A : Alg E} {b k : Nat} {c : StoreConfig} {fs : FS}

/-- The tree a constructor makes of a loaded store. -/
def BaseTree.ofLoaded (b k : Nat) (s : S) (r : E) : BaseTree S E := ⟨s, b ^ k, nodes b k, k + 1, r⟩

theorem BaseTree.tryFromIterWithConfig_loaded (hb : Arity b) (hk : 1 ≤ k) (hf : FloatRows.ExactAt b k)
    {s : S} (h : Store.newWithConfig (nodes b k) b c fs = (.ok s, fs))
    (hl : loadedFromDisk (E := E) s = true) (σ : Sched) (items : List (Res E)) :
    BaseTree.tryFromIterWithConfig A b σ (some (b ^ k)) items c fs
      = ((StoreOps.last fs s).map (BaseTree.ofLoaded b k s), fs) := by
  unfold BaseTree.tryFromIterWithConfig
  dsimp only
  rw [M.bind_ok (a := (nodes b k, k + 1)) (fs' := fs) (by rw [M.ofRes_run, BaseTree.sizes_ok hb hk hf])]
  dsimp only
  rw [M.bind_ok h, if_pos hl]
  cases hr : StoreOps.last fs s with
  | ok r =>
    rw [M.bind_ok (a := r) (fs' := fs) (by rw [M.get_run, hr])]
    rfl
  | error e =>
    rw [M.bind_error (e := e) (fs' := fs) (by rw [M.get_run, hr])]
    rfl

theorem BaseTree.fromParIterWithConfig_loaded (hb : Arity b) (hk : 1 ≤ k)
    (hf : FloatRows.ExactAt b k) {s : S} (h : Store.newWithConfig (nodes b k) b c fs = (.ok s, fs))
    (hl : loadedFromDisk (E := E) s = true) (σ : Sched) (π : ParOrder) {items : List E}
    (hn : items.length = b ^ k) :
    BaseTree.fromParIterWithConfig A b σ π items c fs
      = ((StoreOps.last fs s).map (BaseTree.ofLoaded b k s), fs) := by
  unfold BaseTree.fromParIterWithConfig
  dsimp only
  rw [hn, M.bind_ok (a := (nodes b k, k + 1)) (fs' := fs)
    (by rw [M.ofRes_run, BaseTree.sizes_ok hb hk hf])]
  dsimp only
  rw [M.bind_ok h, if_pos hl]
  cases hr : StoreOps.last fs s with
  | ok r =>
    rw [M.bind_ok (a := r) (fs' := fs) (by rw [M.get_run, hr])]
    rfl
  | error e =>
    rw [M.bind_error (e := e) (fs' := fs) (by rw [M.get_run, hr])]
    rfl

theorem Source.build_loaded (hb : Arity b) (hk : 1 ≤ k)
    (hf : FloatRows.ExactAt b k) {s : S}
    (h : Store.newWithConfig (nodes b k) b c fs = (.ok s, fs))
    (hl : loadedFromDisk (E := E) s = true) (σ : Sched) {src : Source A} (hby : src.isBytes = false)
    (hn : src.leaves.length = b ^ k) :
    src.build b σ (some c) fs = ((StoreOps.last fs s).map (BaseTree.ofLoaded b k s), fs) := by
  cases src with
  | new items =>
    show BaseTree.tryFromIterWithConfig A b σ (some items.length) _ c fs = _
    rw [show items.length = b ^ k by simpa [Source.leaves] using hn]
    exact BaseTree.tryFromIterWithConfig_loaded hb hk hf h hl σ _
  | iter items =>
    show BaseTree.tryFromIterWithConfig A b σ (some items.length) _ c fs = _
    rw [show items.length = b ^ k by simpa [Source.leaves] using hn]
    exact BaseTree.tryFromIterWithConfig_loaded hb hk hf h hl σ _
  | par π items =>
    show BaseTree.fromParIterWithConfig A b σ π items c fs = _
    exact BaseTree.fromParIterWithConfig_loaded hb hk hf h hl σ π (by simpa [Source.leaves] using hn)
  | data ds =>
    show BaseTree.tryFromIterWithConfig A b σ (some ds.length) _ c fs = _
    rw [show ds.length = b ^ k by simpa [Source.leaves] using hn]
    exact BaseTree.tryFromIterWithConfig_loaded hb hk hf h hl σ _
  | bytes es => cases hby

/-- Constructors whose store is refused. -/
theorem Source.build_refused {n : Nat} {size rows : Nat} (hs : BaseTree.sizes b n = .ok (size, rows))
    {e : Fault} (h : Store.newWithConfig (S := S) size b c fs = (.error e, fs)) (σ : Sched)
    {src : Source A} (hby : src.isBytes = false) (hn : src.leaves.length = n) :
    src.build (S := S) b σ (some c) fs = (.error e, fs) := by
  have hiter : ∀ items : List (Res E),
      BaseTree.tryFromIterWithConfig (S := S) A b σ (some n) items c fs = (.error e, fs) := by
    intro items
    unfold BaseTree.tryFromIterWithConfig
    dsimp only
    rw [M.bind_ok (a := (size, rows)) (fs' := fs) (by rw [M.ofRes_run, hs])]
    dsimp only
    rw [M.bind_error h]
  cases src with
  | new items =>
    show BaseTree.tryFromIterWithConfig A b σ (some items.length) _ c fs = _
    rw [show items.length = n by simpa [Source.leaves] using hn]
    exact hiter _
  | iter items =>
    show BaseTree.tryFromIterWithConfig A b σ (some items.length) _ c fs = _
    rw [show items.length = n by simpa [Source.leaves] using hn]
    exact hiter _
  | par π items =>
    show BaseTree.fromParIterWithConfig A b σ π items c fs = _
    unfold BaseTree.fromParIterWithConfig
    dsimp only
    rw [show items.length = n by simpa [Source.leaves] using hn,
      M.bind_ok (a := (size, rows)) (fs' := fs) (by rw [M.ofRes_run, hs])]
    dsimp only
    rw [M.bind_error h]
  | data ds =>
    show BaseTree.tryFromIterWithConfig A b σ (some ds.length) _ c fs = _
    rw [show ds.length = n by simpa [Source.leaves] using hn]
    exact hiter _
  | bytes es => cases hby

/-- Constructors whose sizes are refused. -/
theorem Source.build_bad_sizes {n : Nat} {e : Fault} (hs : BaseTree.sizes b n = .error e) (σ : Sched)
    {src : Source A} (hn : src.leaves.length = n) :
    src.build (S := S) b σ (some c) fs = (.error e, fs) := by
  have hiter : ∀ items : List (Res E),
      BaseTree.tryFromIterWithConfig (S := S) A b σ (some n) items c fs = (.error e, fs) := by
    intro items
    unfold BaseTree.tryFromIterWithConfig
    dsimp only
    rw [M.bind_error (e := e) (fs' := fs) (by rw [M.ofRes_run, hs])]
  cases src with
  | new items =>
    show BaseTree.tryFromIterWithConfig A b σ (some items.length) _ c fs = _
    rw [show items.length = n by simpa [Source.leaves] using hn]
    exact hiter _
  | iter items =>
    show BaseTree.tryFromIterWithConfig A b σ (some items.length) _ c fs = _
    rw [show items.length = n by simpa [Source.leaves] using hn]
    exact hiter _
  | par π items =>
    show BaseTree.fromParIterWithConfig A b σ π items c fs = _
    unfold BaseTree.fromParIterWithConfig
    dsimp only
    rw [show items.length = n by simpa [Source.leaves] using hn,
      M.bind_error (e := e) (fs' := fs) (by rw [M.ofRes_run, hs])]
  | data ds =>
    show BaseTree.tryFromIterWithConfig A b σ (some ds.length) _ c fs = _
    rw [show ds.length = n by simpa [Source.leaves] using hn]
    exact hiter _
  | bytes es =>
    show BaseTree.fromByteSliceWithConfig A b σ (encodeAll es) c fs = _
    unfold BaseTree.fromByteSliceWithConfig
    rw [M.bind_ok (a := n) (fs' := fs) (by
      unfold BaseTree.sliceLeafs
      rw [M.ofRes_run, modP_encodeAll, Res.ok_bind, ensure_true rfl, Res.ok_bind, div_encodeAll]
      rw [show es.length = n by simpa [Source.leaves] using hn]),
      M.bind_error (e := e) (fs' := fs) (by rw [M.ofRes_run, hs])]

theorem nodes_succ' (b : Nat) : ∀ k, nodes b (k + 1) = b * nodes b k + 1
  | 0 => by simp [nodes]; ring
  | k + 1 => by
    have := nodes_succ' b k
    show nodes b (k + 1) + b ^ (k + 1 + 1) = b * (nodes b k + b ^ (k + 1)) + 1
    rw [this]
    ring

/-- Another number of leaves that passes the size checks asks for another number of nodes. -/
theorem sizes_ne {b k n size rows : Nat} (hb : Arity b) (hf : FloatRows.FloorAt b n) (hne : n ≠ b ^ k)
    (h : BaseTree.sizes b n = .ok (size, rows)) : size ≠ nodes b k := by
  have h2 := hb.two_le
  rcases sizes_cases hb hf with ⟨m, hm⟩ | ⟨j, hj, rfl⟩ | ⟨c, q, hq, hc, hcb, rfl, hp, hs⟩
  · rw [hm] at h; cases h
  · rw [BaseTree.sizes_ok hb hj (hf.exact hb (by omega))] at h
    cases h
    intro he
    exact hne (by rw [(nodes_strictMono (by omega)).injective he])
  · rw [hs] at h
    cases h
    intro he
    have h1 : nodes b q < nodes b k := by
      rw [← he]
      have := nodes_pos b q
      nlinarith
    have h3 : nodes b k < nodes b (q + 1) := by
      rw [← he]
      have e : nodes b (q + 1) = b * nodes b q + 1 := nodes_succ' b q
      have : c * nodes b q ≤ b * nodes b q := Nat.mul_le_mul_right _ hcb.le
      omega
    have h4 := (nodes_strictMono (b := b) (by omega)).lt_iff_lt.1 h1
    have h5 := (nodes_strictMono (b := b) (by omega)).lt_iff_lt.1 h3
    omega

/-! ### `DiskStore` -/

theorem DiskStore.newFromDisk_run {n : Nat} {bs : Bytes} (hfile : fs.file c.file = some bs)
    (hl : bs.length = n * Element.byteLen E) :
    DiskStore.newFromDisk (E := E) n b c fs = (.ok ⟨n, c.file, true, n * Element.byteLen E⟩, fs) := by
  unfold DiskStore.newFromDisk DiskStore.newFromDiskWithPath
  rw [M.bind_ok (pathExists_run _ _), hfile, M.bind_ok (mEnsure_true (by rfl) _ _),
    M.bind_ok (a := ()) (fs' := fs) (by unfold FS.openFile; rw [M.get_run, FS.contents_ok hfile]; rfl),
    M.bind_ok (a := bs.length) (fs' := fs) (by
      rw [M.get_run, FS.fileLen, FS.contents_ok hfile]; rfl),
    M.bind_ok (mEnsure_true hl _ _), hl]
  rfl

theorem DiskStore.newFromDisk_wrong {n : Nat} {bs : Bytes} (hfile : fs.file c.file = some bs)
    (hl : bs.length ≠ n * Element.byteLen E) :
    ∃ m, DiskStore.newFromDisk (E := E) n b c fs = (.error (.err m), fs) := by
  unfold DiskStore.newFromDisk DiskStore.newFromDiskWithPath
  rw [M.bind_ok (pathExists_run _ _), hfile, M.bind_ok (mEnsure_true (by rfl) _ _),
    M.bind_ok (a := ()) (fs' := fs) (by unfold FS.openFile; rw [M.get_run, FS.contents_ok hfile]; rfl),
    M.bind_ok (a := bs.length) (fs' := fs) (by
      rw [M.get_run, FS.fileLen, FS.contents_ok hfile]; rfl),
    M.bind_error (mEnsure_false hl _ _)]
  exact ⟨_, rfl⟩

theorem DiskStore.newWithConfig_existing {n : Nat} {bs : Bytes} (hfile : fs.file c.file = some bs) :
    DiskStore.newWithConfig (E := E) n b c fs = DiskStore.newFromDisk n b c fs := by
  unfold DiskStore.newWithConfig
  rw [M.bind_ok (pathExists_run _ _), hfile]
  rfl

section
variable {leaves : List E} {f : Nat → E} {t : BaseTree (DiskStore E) E}

theorem allNodes_bytes (b k : Nat) (f : Nat → E) :
    (encodeAll (allNodes b k f)).length = nodes b k * Element.byteLen E := by
  rw [length_encodeAll, allNodes_length]

/-- The store that opening the file of a tree gives. -/
theorem BaseTree.IsFileTree.opened (h : t.IsFileTree A b k leaves f c fs) :
    DiskStore.newFromDisk (E := E) (nodes b k) b c fs
      = (.ok ⟨nodes b k, c.file, true, nodes b k * Element.byteLen E⟩, fs) :=
  DiskStore.newFromDisk_run h.file (allNodes_bytes b k f)

theorem BaseTree.IsFileTree.reopened (h : t.IsFileTree A b k leaves f c fs) (n : Nat) :
    BaseTree.IsFileTree A b k leaves f c fs
      ⟨⟨nodes b k, c.file, true, nodes b k * Element.byteLen E⟩, b ^ k, n, k + 1, t.root⟩ where
  leafs := rfl
  len := rfl
  rows := rfl
  layout := h.layout
  root := h.root
  handle := rfl
  size := rfl
  file := h.file

theorem BaseTree.IsFileTree.sameAs {u : BaseTree (DiskStore E) E}
    (h : t.IsFileTree A b k leaves f c fs) (hu : u.IsFileTree A b k leaves f c fs) :
    BaseTree.SameAs b fs t u := by
  have hread : ∀ i, u.readAt fs i = t.readAt fs i := by
    intro i
    have e1 : u.store.len = t.store.len := hu.len.trans h.len.symm
    have e2 : u.store.file = t.store.file := hu.handle.trans h.handle.symm
    show DiskStore.readAt fs u.store i = DiskStore.readAt fs t.store i
    unfold DiskStore.readAt DiskStore.checkRange DiskStore.storeReadRange
    rw [e1, e2]
  have hroot : u.root = t.root := hu.root.trans h.root.symm
  have hlen : u.length = t.length := hu.len.trans h.len.symm
  refine ⟨?_, hread, fun i j => ?_, BaseTree.genProof_congr (hu.leafs.trans h.leafs.symm) hlen
    (hu.rows.trans h.rows.symm) hroot hread⟩
  · unfold BaseTree.summary
    rw [hroot, hlen, hu.leafs, h.leafs, hu.rows, h.rows]
  · have e1 : u.store.len = t.store.len := hu.len.trans h.len.symm
    have e2 : u.store.file = t.store.file := hu.handle.trans h.handle.symm
    have : DiskStore.readRange fs u.store i j = DiskStore.readRange fs t.store i j := by
      unfold DiskStore.readRange DiskStore.checkRange DiskStore.storeReadRange
      rw [e1, e2]
    have : StoreOps.readRange fs u.store i j = StoreOps.readRange fs t.store i j := this
    unfold BaseTree.readRange
    rw [this]

theorem BaseTree.IsFileTree.last (h : t.IsFileTree A b k leaves f c fs) :
    StoreOps.last fs (⟨nodes b k, c.file, true, nodes b k * Element.byteLen E⟩ : DiskStore E)
      = .ok t.root := by
  have hp := nodes_pos b k
  obtain ⟨g, h1, h2, h3⟩ := (h.reopened (nodes b k)).isTreeOf.nodes
  have := h2 (nodes b k - 1) (by omega)
  unfold StoreOps.last
  show (subP (nodes b k) 1 >>= _) = _
  rw [subP_ok hp, Res.ok_bind]
  exact this.trans (by rw [← h3])

end

/-- Opening any store as a tree. -/
theorem BaseTree.fromDataStore_run (hb : Arity b) (hk : 1 ≤ k) (hf : FloatRows.ExactAt b k)
    {s : S} (hlen : StoreOps.len (E := E) s = nodes b k) {r : E} (hlast : StoreOps.last fs s = .ok r) :
    BaseTree.fromDataStore b 0 0 s (b ^ k) fs = .ok ⟨s, b ^ k, nodes b k, k + 1, r⟩ := by
  unfold BaseTree.fromDataStore
  rw [ensure_true rfl, Res.ok_bind, ensure_true rfl, Res.ok_bind,
    ensure_true ((eq_nextPow2_iff _).2 (hb.pow_isPow2 k)).symm, Res.ok_bind,
    ensure_true ((eq_nextPow2_iff _).2 hb.pow2).symm, Res.ok_bind,
    merkleTreeLen_pow hb hk, Res.ok_bind, ensure_true hlen.symm, Res.ok_bind, sizeValid_pow hb,
    Res.ok_bind, ensure_true rfl, Res.ok_bind, rowCount_pow hf, hlast]
  rfl

theorem BaseTree.SameAs.of_store {t u : BaseTree S E} (h1 : u.store = t.store)
    (h2 : u.leafs = t.leafs) (h3 : u.rowCount = t.rowCount) (h4 : u.root = t.root) :
    BaseTree.SameAs b fs t u := by
  obtain ⟨s, l, n, r, e⟩ := t
  obtain ⟨s', l', n', r', e'⟩ := u
  dsimp only at h1 h2 h3 h4
  subst h1 h2 h3 h4
  exact ⟨rfl, fun _ => rfl, fun _ _ => rfl, fun _ => rfl⟩

/-! ### `MmapStore` -/

theorem MmapStore.newFromDisk_run {n : Nat} {bs : Bytes} (hfile : fs.file c.file = some bs)
    (hl : bs.length = n * Element.byteLen E) :
    MmapStore.newFromDisk (E := E) n b c fs = (.ok ⟨some bs.length, c.file, n⟩, fs) := by
  unfold MmapStore.newFromDisk
  rw [M.bind_ok (pathExists_run _ _), hfile, M.bind_ok (mEnsure_true (by rfl) _ _),
    M.bind_ok (a := bs.length) (fs' := fs) (by
      rw [M.get_run, FS.fileLen, FS.contents_ok hfile]; rfl),
    M.bind_ok (mEnsure_true hl _ _)]
  rfl

theorem MmapStore.newWithConfig_existing {n : Nat} {bs : Bytes} (hfile : fs.file c.file = some bs) :
    MmapStore.newWithConfig (E := E) n b c fs = MmapStore.newFromDisk n b c fs := by
  unfold MmapStore.newWithConfig
  rw [M.bind_ok (pathExists_run _ _), hfile]
  rfl

/-- The store of a built tree is the one opening its file gives. -/
theorem BaseTree.IsMerkle.mmap_store {leaf : Nat → E} {t : BaseTree (MmapStore E) E}
    (h : t.IsMerkle A b k leaf fs) (hown : t.store.file = c.file) :
    ∃ bs, fs.file c.file = some bs ∧ bs.length = nodes b k * Element.byteLen E ∧
      MmapStore.newFromDisk (E := E) (nodes b k) b c fs = (.ok t.store, fs) := by
  obtain ⟨bs, h1, h2, h3⟩ := h.filled.inv
  rw [hown] at h1
  refine ⟨bs, h1, h3, ?_⟩
  have hlen : t.store.len = nodes b k := h.filled.len_eq
  rw [MmapStore.newFromDisk_run h1 h3, ← h2, ← hown, ← hlen]

theorem BaseTree.IsMerkle.last [LawfulStore S E] {leaf : Nat → E} {t : BaseTree S E}
    (h : t.IsMerkle A b k leaf fs) : StoreOps.last fs t.store = .ok t.root := by
  have hp := nodes_pos b k
  have hlen : StoreOps.len (E := E) t.store = nodes b k := h.filled.len_eq
  unfold StoreOps.last
  rw [hlen, subP_ok hp, Res.ok_bind, h.root, ← flat_root]
  exact LawfulRead.readAt_ok h.filled.inv (by rw [hlen]; omega) (h.filled.vals _ (by omega))

theorem pow_ne_nodes (hk : 1 ≤ k) : nodes b k ≠ b ^ k := by
  obtain ⟨m, rfl⟩ : ∃ m, k = m + 1 := ⟨k - 1, by omega⟩
  have := nodes_pos b m
  simp only [nodes]
  omega

/-- The constructors other than `from_byte_slice_with_config`, over the finished file of an
`MmapStore` tree. -/
theorem Source.build_mmap_existing (hb : Arity b) (hk : 1 ≤ k) (hf : FloatRows.ExactAt b k)
    {bs : Bytes} (hfile : fs.file c.file = some bs) (hl : bs.length = nodes b k * Element.byteLen E)
    (σ : Sched) {src : Source A} (hby : src.isBytes = false) (hn : src.leaves.length = b ^ k) :
    ∃ m, src.build (S := MmapStore E) b σ (some c) fs = (.error (.err m), fs) := by
  have hnew : Store.newWithConfig (S := MmapStore E) (nodes b k) b c fs
      = (.ok ⟨some bs.length, c.file, nodes b k⟩, fs) :=
    (MmapStore.newWithConfig_existing hfile).trans (MmapStore.newFromDisk_run hfile hl)
  have hp := nodes_pos b k
  have hne : StoreOps.isEmpty (E := E) (⟨some bs.length, c.file, nodes b k⟩ : MmapStore E) = false := by
    show (nodes b k == 0) = false
    simp; omega
  obtain ⟨m, hm⟩ := defaultBuild_len (A := A) (b := b) (n := b ^ k) (rows := k + 1) σ
    (s := (⟨some bs.length, c.file, nodes b k⟩ : MmapStore E)) fs (pow_ne_nodes hk) (some c)
  have hm : Store.build A b σ (⟨some bs.length, c.file, nodes b k⟩ : MmapStore E) (b ^ k) (k + 1)
    (some c) fs = _ := hm
  refine ⟨m, ?_⟩
  have hiter : ∀ items : List (Res E),
      BaseTree.tryFromIterWithConfig (S := MmapStore E) A b σ (some (b ^ k)) items c fs
        = (.error (.err m), fs) := by
    intro items
    unfold BaseTree.tryFromIterWithConfig
    dsimp only
    rw [M.bind_ok (a := (nodes b k, k + 1)) (fs' := fs)
      (by rw [M.ofRes_run, BaseTree.sizes_ok hb hk hf])]
    dsimp only
    rw [M.bind_ok hnew, if_neg (by exact Bool.false_ne_true),
      M.bind_ok (BaseTree.M.expect_ok _ (a := (⟨some bs.length, c.file, nodes b k⟩ : MmapStore E))
        (fs' := fs) (by unfold populateData; rw [if_pos hne]; rfl)), M.bind_error hm]
  cases src with
  | new items =>
    show BaseTree.tryFromIterWithConfig A b σ (some items.length) _ c fs = _
    rw [show items.length = b ^ k by simpa [Source.leaves] using hn]
    exact hiter _
  | iter items =>
    show BaseTree.tryFromIterWithConfig A b σ (some items.length) _ c fs = _
    rw [show items.length = b ^ k by simpa [Source.leaves] using hn]
    exact hiter _
  | par π items =>
    show BaseTree.fromParIterWithConfig A b σ π items c fs = _
    unfold BaseTree.fromParIterWithConfig
    dsimp only
    rw [show items.length = b ^ k by simpa [Source.leaves] using hn,
      M.bind_ok (a := (nodes b k, k + 1)) (fs' := fs)
        (by rw [M.ofRes_run, BaseTree.sizes_ok hb hk hf])]
    dsimp only
    rw [M.bind_ok hnew, if_neg (by exact Bool.false_ne_true),
      M.bind_ok (a := (⟨some bs.length, c.file, nodes b k⟩ : MmapStore E)) (fs' := fs)
        (by unfold populateDataPar; rw [if_pos hne]; rfl), M.bind_error hm]
  | data ds =>
    show BaseTree.tryFromIterWithConfig A b σ (some ds.length) _ c fs = _
    rw [show ds.length = b ^ k by simpa [Source.leaves] using hn]
    exact hiter _
  | bytes es => cases hby

/-- `from_byte_slice_with_config` over the finished file of an `MmapStore` tree builds the tree of
the bytes it is given. -/
theorem BaseTree.fromByteSliceWithConfig_mmap (hb : Arity b) (hb' : b ≤ buildChunkNodes) (hk : 1 ≤ k)
    (hf : FloatRows.ExactAt b k) {bs : Bytes} (hfile : fs.file c.file = some bs)
    (hl : bs.length = nodes b k * Element.byteLen E) {σ : Sched} (hσ : σ.Valid) (d : E)
    {es : List E} (hn : es.length = b ^ k) :
    ∃ (t : BaseTree (MmapStore E) E) (fs' : FS),
      BaseTree.fromByteSliceWithConfig A b σ (encodeAll es) c fs = (.ok t, fs') ∧
      t.IsMerkle A b k (fun i => es.getD i d) fs' := by
  have hle : (encodeAll es).length ≤ bs.length := by
    rw [length_encodeAll, hl, hn]
    exact Nat.mul_le_mul_right _ (pow_le_nodes b k)
  obtain ⟨fs2, g1, g2, g3⟩ := MmapStore.mapWrite_ok (E := E)
    (s := ⟨some bs.length, c.file, nodes b k⟩) (off := 0) (data := encodeAll es) hfile rfl
    (by simpa using hle)
  have hpl : (patch bs 0 (encodeAll es)).length = bs.length := patch_length (by simpa using hle)
  have hfill : Filled fs2 (⟨some bs.length, c.file, es.length⟩ : MmapStore E) (nodes b k) (b ^ k)
      (fun i => es.getD i d) := by
    rw [← hn]
    refine ⟨⟨_, g2, by rw [hpl], by rw [hpl, hl]⟩, rfl, ?_⟩
    exact fill_front d g2 hle
  obtain ⟨t, fs3, r1, r2, r3, r4⟩ := BaseTree.finish_ok (A := A) hb hb' hk hσ hfill (some c)
  refine ⟨t, fs3, ?_, r2⟩
  unfold BaseTree.fromByteSliceWithConfig
  rw [M.bind_ok (a := b ^ k) (fs' := fs) (by
    unfold BaseTree.sliceLeafs
    rw [M.ofRes_run, modP_encodeAll, Res.ok_bind, ensure_true rfl, Res.ok_bind, div_encodeAll, hn])]
  rw [M.bind_ok (a := (nodes b k, k + 1)) (fs' := fs)
    (by rw [M.ofRes_run, BaseTree.sizes_ok hb hk hf])]
  dsimp only
  have hnew : Store.newFromSliceWithConfig (S := MmapStore E) (nodes b k) b (encodeAll es) c fs
      = (.ok ⟨some bs.length, c.file, es.length⟩, fs2) := by
    show MmapStore.newFromSliceWithConfig _ _ _ _ _ = _
    unfold MmapStore.newFromSliceWithConfig
    rw [M.bind_ok (a := 0) (fs' := fs) (by rw [M.ofRes_run, modP_encodeAll]),
      M.bind_ok (mEnsure_true rfl _ _),
      M.bind_ok ((MmapStore.newWithConfig_existing hfile).trans (MmapStore.newFromDisk_run hfile hl)),
      M.bind_ok (a := (⟨some bs.length, c.file, nodes b k⟩ : MmapStore E)) (fs' := fs) (by rfl),
      M.bind_ok g1, div_encodeAll]
    rfl
  rw [M.bind_ok hnew]
  exact r1

/-! ### `LevelCacheStore` -/

theorem LevelCacheStore.newWithConfig_existing {n : Nat} {bs : Bytes}
    (hfile : fs.file c.file = some bs) :
    LevelCacheStore.newWithConfig (E := E) n b c fs = LevelCacheStore.newFromDisk n b c fs := by
  unfold LevelCacheStore.newWithConfig
  rw [M.bind_ok (pathExists_run _ _), hfile]
  rfl

/-- Without a reader the store looks for the root behind the end of its file. -/
theorem LevelCacheStore.last_no_reader (hd : c.rowsToDiscard < k) (hb : 1 ≤ b) {bs : Bytes}
    (hfile : fs.file c.file = some bs)
    (hl : bs.length = nodes b (k - 1 - c.rowsToDiscard) * Element.byteLen E) {ld : Bool} {n : Nat} :
    Res.IsErr (StoreOps.last fs (⟨nodes b k, c.file, b ^ k,
      rowStart b k (c.rowsToDiscard + 1) * Element.byteLen E, ld, n, none⟩ : LevelCacheStore E)) := by
  have hp := nodes_pos b k
  have hle := rowStart_le_nodes b k (c.rowsToDiscard + 1) hd
  have hp2 := nodes_pos b (k - (c.rowsToDiscard + 1))
  have hpow : 0 < b ^ k := Nat.pow_pos hb
  have hL := LawfulElement.byteLen_pos (E := E)
  unfold StoreOps.last
  show Res.IsErr (subP (nodes b k) 1 >>= _)
  rw [subP_ok hp, Res.ok_bind]
  show Res.IsErr (LevelCacheStore.readAt _ _ _)
  apply LevelCacheStore.readAt_run_err
  unfold LevelCacheStore.storeReadRange
  rw [subP_ok (by omega), Res.ok_bind]
  have hge : rowStart b k (c.rowsToDiscard + 1) * Element.byteLen E
      ≤ (nodes b k - 1) * Element.byteLen E := Nat.mul_le_mul_right _ (by omega)
  rw [ensure_true (by right; exact hge), Res.ok_bind]
  dsimp only
  unfold LevelCacheStore.adjustedStart
  dsimp only
  rw [if_pos hge, if_pos Option.isNone_none, ← Nat.sub_mul, ← Nat.add_mul, FS.readExactAt, FS.contents_ok hfile,
    Res.ok_bind, if_neg (by omega), if_neg]
  · exact ⟨_, rfl⟩
  · rw [hl, Nat.add_sub_cancel_left]
    have e1 : (nodes b k - 1 - rowStart b k (c.rowsToDiscard + 1) + b ^ k) * Element.byteLen E
        + Element.byteLen E = (nodes b k - rowStart b k (c.rowsToDiscard + 1) + b ^ k) * Element.byteLen E := by
      rw [← Nat.succ_mul]
      congr 1
      omega
    rw [e1, Nat.not_le]
    apply Nat.mul_lt_mul_of_pos_right _ hL
    rw [show k - 1 - c.rowsToDiscard = k - (c.rowsToDiscard + 1) by omega]
    omega

theorem map_eq_of_forall₂ {α β γ : Type} {f : α → γ} {g : β → γ} {xs : List α} {ys : List β}
    (h : List.Forall₂ (fun x y => g y = f x) xs ys) : ys.map g = xs.map f := by
  induction h with
  | nil => rfl
  | cons h _ ih => simp [h, ih]

theorem ensure_congr {p q : Prop} [Decidable p] [Decidable q] (h : p ↔ q) (m : String) :
    ensure p m = ensure q m := by
  by_cases hp : p
  · rw [ensure_true hp, ensure_true (h.1 hp)]
  · rw [ensure_false hp, ensure_false fun hq => hp (h.2 hq)]

theorem all_head_iff {α β : Type} {f : α → Nat} {g : β → Nat} {xs : List α} {ys : List β}
    (h : ys.map g = xs.map f) :
    (∀ y ∈ ys, some (g y) = ys.head?.map g) ↔ ∀ x ∈ xs, some (f x) = xs.head?.map f := by
  have e1 : (∀ y ∈ ys, some (g y) = ys.head?.map g) ↔
      ∀ n ∈ ys.map g, some n = (ys.map g).head? := by simp [List.head?_map]
  have e2 : (∀ x ∈ xs, some (f x) = xs.head?.map f) ↔
      ∀ n ∈ xs.map f, some n = (xs.map f).head? := by simp [List.head?_map]
  rw [e1, e2, h]

theorem Res.map_bind_congr {α β β' γ : Type} {x : Res α} {f : α → Res β} {f' : α → Res β'}
    {g : β → γ} {g' : β' → γ} (h : ∀ a, (f a).map g = (f' a).map g') :
    (x >>= f).map g = (x >>= f').map g' := by
  cases x with
  | error e => rfl
  | ok a => exact h a

/-- `from_trees` looks only at roots and sizes. -/
theorem fromTrees_congr {S₁ S₂ : Type} [StoreOps S₁ E] [StoreOps S₂ E] (A : Alg E) (sub : Nat)
    {ts : List (BaseTree S₁ E)} {us : List (BaseTree S₂ E)}
    (h : List.Forall₂ (fun t u => u.summary = t.summary) ts us) :
    (fromTrees A sub us).map (fun n => (n.root, n.leafs, n.len, n.rowCount))
      = (fromTrees A sub ts).map (fun n => (n.root, n.leafs, n.len, n.rowCount)) := by
  have e0 : us.map BaseTree.summary = ts.map BaseTree.summary := map_eq_of_forall₂ h
  have e1 : us.map BaseTree.root = ts.map BaseTree.root := by
    have := congrArg (List.map Prod.fst) e0
    simpa [List.map_map, Function.comp_def, BaseTree.summary] using this
  have e2 : us.map BaseTree.leafs = ts.map BaseTree.leafs := by
    have := congrArg (List.map fun x => x.2.1) e0
    simpa [List.map_map, Function.comp_def, BaseTree.summary] using this
  have e3 : us.map BaseTree.length = ts.map BaseTree.length := by
    have := congrArg (List.map fun x => x.2.2.1) e0
    simpa [List.map_map, Function.comp_def, BaseTree.summary] using this
  have e4 : us.map BaseTree.rowCount = ts.map BaseTree.rowCount := by
    have := congrArg (List.map fun x => x.2.2.2) e0
    simpa [List.map_map, Function.comp_def, BaseTree.summary] using this
  have e5 : us.length = ts.length := by simpa using congrArg List.length e0
  have e6 : us.foldl (fun n c => n + c.leafs) 0 = ts.foldl (fun n c => n + c.leafs) 0 := by
    have := congrArg (List.foldl (fun n m => n + m) 0) e2
    simpa [List.foldl_map] using this
  unfold fromTrees Node.assemble
  rw [ensure_congr (all_head_iff e4), ensure_congr (all_head_iff e3),
    ensure_congr (show us.length = sub ↔ ts.length = sub by rw [e5]), e1, e5, e6]
  refine Res.map_bind_congr fun _ => Res.map_bind_congr fun _ => Res.map_bind_congr fun _ =>
    Res.map_bind_congr fun _ => ?_
  cases h with
  | nil => rfl
  | cons h0 _ =>
    have e7 := congrArg (fun x : E × Nat × Nat × Nat => x.2.2.1) h0
    have e8 := congrArg (fun x : E × Nat × Nat × Nat => x.2.2.2) h0
    simp only [BaseTree.summary] at e7 e8
    simp only [idxP, List.getElem?_cons_zero, Res.ok_bind, e7, e8]
    rfl

end
end Verif
