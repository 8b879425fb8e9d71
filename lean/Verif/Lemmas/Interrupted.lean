import Verif.Lemmas.Reopen
import Verif.Lemmas.Iterators
import Verif.Lemmas.TreeSlice
/-!
Constructors that find a file which need not hold a tree.
-/
namespace Verif
open Spec StoreOps

set_option linter.unusedSectionVars false

theorem region_drop_eq {bs : Bytes} {off n : Nat} (h : bs.length = off + n) :
    region bs off n = bs.drop off := by
  unfold region
  exact List.take_of_length_le (by simp; omega)

theorem drop_patch {bs : Bytes} {off m : Nat} {data : Bytes} (h : off + data.length ≤ m)
    (hm : off + data.length ≤ bs.length) : (patch bs off data).drop m = bs.drop m := by
  apply List.ext_getElem?
  intro i
  rw [List.getElem?_drop, List.getElem?_drop, patch_getElem? hm, if_neg (by omega)]

section
variable {E : Type} [Element E] [LawfulElement E] [FloatRows] {A : Alg E} {b k n : Nat}
  {c : StoreConfig} {fs : FS} {bs : Bytes}

/-! ### `DiskStore` -/

theorem DiskStore.last_loaded (hfile : fs.file c.file = some bs) (hn : 0 < n)
    (hl : bs.length = n * Element.byteLen E) (ld : Bool) (m : Nat) :
    StoreOps.last fs (⟨n, c.file, ld, m⟩ : DiskStore E)
      = Element.fromSlice (bs.drop ((n - 1) * Element.byteLen E)) := by
  have hp := LawfulElement.byteLen_pos (E := E)
  obtain ⟨n, rfl⟩ : ∃ j, n = j + 1 := ⟨n - 1, by omega⟩
  have e : (n + 1) * Element.byteLen E = n * Element.byteLen E + Element.byteLen E := by ring
  unfold StoreOps.last
  show (subP (n + 1) 1 >>= _) = _
  rw [subP_ok (by omega), Res.ok_bind, Nat.add_sub_cancel]
  show DiskStore.readAt _ _ _ = _
  unfold DiskStore.readAt DiskStore.checkRange DiskStore.storeReadRange
  dsimp only
  rw [ensure_true (by omega), Res.ok_bind, ensure_true (by omega), Res.ok_bind, subP_ok (by omega),
    Res.ok_bind, Nat.add_sub_cancel_left, readExactAt_ok hfile (by omega), Res.ok_bind,
    region_drop_eq (by omega)]

/-- Every constructor but `from_byte_slice_with_config`, over a file of full length. -/
theorem Source.build_disk_full (hb : Arity b) (hk : 1 ≤ k) (hf : FloatRows.ExactAt b k)
    (hfile : fs.file c.file = some bs) (hl : bs.length = nodes b k * Element.byteLen E) (σ : Sched)
    {src : Source A} (hby : src.isBytes = false) (hn : src.leaves.length = b ^ k) :
    src.build b σ (some c) fs = ((Element.fromSlice (bs.drop ((nodes b k - 1) * Element.byteLen E))).map
      (BaseTree.ofLoaded b k
        (⟨nodes b k, c.file, true, nodes b k * Element.byteLen E⟩ : DiskStore E)), fs) := by
  have hnew : Store.newWithConfig (S := DiskStore E) (nodes b k) b c fs
      = (.ok ⟨nodes b k, c.file, true, nodes b k * Element.byteLen E⟩, fs) :=
    (DiskStore.newWithConfig_existing hfile).trans (DiskStore.newFromDisk_run hfile hl)
  rw [Source.build_loaded hb hk hf hnew rfl σ hby hn,
    DiskStore.last_loaded hfile (nodes_pos b k) hl]

/-- `from_byte_slice_with_config` on `DiskStore` over an existing file. -/
theorem Source.build_disk_bytes (hb : Arity b) (hf : FloatRows.FloorAt b n)
    (hfile : fs.file c.file = some bs) (σ : Sched) {src : Source A} (hby : src.isBytes = true)
    (hn : src.leaves.length = n) :
    ∃ m, src.build (S := DiskStore E) b σ (some c) fs = (.error (.err m), fs) := by
  have h2 := hb.two_le
  cases src with
  | bytes es =>
    have hn : es.length = n := hn
    rcases hsz : BaseTree.sizes b n with e | ⟨size, rows⟩
    · rcases sizes_returns (b := b) (n := n) (by omega) with ⟨a, ha⟩ | ⟨m, hm⟩
      · rw [hsz] at ha; cases ha
      · rw [hsz] at hm; cases hm
        exact ⟨m, Source.build_bad_sizes hsz σ (by exact hn)⟩
    · have hne : size ≠ n := by
        rcases sizes_cases hb hf with ⟨m, hm⟩ | ⟨j, hj, rfl⟩ | ⟨d, q, hq, hd, hdb, rfl, hp, hs⟩
        · rw [hm] at hsz; cases hsz
        · rw [BaseTree.sizes_ok hb hj (hf.exact hb (by omega))] at hsz
          cases hsz
          exact pow_ne_nodes hj
        · rw [hs] at hsz
          cases hsz
          intro he
          exact pow_ne_nodes hq (Nat.eq_of_mul_eq_mul_left (by omega) he)
      show ∃ m, BaseTree.fromByteSliceWithConfig A b σ (encodeAll es) c fs = _
      unfold BaseTree.fromByteSliceWithConfig
      rw [M.bind_ok (a := n) (fs' := fs) (by
        unfold BaseTree.sliceLeafs
        rw [M.ofRes_run, modP_encodeAll, Res.ok_bind, ensure_true rfl, Res.ok_bind, div_encodeAll, hn]),
        M.bind_ok (a := (size, rows)) (fs' := fs) (by rw [M.ofRes_run, hsz])]
      dsimp only
      by_cases hl : bs.length = size * Element.byteLen E
      · obtain ⟨m, hm⟩ := DiskStore.build_len (A := A) (b := b) (n := n) (rows := rows) σ
          (s := (⟨size, c.file, true, size * Element.byteLen E⟩ : DiskStore E)) fs hne (some c)
        refine ⟨m, ?_⟩
        rw [M.bind_ok (a := (⟨size, c.file, true, size * Element.byteLen E⟩ : DiskStore E))
          (fs' := fs) (by
            show DiskStore.newFromSliceWithConfig _ _ _ _ _ = _
            unfold DiskStore.newFromSliceWithConfig
            rw [M.bind_ok (a := 0) (fs' := fs) (by rw [M.ofRes_run, modP_encodeAll]),
              M.bind_ok (mEnsure_true rfl _ _),
              M.bind_ok ((DiskStore.newWithConfig_existing hfile).trans
                (DiskStore.newFromDisk_run hfile hl))]
            rfl)]
        exact M.bind_error hm
      · obtain ⟨m, hw⟩ := DiskStore.newFromDisk_wrong (E := E) (b := b) (n := size) hfile hl
        refine ⟨m, ?_⟩
        apply M.bind_error
        show DiskStore.newFromSliceWithConfig _ _ _ _ _ = _
        unfold DiskStore.newFromSliceWithConfig
        rw [M.bind_ok (a := 0) (fs' := fs) (by rw [M.ofRes_run, modP_encodeAll]),
          M.bind_ok (mEnsure_true rfl _ _),
          M.bind_error ((DiskStore.newWithConfig_existing hfile).trans hw)]
  | _ => cases hby

/-- Constructors over a file of another length than they ask for. -/
theorem Source.build_disk_wrong (hb : Arity b) (hk : 1 ≤ k) (hf : FloatRows.ExactAt b k)
    (hfile : fs.file c.file = some bs) (hl : bs.length ≠ nodes b k * Element.byteLen E) (σ : Sched)
    {src : Source A} (hby : src.isBytes = false) (hn : src.leaves.length = b ^ k) :
    ∃ m, src.build (S := DiskStore E) b σ (some c) fs = (.error (.err m), fs) := by
  obtain ⟨m, hw⟩ := DiskStore.newFromDisk_wrong (E := E) (b := b) (n := nodes b k) hfile hl
  have hw : DiskStore.newWithConfig (E := E) (nodes b k) b c fs = (.error (.err m), fs) :=
    (DiskStore.newWithConfig_existing hfile).trans hw
  exact ⟨m, Source.build_refused (BaseTree.sizes_ok hb hk hf) hw σ hby hn⟩

/-! ### `MmapStore` -/

theorem Source.mmap_ne_one {σ : Sched} {src : Source A} {cfg : Option StoreConfig}
    {fs fs' : FS} {t : BaseTree (MmapStore E) E} (h : src.build b σ cfg fs = (.ok t, fs')) : b ≠ 1 := by
  cases src <;> cases cfg <;> simp only [build, BaseTree.new, BaseTree.newWithConfig, BaseTree.fromData,
    BaseTree.fromDataWithConfig] at h
  · exact BaseTree.tryFromIter_ne_one h
  · exact BaseTree.tryFromIterWithConfig_ne_one (fun _ _ _ _ => rfl) h
  · exact BaseTree.tryFromIter_ne_one h
  · exact BaseTree.tryFromIterWithConfig_ne_one (fun _ _ _ _ => rfl) h
  · exact BaseTree.fromParIter_ne_one h
  · exact BaseTree.fromParIterWithConfig_ne_one (fun _ _ _ _ => rfl) h
  · exact BaseTree.tryFromIter_ne_one h
  · exact BaseTree.tryFromIterWithConfig_ne_one (fun _ _ _ _ => rfl) h
  · exact BaseTree.fromByteSlice_ne_one h
  · exact BaseTree.fromByteSliceWithConfig_ne_one h

theorem MmapStore.newFromDisk_wrong {n : Nat} (hfile : fs.file c.file = some bs)
    (hl : bs.length ≠ n * Element.byteLen E) :
    ∃ m, MmapStore.newFromDisk (E := E) n b c fs = (.error (.err m), fs) := by
  unfold MmapStore.newFromDisk
  rw [M.bind_ok (pathExists_run _ _), hfile, M.bind_ok (mEnsure_true (by rfl) _ _),
    M.bind_ok (a := bs.length) (fs' := fs) (by
      rw [M.get_run, FS.fileLen, FS.contents_ok hfile]; rfl),
    M.bind_error (mEnsure_false hl _ _)]
  exact ⟨_, rfl⟩

/-- The bytes given to `from_byte_slice_with_config` replace the beginning of an existing file. -/
theorem BaseTree.fromByteSliceWithConfig_mmap_start {size rows : Nat} {es : List E}
    (hsz : BaseTree.sizes b es.length = .ok (size, rows)) (hle : es.length ≤ size)
    (hfile : fs.file c.file = some bs) (hl : bs.length = size * Element.byteLen E) (σ : Sched) (d : E) :
    ∃ (s : MmapStore E) (fs2 : FS), Filled fs2 s size es.length (fun i => es.getD i d) ∧
      BaseTree.fromByteSliceWithConfig A b σ (encodeAll es) c fs
        = (do
            let (root, s) ← Store.build A b σ s es.length rows (some c)
            pure (⟨s, es.length, size, rows, root⟩ : BaseTree (MmapStore E) E)) fs2 := by
  have hle : (encodeAll es).length ≤ bs.length := by
    rw [length_encodeAll, hl]
    exact Nat.mul_le_mul_right _ hle
  obtain ⟨fs2, g1, g2, g3⟩ := MmapStore.mapWrite_ok (E := E)
    (s := ⟨some bs.length, c.file, size⟩) (off := 0) (data := encodeAll es) hfile rfl
    (by simpa using hle)
  have hpl : (patch bs 0 (encodeAll es)).length = bs.length := patch_length (by simpa using hle)
  refine ⟨⟨some bs.length, c.file, es.length⟩, fs2,
    ⟨⟨_, g2, by rw [hpl], by rw [hpl, hl]⟩, rfl, fill_front d g2 hle⟩, ?_⟩
  unfold BaseTree.fromByteSliceWithConfig
  rw [M.bind_ok (a := es.length) (fs' := fs) (by
    unfold BaseTree.sliceLeafs
    rw [M.ofRes_run, modP_encodeAll, Res.ok_bind, ensure_true rfl, Res.ok_bind, div_encodeAll])]
  rw [M.bind_ok (a := (size, rows)) (fs' := fs) (by rw [M.ofRes_run, hsz])]
  dsimp only
  have hnew : Store.newFromSliceWithConfig (S := MmapStore E) size b (encodeAll es) c fs
      = (.ok ⟨some bs.length, c.file, es.length⟩, fs2) := by
    show MmapStore.newFromSliceWithConfig _ _ _ _ _ = _
    unfold MmapStore.newFromSliceWithConfig
    rw [M.bind_ok (a := 0) (fs' := fs) (by rw [M.ofRes_run, modP_encodeAll]),
      M.bind_ok (mEnsure_true rfl _ _),
      M.bind_ok ((MmapStore.newWithConfig_existing hfile).trans (MmapStore.newFromDisk_run hfile hl)),
      M.bind_ok (a := (⟨some bs.length, c.file, size⟩ : MmapStore E)) (fs' := fs) (by rfl),
      M.bind_ok g1, div_encodeAll]
    rfl
  rw [M.bind_ok hnew]

/-- The other constructors with a configuration over an existing file of the right length: the store
claims to hold all the nodes already, and `build` wants one that holds the leaves. -/
theorem Source.build_mmap_nonempty {size rows : Nat} (hsz : BaseTree.sizes b n = .ok (size, rows))
    (hne : size ≠ n) (h0 : 0 < size) (hfile : fs.file c.file = some bs)
    (hl : bs.length = size * Element.byteLen E) (σ : Sched) {src : Source A}
    (hby : src.isBytes = false) (hn : src.leaves.length = n) :
    ∃ m, src.build (S := MmapStore E) b σ (some c) fs = (.error (.err m), fs) := by
  have hnew : Store.newWithConfig (S := MmapStore E) size b c fs
      = (.ok ⟨some bs.length, c.file, size⟩, fs) :=
    (MmapStore.newWithConfig_existing hfile).trans (MmapStore.newFromDisk_run hfile hl)
  have hemp : StoreOps.isEmpty (E := E) (⟨some bs.length, c.file, size⟩ : MmapStore E) = false := by
    show (size == 0) = false
    simp; omega
  obtain ⟨m, hm⟩ := defaultBuild_len (A := A) (b := b) (n := n) (rows := rows) σ
    (s := (⟨some bs.length, c.file, size⟩ : MmapStore E)) fs hne (some c)
  have hm : Store.build A b σ (⟨some bs.length, c.file, size⟩ : MmapStore E) n rows
    (some c) fs = _ := hm
  refine ⟨m, ?_⟩
  have hiter : ∀ items : List (Res E),
      BaseTree.tryFromIterWithConfig (S := MmapStore E) A b σ (some n) items c fs
        = (.error (.err m), fs) := by
    intro items
    unfold BaseTree.tryFromIterWithConfig
    dsimp only
    rw [M.bind_ok (a := (size, rows)) (fs' := fs) (by rw [M.ofRes_run, hsz])]
    dsimp only
    rw [M.bind_ok hnew, if_neg (by exact Bool.false_ne_true),
      M.bind_ok (BaseTree.M.expect_ok _ (a := (⟨some bs.length, c.file, size⟩ : MmapStore E))
        (fs' := fs) (by unfold populateData; rw [if_pos hemp]; rfl)), M.bind_error hm]
  cases src with
  | new items =>
    show BaseTree.tryFromIterWithConfig A b σ (some items.length) _ c fs = _
    rw [show items.length = n by simpa [Source.leaves] using hn]
    exact hiter _
  | iter items =>
    show BaseTree.tryFromIterWithConfig A b σ (some items.length) _ c fs = _
    rw [show items.length = n by simpa [Source.leaves] using hn]
    exact hiter _
  | par π items =>
    show BaseTree.fromParIterWithConfig A b σ π items c fs = _
    unfold BaseTree.fromParIterWithConfig
    dsimp only
    rw [show items.length = n by simpa [Source.leaves] using hn,
      M.bind_ok (a := (size, rows)) (fs' := fs) (by rw [M.ofRes_run, hsz])]
    dsimp only
    rw [M.bind_ok hnew, if_neg (by exact Bool.false_ne_true),
      M.bind_ok (a := (⟨some bs.length, c.file, size⟩ : MmapStore E)) (fs' := fs)
        (by unfold populateDataPar; rw [if_pos hemp]; rfl), M.bind_error hm]
  | data ds =>
    show BaseTree.tryFromIterWithConfig A b σ (some ds.length) _ c fs = _
    rw [show ds.length = n by simpa [Source.leaves] using hn]
    exact hiter _
  | bytes es => cases hby

/-- A tree an `MmapStore` constructor returns is the tree of its leaves, whatever is on disk. -/
theorem Source.build_mmap_sound (hA : A.LawfulReset) {σ : Sched} (hσ : σ.Valid) {src : Source A}
    (hs : src.Valid) (hf : FloatRows.FloorAt b src.leaves.length) {fs' : FS}
    {t : BaseTree (MmapStore E) E} (h : src.build b σ (some c) fs = (.ok t, fs')) :
    ∃ k, t.IsTreeOf A b k src.leaves fs' := by
  cases hfile : fs.file c.file with
  | none =>
    obtain ⟨_, _, k, d, _, _, hn, hm, _⟩ := Source.build_sound hA hσ hs hf
      (cfg := some c) (fun c' h' => by cases h'; exact hfile) h
    exact ⟨k, hm.isTreeOf hn⟩
  | some bs =>
    have h1 := Source.mmap_ne_one h
    rcases hsz : BaseTree.sizes b src.leaves.length with e | ⟨size, rows⟩
    · rw [Source.build_bad_sizes hsz σ rfl] at h
      cases h
    have hb : Arity b := by
      by_cases hp : IsPow2 b
      · exact arity_of_pow2 hp h1
      · obtain ⟨m, hm⟩ := sizes_err (b := b) (n := src.leaves.length) (by tauto)
        rw [hm] at hsz; cases hsz
    have h2 := hb.two_le
    by_cases hl : bs.length = size * Element.byteLen E
    case neg =>
      exfalso
      obtain ⟨m, hw⟩ := MmapStore.newFromDisk_wrong (E := E) (b := b) (n := size) hfile hl
      have hw : MmapStore.newWithConfig (E := E) size b c fs = (.error (.err m), fs) :=
        (MmapStore.newWithConfig_existing hfile).trans hw
      cases hby : src.isBytes with
      | false =>
        rw [Source.build_refused (S := MmapStore E) hsz hw σ hby rfl] at h
        cases h
      | true =>
        cases src with
        | bytes es =>
          have : BaseTree.fromByteSliceWithConfig (S := MmapStore E) A b σ (encodeAll es) c fs
              = (.error (.err m), fs) := by
            unfold BaseTree.fromByteSliceWithConfig
            rw [M.bind_ok (a := es.length) (fs' := fs) (by
              unfold BaseTree.sliceLeafs
              rw [M.ofRes_run, modP_encodeAll, Res.ok_bind, ensure_true rfl, Res.ok_bind, div_encodeAll]),
              M.bind_ok (a := (size, rows)) (fs' := fs) (by rw [M.ofRes_run]; exact congrArg (·, fs) hsz)]
            dsimp only
            apply M.bind_error
            show MmapStore.newFromSliceWithConfig _ _ _ _ _ = _
            unfold MmapStore.newFromSliceWithConfig
            rw [M.bind_ok (a := 0) (fs' := fs) (by rw [M.ofRes_run, modP_encodeAll]),
              M.bind_ok (mEnsure_true rfl _ _), M.bind_error hw]
          have h : BaseTree.fromByteSliceWithConfig A b σ (encodeAll es) c fs = (.ok t, fs') := h
          rw [this] at h
          cases h
        | _ => cases hby
    case pos =>
    have hshape : src.leaves.length < size ∧ 0 < size := by
      rcases sizes_cases hb hf with ⟨m, hm⟩ | ⟨j, hj, hn⟩ | ⟨d, q, hq, hd, hdb, hn, hp, hs⟩
      · rw [hm] at hsz; cases hsz
      · rw [hn] at hf hsz
        rw [BaseTree.sizes_ok hb hj (hf.exact hb (by omega))] at hsz
        cases hsz
        have := pow_ne_nodes (b := b) hj
        have := pow_le_nodes b j
        have := nodes_pos b j
        omega
      · rw [hs] at hsz
        cases hsz
        have h1 := pow_ne_nodes (b := b) hq
        have h2 := pow_le_nodes b q
        have h3 := nodes_pos b q
        refine ⟨?_, by positivity⟩
        rw [hn]
        exact Nat.mul_lt_mul_of_pos_left (by omega) (by omega)
    cases hby : src.isBytes with
    | false =>
      obtain ⟨m, hm⟩ := Source.build_mmap_nonempty hsz (by omega) hshape.2 hfile hl σ hby rfl
      rw [hm] at h
      cases h
    | true =>
      cases src with
      | bytes es =>
        obtain ⟨s, fs2, g1, g2⟩ := BaseTree.fromByteSliceWithConfig_mmap_start (A := A) (es := es) hsz
          (by exact hshape.1.le) hfile hl σ Element.default
        have h : BaseTree.fromByteSliceWithConfig A b σ (encodeAll es) c fs = (.ok t, fs') := h
        have hlen : (Source.bytes (A := A) es).leaves.length = es.length := rfl
        rw [hlen] at hf hsz hshape
        by_cases hb' : b ≤ buildChunkNodes
        · rcases sizes_cases hb hf with ⟨m, hm⟩ | ⟨j, hj, hn⟩ | ⟨d, q, hq, hd, hdb, hn, hp, hs⟩
          · rw [hm] at hsz; cases hsz
          · rw [hn] at hf hsz
            have he := hf.exact hb (by omega)
            rw [BaseTree.sizes_ok hb hj he] at hsz
            cases hsz
            obtain ⟨u, fs3, r1, r2⟩ := BaseTree.fromByteSliceWithConfig_mmap (A := A) hb hb' hj he hfile
              hl hσ Element.default hn
            rw [h] at r1
            cases r1
            exact ⟨j, r2.isTreeOf hn⟩
          · exfalso
            rw [hs] at hsz
            cases hsz
            rw [hn] at g1
            obtain ⟨e, fs3, r1, _⟩ := RejectingStore.build_err (A := A) hb hb' hq hd hdb
              (by
                obtain ⟨a, ha⟩ := hp
                rw [← hn, ha]
                cases a with
                | zero =>
                  have : 1 ≤ b ^ q := Nat.one_le_pow _ _ (by omega)
                  rw [hn] at ha
                  nlinarith
                | succ a => rw [Nat.pow_succ]; omega) hσ ⟨_, g1⟩ (some c)
            rw [g2, hn, M.bind_error r1] at h
            cases h
        · exfalso
          have hle : b ≤ es.length := by
            by_contra hlt
            obtain ⟨m, hm⟩ := sizes_err (b := b) (n := es.length) (by omega)
            rw [hm] at hsz; cases hsz
          have hev : es.length % 2 = 0 := by
            by_contra hodd
            obtain ⟨m, hm⟩ := sizes_err (b := b) (n := es.length) (by
              by_cases h1 : es.length ≤ 1
              · exact Or.inl h1
              · refine Or.inr (Or.inl ?_)
                rintro ⟨a, ha⟩
                cases a with
                | zero => simp at ha; omega
                | succ a => rw [Nat.pow_succ] at ha; omega)
            rw [hm] at hsz; cases hsz
          obtain ⟨m, fs3, r1⟩ := RejectingStore.build_wide (A := A) (rows := rows) hb (by omega) hle hev σ
            ⟨_, g1⟩ (some c)
          rw [g2, M.bind_error r1] at h
          cases h
      | _ => cases hby

/-! ### `LevelCacheStore` -/

/-- The root a level-cache store without a reader gives: some node of the middle of its file. -/
theorem LevelCacheStore.last_loaded (hb : 1 ≤ b) (hd : c.rowsToDiscard < k)
    (hfile : fs.file c.file = some bs) (ld : Bool) (m : Nat) :
    StoreOps.last fs (⟨nodes b k, c.file, b ^ k,
      rowStart b k (c.rowsToDiscard + 1) * Element.byteLen E, ld, m, none⟩ : LevelCacheStore E)
      = if (b ^ k + nodes b (k - 1 - c.rowsToDiscard)) * Element.byteLen E ≤ bs.length then
          Element.fromSlice (region bs
            ((b ^ k + nodes b (k - 1 - c.rowsToDiscard) - 1) * Element.byteLen E) (Element.byteLen E))
        else .error (.err "failed to fill whole buffer") := by
  have hp := nodes_pos b k
  have hle := rowStart_le_nodes b k (c.rowsToDiscard + 1) hd
  have hp2 := nodes_pos b (k - (c.rowsToDiscard + 1))
  have hpow : 0 < b ^ k := Nat.pow_pos hb
  have hL := LawfulElement.byteLen_pos (E := E)
  rw [show k - 1 - c.rowsToDiscard = k - (c.rowsToDiscard + 1) by omega]
  have hge : rowStart b k (c.rowsToDiscard + 1) * Element.byteLen E
      ≤ (nodes b k - 1) * Element.byteLen E := Nat.mul_le_mul_right _ (by omega)
  have e1 : (nodes b k - 1) * Element.byteLen E + Element.byteLen E = nodes b k * Element.byteLen E := by
    rw [← Nat.succ_mul]; congr 1; omega
  have e2 : (b ^ k + nodes b (k - (c.rowsToDiscard + 1)) - 1) * Element.byteLen E + Element.byteLen E
      = (b ^ k + nodes b (k - (c.rowsToDiscard + 1))) * Element.byteLen E := by
    rw [← Nat.succ_mul]; congr 1; omega
  have e3 : nodes b k - 1 - rowStart b k (c.rowsToDiscard + 1) + b ^ k
      = b ^ k + nodes b (k - (c.rowsToDiscard + 1)) - 1 := by omega
  unfold StoreOps.last
  show (subP (nodes b k) 1 >>= _) = _
  rw [subP_ok (show 1 ≤ nodes b k from hp), Res.ok_bind]
  show LevelCacheStore.readAt _ _ _ = _
  unfold LevelCacheStore.readAt LevelCacheStore.checkRange LevelCacheStore.storeReadRange
  dsimp only
  rw [ensure_true (by omega), Res.ok_bind, ensure_true (by omega), Res.ok_bind,
    ensure_true (by right; exact hge), Res.ok_bind, subP_ok (by omega), Res.ok_bind, Res.ok_bind]
  unfold LevelCacheStore.adjustedStart
  dsimp only
  rw [if_pos hge, if_pos Option.isNone_none, ← Nat.sub_mul, ← Nat.add_mul, Nat.add_sub_cancel_left, e3]
  unfold FS.readExactAt
  rw [FS.contents_ok hfile, Res.ok_bind, if_neg (by omega), e2]
  split <;> rfl

/-- Every constructor but `from_byte_slice_with_config`, over any existing file. -/
theorem Source.build_level_existing (hb : Arity b) (hk : 1 ≤ k) (hf : FloatRows.ExactAt b k)
    (hd : c.rowsToDiscard < k) (hfile : fs.file c.file = some bs) (σ : Sched)
    {src : Source A} (hby : src.isBytes = false) (hn : src.leaves.length = b ^ k) :
    src.build b σ (some c) fs
      = ((if (b ^ k + nodes b (k - 1 - c.rowsToDiscard)) * Element.byteLen E ≤ bs.length then
          Element.fromSlice (region bs
            ((b ^ k + nodes b (k - 1 - c.rowsToDiscard) - 1) * Element.byteLen E) (Element.byteLen E))
        else .error (.err "failed to fill whole buffer")).map (BaseTree.ofLoaded b k
        (⟨nodes b k, c.file, b ^ k, rowStart b k (c.rowsToDiscard + 1) * Element.byteLen E, true,
          bs.length, none⟩ : LevelCacheStore E)), fs) := by
  have hnew : Store.newWithConfig (S := LevelCacheStore E) (nodes b k) b c fs = _ :=
    (LevelCacheStore.newWithConfig_existing hfile).trans
      (LevelCacheStore.newFromDisk_run hb hk hf hd hfile)
  rw [Source.build_loaded hb hk hf hnew rfl σ hby hn,
    LevelCacheStore.last_loaded (by have := hb.two_le; omega) hd hfile]

/-! ### Filling that stops half way -/

section
variable {S : Type} [StoreOps S E] [CountingStore S E]

/-- What every write to the first `N` slots preserves is preserved by filling them. -/
theorem populateLoop_prefix {I : S → FS → Prop} {N : Nat}
    (hI : ∀ (s : S) buf fs s' fs', I s fs →
      len (E := E) s * Element.byteLen E + buf.length ≤ N * Element.byteLen E →
      copyFromSlice (E := E) s buf (len (E := E) s) fs = (.ok s', fs') → I s' fs') :
    ∀ (items : List (Res E)) (a : A.σ) (buf : Bytes) (s : S) (fs : FS) (r : Bytes × S) (fs' : FS),
    len (E := E) s * Element.byteLen E + buf.length + items.length * Element.byteLen E
      ≤ N * Element.byteLen E → I s fs →
    populateLoop A items a buf s fs = (.ok r, fs') → I r.2 fs'
  | [], a, buf, s, fs, r, fs', _, h0, h => by
    simp only [populateLoop, M.pure_run, Prod.mk.injEq, Except.ok.injEq] at h
    rw [← h.1, ← h.2]; exact h0
  | item :: items, a, buf, s, fs, r, fs', hN, h0, h => by
    have hp := LawfulElement.byteLen_pos (E := E)
    rw [populateLoop] at h
    simp only [M.bind_ok_iff] at h
    obtain ⟨x, fs1, h1, h⟩ := h
    simp only [M.ofRes_run, Prod.mk.injEq] at h1
    obtain ⟨rfl, rfl⟩ := h1
    have hl : (buf ++ Element.toBytes (A.leaf (A.reset a) x).1).length
        = buf.length + Element.byteLen E := by
      rw [List.length_append, LawfulElement.length_toBytes]
    rw [List.length_cons, Nat.add_mul, Nat.one_mul] at hN
    split at h
    · simp only [M.bind_ok_iff] at h
      obtain ⟨s1, fs2, h2, h⟩ := h
      obtain ⟨hd, h3⟩ := CountingStore.copy_len _ _ _ _ _ _ h2
      refine populateLoop_prefix hI items _ _ _ _ _ _ ?_ (hI _ _ _ _ _ h0 (by rw [hl]; omega) h2) h
      rw [h3, Nat.max_eq_right (Nat.le_add_right _ _), Nat.add_mul, Nat.div_mul_cancel hd, hl]
      simp; omega
    · exact populateLoop_prefix hI items _ _ _ _ _ _ (by rw [hl]; omega) h0 h

end

/-- The file `f` has `m` bytes, and from byte `n` on they are zero. -/
def ZeroFrom (f : FileId) (m n : Nat) (fs : FS) : Prop :=
  ∃ bs, fs.file f = some bs ∧ bs.length = m ∧ bs.drop n = List.replicate (m - n) 0

theorem ZeroFrom.write {f : FileId} {m n off : Nat} {data : Bytes} {fs fs' : FS} {u : Unit}
    (h : ZeroFrom f m n fs) (hn : n ≤ m) (hle : off + data.length ≤ n)
    (hw : FS.writeAllAt f off data fs = (.ok u, fs')) : ZeroFrom f m n fs' := by
  obtain ⟨bs, h1, h2, h3⟩ := h
  obtain ⟨fs2, g1, g2, _⟩ := writeAllAt_ok h1 (off := off) (data := data) (by omega)
  rw [hw] at g1
  cases g1
  exact ⟨_, g2, by rw [patch_length (by omega)]; exact h2, by rw [drop_patch hle (by omega)]; exact h3⟩

theorem DiskStore.copy_zero {f : FileId} {m N : Nat} (hN : N * Element.byteLen E ≤ m) (s : DiskStore E)
    (buf : Bytes) (fs : FS) (s' : DiskStore E) (fs' : FS)
    (h0 : s.file = f ∧ ZeroFrom f m (N * Element.byteLen E) fs)
    (hle : s.len * Element.byteLen E + buf.length ≤ N * Element.byteLen E)
    (h : DiskStore.copyFromSlice s buf s.len fs = (.ok s', fs')) :
    s'.file = f ∧ ZeroFrom f m (N * Element.byteLen E) fs' := by
  unfold DiskStore.copyFromSlice DiskStore.storeCopyFromSlice at h
  simp only [M.bind_ok_iff, M.ofRes_run, Prod.mk.injEq, mEnsure_ok_iff, modP_ok_iff, M.pure_run,
    Except.ok.injEq] at h
  obtain ⟨r, _, ⟨_, rfl⟩, _, _, ⟨h2, rfl⟩, _, _, ⟨_, _, ⟨_, rfl⟩, hw⟩, rfl, rfl⟩ := h
  refine ⟨h0.1, ?_⟩
  rw [h0.1] at hw
  exact h0.2.write hN hle hw

theorem LevelCacheStore.copy_zero {f : FileId} {m N : Nat} (hN : N * Element.byteLen E ≤ m)
    (s : LevelCacheStore E) (buf : Bytes) (fs : FS) (s' : LevelCacheStore E) (fs' : FS)
    (h0 : s.file = f ∧ ZeroFrom f m (N * Element.byteLen E) fs)
    (hle : s.len * Element.byteLen E + buf.length ≤ N * Element.byteLen E)
    (h : LevelCacheStore.copyFromSlice s buf s.len fs = (.ok s', fs')) :
    s'.file = f ∧ ZeroFrom f m (N * Element.byteLen E) fs' := by
  unfold LevelCacheStore.copyFromSlice LevelCacheStore.storeCopyFromSlice at h
  simp only [M.bind_ok_iff, M.ofRes_run, Prod.mk.injEq, mEnsure_ok_iff, modP_ok_iff, M.pure_run,
    Except.ok.injEq] at h
  obtain ⟨r, _, ⟨_, rfl⟩, _, _, ⟨h2, rfl⟩, _, _, ⟨_, _, ⟨_, rfl⟩, hw⟩, rfl, rfl⟩ := h
  refine ⟨h0.1, ?_⟩
  rw [h0.1] at hw
  exact h0.2.write hN hle hw

theorem zeroFrom_created {f : FileId} {m n : Nat}
    (h : fs.file f = some (List.replicate m 0)) : ZeroFrom f m n fs :=
  ⟨_, h, by simp, by simp⟩

/-- What an iterator that fails leaves behind, for any store created with a configuration. -/
theorem BaseTree.tryFromIterWithConfig_interrupted {S : Type} [Store S E] [LawfulWrite S E]
    [CountingStore S E] (hA : A.LawfulReset) {σ : Sched}
    {hint size rows : Nat} (hsz : BaseTree.sizes b hint = .ok (size, rows)) (es : List E)
    (hfit : es.length ≤ size) (m : String) (rest : List (Res E)) {s : S} {fs1 : FS}
    (hnew : Store.newWithConfig size b c fs = (.ok s, fs1))
    (hinv : LawfulWrite.Inv fs1 s size) (hlen : StoreOps.len (E := E) s = 0)
    (hemp : StoreOps.isEmpty (E := E) s = true) (hload : loadedFromDisk (E := E) s = false)
    {I : S → FS → Prop} (h0 : I s fs1)
    (hI : ∀ (s : S) buf fs s' fs', I s fs →
      StoreOps.len (E := E) s * Element.byteLen E + buf.length ≤ es.length * Element.byteLen E →
      copyFromSlice (E := E) s buf (StoreOps.len (E := E) s) fs = (.ok s', fs') → I s' fs') :
    ∃ (s' : S) (fs' : FS),
      BaseTree.tryFromIterWithConfig (S := S) A b σ (some hint) (es.map .ok ++ .error (.err m) :: rest) c fs
        = (.error (.panic "failed to populate data"), fs') ∧ I s' fs' := by
  have hf0 : Filled fs1 s size 0 (fun i => (es.map A.leafHash).getD i (A.leafHash Element.default)) :=
    ⟨hinv, hlen, fun i hi => by omega⟩
  obtain ⟨p, n, s1, fs2, g1, _⟩ := populateLoop_ok hA (es.map A.leafHash) (A.leafHash Element.default)
    (by simpa using hfit) es A.init [] 0 s fs1 hf0 (by omega) (by simp)
  have g2 := populateLoop_prefix (N := es.length) hI (es.map .ok) A.init [] s fs1 _ _ (by rw [hlen]; simp) h0 g1
  have g1' := populateLoop_error (e := .err m) rest es A.init [] s fs1 _ _ g1
  refine ⟨s1, fs2, ?_, g2⟩
  unfold BaseTree.tryFromIterWithConfig
  dsimp only
  rw [M.bind_ok (a := (size, rows)) (fs' := fs) (by rw [M.ofRes_run, hsz])]
  dsimp only
  rw [M.bind_ok hnew, hload]
  simp only [Bool.false_eq_true, ↓reduceIte]
  apply M.bind_error
  have : populateData A s (es.map .ok ++ .error (.err m) :: rest) fs1 = (.error (.err m), fs2) := by
    unfold populateData
    rw [hemp, if_neg (by simp)]
    exact M.bind_error g1'
  unfold M.expect
  rw [this]

theorem BaseTree.iterError_disk (hA : A.LawfulReset) {σ : Sched}
    {hint size rows : Nat} (hsz : BaseTree.sizes b hint = .ok (size, rows)) (es : List E)
    (hfit : es.length ≤ size) (m : String) (rest : List (Res E)) (hc : fs.file c.file = none) :
    ∃ fs', BaseTree.tryFromIterWithConfig (S := DiskStore E) A b σ (some hint)
          (es.map .ok ++ .error (.err m) :: rest) c fs
        = (.error (.panic "failed to populate data"), fs') ∧
      ZeroFrom c.file (size * Element.byteLen E) (es.length * Element.byteLen E) fs' := by
  obtain ⟨fs1, h1, h2, _⟩ := DiskStore.newWithConfig_run (E := E) fs size b c hc
  rw [Nat.mul_comm] at h2
  have hinv : LawfulWrite.Inv fs1 (⟨0, c.file, false, Element.byteLen E * size⟩ : DiskStore E) size :=
    ⟨_, h2, by simp [Nat.mul_comm], by rw [Nat.mul_comm]⟩
  obtain ⟨s', fs', g1, g2⟩ := BaseTree.tryFromIterWithConfig_interrupted (A := A) hA (σ := σ) hsz es hfit m rest
    (S := DiskStore E) (c := c) (fs := fs) h1 hinv rfl rfl rfl
    (I := fun s fs => s.file = c.file ∧
      ZeroFrom c.file (size * Element.byteLen E) (es.length * Element.byteLen E) fs)
    ⟨rfl, zeroFrom_created h2⟩ (DiskStore.copy_zero (Nat.mul_le_mul_right _ hfit))
  exact ⟨fs', g1, g2.2⟩

theorem BaseTree.iterError_level (hA : A.LawfulReset) {σ : Sched} (hb : Arity b) (hk : 1 ≤ k)
    (hf : FloatRows.ExactAt b k) (hd : c.rowsToDiscard < k) (es : List E)
    (hfit : es.length ≤ nodes b k) (m : String) (rest : List (Res E)) (hc : fs.file c.file = none) :
    ∃ fs', BaseTree.tryFromIterWithConfig (S := LevelCacheStore E) A b σ (some (b ^ k))
          (es.map .ok ++ .error (.err m) :: rest) c fs
        = (.error (.panic "failed to populate data"), fs') ∧
      ZeroFrom c.file (nodes b k * Element.byteLen E) (es.length * Element.byteLen E) fs' := by
  obtain ⟨fs1, h1, h2, _⟩ := LevelCacheStore.newWithConfig_run (E := E) hb hk hf hd hc
  rw [Nat.mul_comm] at h2
  have hinv : LawfulWrite.Inv fs1 (LevelCacheStore.built E b k c 0) (nodes b k) :=
    ⟨_, h2, by simp [LevelCacheStore.built, Nat.mul_comm],
      by simp [LevelCacheStore.built, Nat.mul_comm]⟩
  obtain ⟨s', fs', g1, g2⟩ := BaseTree.tryFromIterWithConfig_interrupted (A := A) hA (σ := σ)
    (BaseTree.sizes_ok hb hk hf) es hfit m rest
    (S := LevelCacheStore E) (c := c) (fs := fs) h1 hinv rfl rfl rfl
    (I := fun s fs => s.file = c.file ∧
      ZeroFrom c.file (nodes b k * Element.byteLen E) (es.length * Element.byteLen E) fs)
    ⟨rfl, zeroFrom_created h2⟩ (LevelCacheStore.copy_zero (Nat.mul_le_mul_right _ hfit))
  exact ⟨fs', g1, g2.2⟩

theorem zero_tail {bs : Bytes} {m n p : Nat} (h : bs.drop n = List.replicate (m - n) 0) (hp : n ≤ p) :
    bs.drop p = List.replicate (m - p) 0 := by
  have : bs.drop p = (bs.drop n).drop (p - n) := by rw [List.drop_drop]; congr 1; omega
  rw [this, h, List.drop_replicate]
  congr 1
  omega

theorem pow_add_nodes_le {d : Nat} (hd : d < k) : b ^ k + nodes b (k - 1 - d) ≤ nodes b k := by
  obtain ⟨m, rfl⟩ : ∃ m, k = m + 1 := ⟨k - 1, by omega⟩
  have : nodes b (m - d) ≤ nodes b m := by
    have : ∀ i j, nodes b i ≤ nodes b (i + j) := by
      intro i j
      induction j with
      | zero => exact le_rfl
      | succ j ih => exact ih.trans (by show _ ≤ nodes b (i + j) + _; omega)
    have h := this (m - d) d
    rwa [Nat.sub_add_cancel (by omega)] at h
  show b ^ (m + 1) + nodes b (m - d) ≤ nodes b m + b ^ (m + 1)
  omega

theorem zero_region_root {d : Nat} (hd : d < k) {bs : Bytes} (hl : bs.length = nodes b k * Element.byteLen E)
    (h : bs.drop ((b ^ k + nodes b (k - 1 - d) - 1) * Element.byteLen E)
      = List.replicate (nodes b k * Element.byteLen E
          - (b ^ k + nodes b (k - 1 - d) - 1) * Element.byteLen E) 0) :
    (if (b ^ k + nodes b (k - 1 - d)) * Element.byteLen E ≤ bs.length then
        Element.fromSlice (region bs
          ((b ^ k + nodes b (k - 1 - d) - 1) * Element.byteLen E) (Element.byteLen E))
      else .error (.err "failed to fill whole buffer"))
      = (Element.fromSlice (List.replicate (Element.byteLen E) 0) : Res E) := by
  have hle := pow_add_nodes_le (b := b) hd
  have hp := nodes_pos b (k - 1 - d)
  rw [if_pos (by rw [hl]; exact Nat.mul_le_mul_right _ hle)]
  unfold region
  rw [h, List.take_replicate, ← Nat.sub_mul, Nat.min_eq_left (Nat.le_mul_of_pos_left _ (by omega))]

theorem BaseTree.fromTreeSliceWithConfig_disk_full (hb : Arity b) (hk : 1 ≤ k)
    (hf : FloatRows.ExactAt b k) (hfile : fs.file c.file = some bs)
    (hl : bs.length = nodes b k * Element.byteLen E) {es : List E} (hlen : es.length = nodes b k) :
    BaseTree.fromTreeSliceWithConfig (S := DiskStore E) b 0 0 (encodeAll es) (b ^ k) c fs
      = ((Element.fromSlice (bs.drop ((nodes b k - 1) * Element.byteLen E))).map
          (BaseTree.ofLoaded b k
            (⟨nodes b k, c.file, true, nodes b k * Element.byteLen E⟩ : DiskStore E)), fs) := by
  unfold BaseTree.fromTreeSliceWithConfig
  rw [M.bind_ok (a := nodes b k) (fs' := fs) (by
    unfold BaseTree.treeSliceLen
    rw [M.ofRes_run, ensure_true rfl, Res.ok_bind, ensure_true rfl, Res.ok_bind,
      merkleTreeLen_pow hb hk, Res.ok_bind, length_encodeAll, divP_ok LawfulElement.byteLen_pos,
      Res.ok_bind, Nat.mul_div_cancel _ LawfulElement.byteLen_pos,
      ensure_true hlen.symm, Res.ok_bind, sizeValid_pow hb, Res.ok_bind, ensure_true rfl]
    rfl)]
  rw [M.bind_ok (a := (⟨nodes b k, c.file, true, nodes b k * Element.byteLen E⟩ : DiskStore E))
    (fs' := fs) (by
      show DiskStore.newFromSliceWithConfig _ _ _ _ _ = _
      unfold DiskStore.newFromSliceWithConfig
      rw [M.bind_ok (a := 0) (fs' := fs) (by rw [M.ofRes_run, modP_encodeAll]),
        M.bind_ok (mEnsure_true rfl _ _),
        M.bind_ok ((DiskStore.newWithConfig_existing hfile).trans (DiskStore.newFromDisk_run hfile hl))]
      rfl), rowCount_pow hf]
  have hlast := DiskStore.last_loaded (E := E) hfile (nodes_pos b k) hl true (nodes b k * Element.byteLen E)
  cases hr : Element.fromSlice (E := E) (bs.drop ((nodes b k - 1) * Element.byteLen E)) with
  | ok r =>
    rw [M.bind_ok (a := r) (fs' := fs) (by rw [M.get_run, hlast, hr])]
    rfl
  | error e =>
    rw [M.bind_error (e := e) (fs' := fs) (by rw [M.get_run, hlast, hr])]
    rfl

theorem BaseTree.fromByteSliceWithConfig_level_existing (hb : Arity b) (hk : 1 ≤ k)
    (hf : FloatRows.ExactAt b k) (hd : c.rowsToDiscard < k) {es : List E} (hn : es.length = b ^ k)
    (hfile : fs.file c.file = some bs) (σ : Sched) :
    ∃ m, BaseTree.fromByteSliceWithConfig (S := LevelCacheStore E) A b σ (encodeAll es) c fs
      = (.error (.err m), fs) := by
  refine ⟨"Inconsistent data", ?_⟩
  unfold BaseTree.fromByteSliceWithConfig
  rw [M.bind_ok (a := b ^ k) (fs' := fs) (by
    unfold BaseTree.sliceLeafs
    rw [M.ofRes_run, modP_encodeAll, Res.ok_bind, ensure_true rfl, Res.ok_bind, div_encodeAll, hn]),
    M.bind_ok (a := (nodes b k, k + 1)) (fs' := fs)
      (by rw [M.ofRes_run, BaseTree.sizes_ok hb hk hf])]
  dsimp only
  have hnew : LevelCacheStore.newWithConfig (E := E) (nodes b k) b c fs = _ :=
    (LevelCacheStore.newWithConfig_existing hfile).trans
      (LevelCacheStore.newFromDisk_run hb hk hf hd hfile)
  rw [M.bind_ok (a := (⟨nodes b k, c.file, b ^ k,
      rowStart b k (c.rowsToDiscard + 1) * Element.byteLen E, true, bs.length, none⟩ : LevelCacheStore E))
    (fs' := fs) (by
      show LevelCacheStore.newFromSliceWithConfig _ _ _ _ _ = _
      unfold LevelCacheStore.newFromSliceWithConfig
      rw [M.bind_ok (a := 0) (fs' := fs) (by rw [M.ofRes_run, modP_encodeAll]),
        M.bind_ok (mEnsure_true rfl _ _), M.bind_ok hnew]
      rfl)]
  apply M.bind_error
  show LevelCacheStore.build _ _ _ _ _ _ _ _ = _
  unfold LevelCacheStore.build
  rw [M.bind_ok (mEnsure_true ((eq_nextPow2_iff _).2 hb.pow2).symm _ _),
    M.bind_error (mEnsure_false (pow_ne_nodes hk) _ _)]

/-- A `VecStore` has no use for the configuration. -/
theorem Source.build_vec_config {σ : Sched} {src : Source A} {fs' : FS} {t : BaseTree (VecStore E) E}
    (h : src.build b σ (some c) fs = (.ok t, fs')) : src.build b σ none fs = (.ok t, fs') := by
  have hiter : ∀ (hint : Option Nat) (items : List (Res E)),
      BaseTree.tryFromIterWithConfig A b σ hint items c fs = (.ok t, fs') →
      BaseTree.tryFromIter A b σ hint items fs = (.ok t, fs') := by
    intro hint items h
    unfold BaseTree.tryFromIterWithConfig at h
    unfold BaseTree.tryFromIter
    cases hint with
    | none => exact h
    | some n =>
      dsimp only at h ⊢
      obtain ⟨⟨size, rows⟩, fs1, h1, h⟩ := M.bind_ok_iff.1 h
      rw [M.bind_ok h1]
      dsimp only at h ⊢
      obtain ⟨s, fs2, h2, h⟩ := M.bind_ok_iff.1 h
      rw [M.bind_ok (show Store.new size fs1 = (.ok s, fs2) from h2)]
      rw [if_neg (by exact Bool.false_ne_true)] at h
      obtain ⟨s2, fs3, h3, h⟩ := M.bind_ok_iff.1 h
      rw [M.bind_ok (BaseTree.M.expect_ok_iff.1 h3)]
      exact h
  cases src with
  | new items => exact hiter (some items.length) (items.map .ok) h
  | iter items => exact hiter (some items.length) (items.map .ok) h
  | data ds => exact hiter (some ds.length) ((BaseTree.dataItems A ds A.init).map .ok) h
  | par π items =>
    have h : BaseTree.fromParIterWithConfig A b σ π items c fs = (.ok t, fs') := h
    show BaseTree.fromParIter A b σ π items fs = _
    unfold BaseTree.fromParIterWithConfig at h
    unfold BaseTree.fromParIter
    dsimp only at h ⊢
    obtain ⟨⟨size, rows⟩, fs1, h1, h⟩ := M.bind_ok_iff.1 h
    rw [M.bind_ok h1]
    dsimp only at h ⊢
    obtain ⟨s, fs2, h2, h⟩ := M.bind_ok_iff.1 h
    rw [M.bind_ok (BaseTree.M.expect_ok_iff.2 (show Store.new size fs1 = (.ok s, fs2) from h2))]
    rw [if_neg (by exact Bool.false_ne_true)] at h
    exact h
  | bytes es => exact h

end
end Verif
