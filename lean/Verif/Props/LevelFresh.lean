import Verif.Lemmas.LevelProof
import Verif.Lemmas.Sources
import Verif.Props.LevelRuns
/-! Property C62: trees built on a `LevelCacheStore`, before and after a reader is set. -/
set_option linter.unusedSectionVars false
namespace Verif
open Spec StoreOps

section
variable {E : Type} [Element E] [LawfulElement E] {b k d : Nat} {s : LevelCacheStore E} {fs : FS}

/-- Without reader, and with nothing but the cached rows in the file, the store finds the cached
elements at the front. -/
theorem LevelCacheStore.View.fresh (hv : s.View b k d) (hr : s.reader = none) (hb : 2 ≤ b) (hd : d < k)
    {es : List E} (hn : es.length = nodes b (k - 1 - d)) (hf : fs.file s.file = some (encodeAll es)) :
    es.length < b ^ k ∧
    (∀ i (hi : i < es.length), LevelCacheStore.readAt fs s i = .ok es[i]) ∧
    (∀ i, es.length ≤ i → Res.IsErr (LevelCacheStore.readAt fs s i)) ∧
    (∀ a n, 0 < n → a + n ≤ es.length → RunIs fs s a n ((es.drop a).take n)) ∧
    (∀ a n, 0 < n → es.length < a + n → RunErr E fs s a n) := by
  have hlt : es.length < b ^ k := by
    rw [hn]
    exact lt_of_lt_of_le (LevelCacheStore.nodes_lt_pow hb _) (Nat.pow_le_pow_right (by omega) (by omega))
  have hge := pow_le_rowStart b k d
  have hpk := pow_le_nodes b k
  have hlen := hv.len
  -- where the file is read, if it is read at all
  have hpos : ∀ a, s.InBounds (a * Element.byteLen E) →
      ∃ j, s.adjustedStart (a * Element.byteLen E) = j * Element.byteLen E ∧
        (a < b ^ k → j = a) ∧ (b ^ k ≤ a → b ^ k ≤ j) := fun a _ => by
    rcases Nat.lt_or_ge a (rowStart b k (d + 1)) with h | h
    · exact ⟨a, hv.adjusted_low h, fun _ => rfl, id⟩
    · refine ⟨_, hv.adjusted_high h, fun h => by omega, fun _ => ?_⟩
      rw [hr]
      simp
  refine ⟨hlt, fun i hi => ?_, fun i hi => ?_, fun a n h0 ha => ?_, fun a n h0 ha => ?_⟩
  · have hib := hv.inBounds_base (i := i) (by omega)
    obtain ⟨j, hj, hj1, -⟩ := hpos i hib
    obtain rfl := hj1 (by omega)
    refine LevelCacheStore.readAt_run (by omega) hib fs (bs := Element.toBytes es[j]) ?_ rfl
    rw [LevelCacheStore.storeReadRange_none hr hib, hj, readExactAt_element hf hi]
  · refine LevelCacheStore.readAt_run_err fs ?_
    by_cases hib : s.InBounds (i * Element.byteLen E)
    · obtain ⟨j, hj, hj1, hj2⟩ := hpos i hib
      rw [LevelCacheStore.storeReadRange_none hr hib, hj]
      have := readExactAt_run_past hf (j := j) (n := 1) (by omega) (by
        rcases Nat.lt_or_ge i (b ^ k) with h | h
        · rw [hj1 h]; omega
        · have := hj2 h; omega)
      rwa [Nat.one_mul] at this
    · unfold LevelCacheStore.storeReadRange
      rw [subP_ok (by omega), Res.ok_bind, ensure_false hib]
      exact ⟨_, rfl⟩
  · have hib := hv.inBounds_base (i := a) (by omega)
    obtain ⟨j, hj, hj1, -⟩ := hpos a hib
    obtain rfl := hj1 (by omega)
    exact (LevelCacheStore.View.run_none (a := j) hr h0 (by omega) hib hj hf).1 ha
  · by_cases hal : a + n ≤ s.len
    · by_cases hib : s.InBounds (a * Element.byteLen E)
      · obtain ⟨j, hj, hj1, hj2⟩ := hpos a hib
        refine (LevelCacheStore.View.run_none (a := a) hr h0 hal hib hj hf).2 ?_
        rcases Nat.lt_or_ge a (b ^ k) with h | h
        · rw [hj1 h]; omega
        · have := hj2 h; omega
      · refine LevelCacheStore.run_err fun buf _ => ?_
        unfold LevelCacheStore.storeReadInto
        rw [ensure_false hib]
        exact ⟨_, rfl⟩
    · exact LevelCacheStore.run_err_len (by omega)

end

section
variable {E : Type} [Element E] [LawfulElement E] [FloatRows] {A : Alg E} (hA : A.LawfulReset) {b : Nat}
    {σ : Sched} (hσ : σ.Valid) {src : Source A} (hs : src.Valid)
    (hf : FloatRows.FloorAt b src.leaves.length)
    (hf' : ∀ j, b ^ j ≤ src.leaves.length → FloatRows.ExactAt b j) {c : StoreConfig} {fs fs' : FS}
    {t : BaseTree (LevelCacheStore E) E} (hc : fs.file c.file = none)
    (h : src.build b σ (some c) fs = (.ok t, fs'))
include hA hσ hs hf hc h

/-- What the store of a tree holds that was just built on a `LevelCacheStore`. -/
theorem built_view : Arity b ∧ b ≤ buildChunkNodes ∧ ∃ k f, c.rowsToDiscard < k ∧ FloatRows.ExactAt b k ∧
    IsLayout A.nodeHash b k src.leaves f ∧ t.leafs = b ^ k ∧ t.rowCount = k + 1 ∧
    t.root = f (nodes b k - 1) ∧ t.store.View b k c.rowsToDiscard ∧ t.store.reader = none ∧
    t.store.file = c.file ∧
    fs'.file t.store.file = some (encodeAll (cachedRows b k c.rowsToDiscard f)) := by
  obtain ⟨hb, hb', k, e, hd, hex, hn, ht, -⟩ := Source.build_cached_sound hA hσ hs hf hc h
  refine ⟨hb, hb', k, flat A.nodeHash b k (fun i => src.leaves.getD i e), hd, hex,
    flat_isLayout A.nodeHash src.leaves e hn, ht.leafs, ht.rows, by rw [ht.root, flat_root], ?_, ?_, ?_, ?_⟩
  · rw [ht.store]; exact ⟨rfl, rfl, rfl⟩
  · rw [ht.store]; rfl
  · rw [ht.store]; rfl
  · rw [ht.store]; exact ht.file

/-- **C62**, after `set_external_reader_path` to a file that starts with the leaves: every node is right
when no row is discarded; otherwise the leaves and the cached rows are right, the discarded nodes are
`Err`, and `gen_proof` is `Err` for every leaf. -/
theorem C62_reader {path : String} {post : Bytes}
    (hrep : fs'.file (.named path) = some (encodeAll src.leaves ++ post)) :
    ∃ k f t', c.rowsToDiscard < k ∧ IsLayout A.nodeHash b k src.leaves f ∧
      t.setExternalReaderPath path fs' = (.ok t', fs') ∧
      (∀ i, (i < b ^ k ∨ rowStart b k (c.rowsToDiscard + 1) ≤ i → i < nodes b k →
          t'.readAt fs' i = .ok (f i)) ∧
        (b ^ k ≤ i → i < rowStart b k (c.rowsToDiscard + 1) ∨ nodes b k ≤ i →
          Res.IsErr (t'.readAt fs' i))) ∧
      (c.rowsToDiscard = 0 → t'.IsTreeOf A b k src.leaves fs') ∧
      (1 ≤ c.rowsToDiscard → ∀ i, i < t'.leafs → Res.IsErr (t'.genProof b 0 0 fs' i)) := by
  obtain ⟨hb, hb', k, f, hd, hex, hlay, hleafs, hrows, hroot, hv, hr, -, hfile⟩ :=
    built_view hA hσ hs hf hc h
  have hserves : (ExternalReader.ofFile (.named path) 0).Serves fs' src.leaves := by
    refine ExternalReader.ofFile_serves hrep ?_
    unfold region
    rw [List.drop_zero, ← length_encodeAll src.leaves, List.take_left]
  have hv' : LevelCacheStore.View b k c.rowsToDiscard
      (t.store.setExternalReader (.ofFile (.named path) 0)) := ⟨hv.len, hv.width, hv.start⟩
  refine ⟨k, f, { t with store := t.store.setExternalReader (.ofFile (.named path) 0) }, hd, hlay, ?_,
    BaseTree.reads_v2 hb hd hlay hv' rfl hserves hfile, fun h0 => ?_, fun h1 i hi => ?_⟩
  · unfold BaseTree.setExternalReaderPath ExternalReader.newFromPath ExternalReader.newFromConfig
    have hop : FS.openFile (.named path) fs' = (.ok (), fs') := by
      unfold FS.openFile; rw [M.get_run, FS.contents_ok hrep]; rfl
    have : (do
        FS.openFile (.named path)
        let off ← M.ofRes (idxP [0] 0)
        pure (ExternalReader.ofFile (.named path) off) : M ExternalReader) fs'
        = (.ok (.ofFile (.named path) 0), fs') := by
      rw [M.bind_ok hop]; rfl
    rw [M.bind_ok this]; rfl
  · rw [h0] at hv' hfile
    exact BaseTree.reads_v2_full hb (by omega) hlay hleafs hrows hroot hv' rfl hserves hfile
  · exact BaseTree.genProof_v2_err
      (t := { t with store := t.store.setExternalReader (.ofFile (.named path) 0) }) hb hd h1 hlay hleafs hrows hv' rfl hserves hfile (by rw [← hleafs]; exact hi)

include hf'

/-- **C62**, before a reader is set: `gen_proof` and `gen_cached_proof` return `Err` for every leaf,
and reads at an index the file has no element for return `Err`.  That the other reads return the wrong
element is `C62_refuted`. -/
theorem C62_fresh_partial : ∃ k f, c.rowsToDiscard < k ∧ IsLayout A.nodeHash b k src.leaves f ∧
    t.root = f (nodes b k - 1) ∧
    (∀ i, i < nodes b (k - 1 - c.rowsToDiscard) →
      t.readAt fs' i = .ok (f (rowStart b k (c.rowsToDiscard + 1) + i))) ∧
    (∀ i, nodes b (k - 1 - c.rowsToDiscard) ≤ i → Res.IsErr (t.readAt fs' i)) ∧
    (∀ a n, 0 < n → nodes b (k - 1 - c.rowsToDiscard) < a + n → RunErr E fs' t.store a n) ∧
    (∀ i, Res.IsErr (t.genProof b 0 0 fs' i)) ∧
    ∀ τ : Sched, τ.Valid → ∀ i, i < t.leafs → ∀ rows : Option Nat,
      ∃ m, t.genCachedProof A b 0 0 τ i rows fs' = (.error (.err m), fs') := by
  obtain ⟨hb, hb', k, f, hd, hex, hlay, hleafs, hrows, hroot, hv, hr, -, hfile⟩ :=
    built_view hA hσ hs hf hc h
  have hn : (cachedRows b k c.rowsToDiscard f).length = nodes b (k - 1 - c.rowsToDiscard) :=
    cachedRows_length ..
  obtain ⟨g1, g2, g3, g4, g5⟩ := hv.fresh hr hb.two_le hd hn hfile
  have hro : t.ReadsOnly fs' b k (cachedRows b k c.rowsToDiscard f) :=
    { leafs := hleafs, len := hv.len, rows := hrows, short := g1
      one := fun h1 => by
        rw [hn]
        subst h1
        rw [show 1 - 1 - c.rowsToDiscard = 0 by omega]
        exact Nat.le_refl _
      reads := g2, bad := g3
      seg := fun a n h0 ha buf hbuf => (g4 a n h0 ha).2 buf hbuf
      segBad := fun a n h0 _ ha buf hbuf => (g5 a n h0 ha).2 buf hbuf }
  refine ⟨k, f, hd, hlay, hroot, fun i hi => ?_, fun i hi => g3 i (by omega), fun a n h0 ha => g5 a n h0 (by omega),
    hro.genProof_err hb (by omega), fun τ hτ i hi rows => ?_⟩
  · rw [show t.readAt fs' i = _ from g2 i (by omega), getElem_cachedRows]
  · rw [hleafs] at hi
    refine hro.genCachedProof_err hb hb' (by omega) hex (hf' _ ?_) hτ hi
    rw [hlay.count]
    exact Nat.pow_le_pow_right (by have := hb.two_le; omega) (by omega)

/-- **C62** fails before a reader is set: reading leaf 0 succeeds and returns the first cached node, so
the tree returns a wrong leaf unless the two are equal. -/
theorem C62_refuted : ∃ k f, c.rowsToDiscard < k ∧ IsLayout A.nodeHash b k src.leaves f ∧
    t.readAt fs' 0 = .ok (f (rowStart b k (c.rowsToDiscard + 1))) ∧
    (src.leaves.head? ≠ some (f (rowStart b k (c.rowsToDiscard + 1))) →
      ∃ e, t.readAt fs' 0 = .ok e ∧ src.leaves[0]? ≠ some e) := by
  obtain ⟨k, f, hd, hlay, -, hreads, -⟩ := C62_fresh_partial hA hσ hs hf hf' hc h
  have h0 := hreads 0 (nodes_pos _ _)
  rw [Nat.add_zero] at h0
  exact ⟨k, f, hd, hlay, h0, fun hne => ⟨_, h0, by rwa [← List.head?_eq_getElem?]⟩⟩


end

/-! Concrete instances. -/
section
attribute [local instance] idealRows

/-- The nodes a just built tree over four leaves returns, with `d` discarded rows. -/
def toyFresh (d : Nat) : List (Option UInt8) × List (Option Unit) :=
  let c := StoreConfig.new "d" "t" d
  match BaseTree.tryFromIterWithConfig (S := LevelCacheStore UInt8) toyAlg 2 Sched.sequential (some 4)
      ([1, 2, 3, 4].map .ok) c (FS.empty) with
  | (.ok t, fs) => ((List.range 8).map fun i => (t.readAt fs i).toOption,
      (List.range 4).map fun i => (t.genProof 2 0 0 fs i).toOption.map fun _ => ())
  | _ => ([], [])

-- the leaves are 72, 73, 74 and 75
example : toyFresh 0 = ([some 91, some 155, some 250, none, none, none, none, none],
    [none, none, none, none]) := by decide +kernel
example : toyFresh 1 = ([some 250, none, none, none, none, none, none, none],
    [none, none, none, none]) := by decide +kernel

/-- The same tree after `set_external_reader_path` to a file of the leaves and a byte more. -/
def toyFreshReader (d : Nat) : List (Option UInt8) × List (Option Bool) :=
  let c := StoreConfig.new "d" "t" d
  match BaseTree.tryFromIterWithConfig (S := LevelCacheStore UInt8) toyAlg 2 Sched.sequential (some 4)
      ([1, 2, 3, 4].map .ok) c (FS.empty.set (.named "r") (some [72, 73, 74, 75, 9])) with
  | (.ok t, fs) => match t.setExternalReaderPath "r" fs with
    | (.ok t, fs) => ((List.range 8).map fun i => (t.readAt fs i).toOption,
        (List.range 4).map fun i => ((t.genProof 2 0 0 fs i).toOption.map fun p =>
          p.validate toyAlg 2 == .ok true))
    | _ => ([], [])
  | _ => ([], [])

example : toyFreshReader 0 = ([some 72, some 73, some 74, some 75, some 91, some 155, some 250, none],
    [some true, some true, some true, some true]) := by decide +kernel
example : toyFreshReader 1 = ([some 72, some 73, some 74, some 75, none, none, some 250, none],
    [none, none, none, none]) := by decide +kernel

end
end Verif
