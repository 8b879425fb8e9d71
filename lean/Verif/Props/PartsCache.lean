import Verif.Props.Parts
import Verif.Lemmas.LevelView
import Verif.Lemmas.Reopen
/-!
C52 for `from_store_configs` over `LevelCacheStore` (src/merkle.rs:776-795, src/store/level_cache.rs:155-199).
-/
set_option linter.unusedSectionVars false
namespace Verif
open Spec

section
variable {S₀ E : Type} [Element E] [LawfulElement E] [FloatRows] [StoreOps S₀ E] {A : Alg E}
  {b k : Nat} {fs₀ fs : FS}

/-- `u`, opened with the configuration `c`, has the root and the sizes of `t`, and reads the leaves and the
cached nodes as `t` did. -/
def CachedCopy (b k : Nat) (fs₀ fs : FS) (p : BaseTree S₀ E × StoreConfig) (u : BaseTree (LevelCacheStore E) E) :
    Prop :=
  u.summary = p.1.summary ∧
    ∀ i, i < b ^ k ∨ rowStart b k (p.2.rowsToDiscard + 1) ≤ i ∧ i < nodes b k →
      u.readAt fs i = p.1.readAt fs₀ i

theorem cache_opens_v1 (hb : Arity b) (hk : 1 ≤ k) (hf : FloatRows.ExactAt b k) {t : BaseTree S₀ E}
    {c : StoreConfig} (hd : c.rowsToDiscard < k) {d : Bytes}
    (ht : t.CompactedAs A b k c.rowsToDiscard fs₀ d) (hc : fs.file c.file = some d) :
    ∃ (s : LevelCacheStore E) (u : BaseTree (LevelCacheStore E) E),
      Store.newWithConfig (nodes b k) b c fs = (.ok s, fs) ∧
      BaseTree.fromDataStore b 0 0 s (b ^ k) fs = .ok u ∧ CachedCopy b k fs₀ fs (t, c) u := by
  obtain ⟨⟨leaves, htree⟩, ns, h1, h2, rfl⟩ := ht
  obtain ⟨f, hl, hr⟩ := htree.exists_reads
  have hp := nodes_pos b k
  have hpow := pow_le_nodes b k
  have hn : ns.length = nodes b k := h1.trans hr.len
  have hns : ∀ i (h : i < ns.length), ns[i] = f i := fun i hi =>
    Except.ok.inj ((h2 i hi).symm.trans (hr.reads i (by omega)))
  have hle := LevelCacheStore.rowStart_cache (b := b) hd
  have hdrop : ns.drop (rowStart b k (c.rowsToDiscard + 1)) = cachedRows b k c.rowsToDiscard f := by
    refine List.ext_getElem ?_ fun i h3 h4 => ?_
    · rw [List.length_drop, cachedRows_length]; omega
    · rw [List.getElem_drop, hns]
      simp [cachedRows]
  have htake : (ns.take (b ^ k)).length = b ^ k := by rw [List.length_take]; omega
  rw [hdrop] at hc
  obtain ⟨s, hs, hv, hnr, hfile⟩ : ∃ s : LevelCacheStore E, Store.newWithConfig (nodes b k) b c fs = (.ok s, fs) ∧
      s.View b k c.rowsToDiscard ∧ s.reader = none ∧ s.file = c.file :=
    ⟨_, (LevelCacheStore.newWithConfig_existing hc).trans (LevelCacheStore.newFromDisk_run hb hk hf hd hc),
      ⟨rfl, rfl, rfl⟩, rfl, rfl⟩
  rw [← hfile] at hc
  have hreads : ∀ i, i < b ^ k ∨ rowStart b k (c.rowsToDiscard + 1) ≤ i ∧ i < nodes b k →
      StoreOps.readAt fs s i = .ok (f i) := by
    rintro i (hi | hi)
    · refine (hv.readAt_base_v1 hnr htake hc (by rw [htake]; exact hi)).trans ?_
      rw [List.getElem_take, hns]
    · exact hv.readAt_cached_v1 hd hnr htake hc hi.1 hi.2
  have hlast : StoreOps.last fs s = .ok (f (nodes b k - 1)) := by
    unfold StoreOps.last
    rw [show StoreOps.len (E := E) s = nodes b k from hv.len, subP_ok hp, Res.ok_bind]
    refine hreads _ (.inr ⟨?_, by omega⟩)
    have := nodes_pos b (k - 1 - c.rowsToDiscard)
    omega
  refine ⟨s, _, hs, BaseTree.fromDataStore_run hb hk hf hv.len hlast, ?_, fun i hi => ?_⟩
  · show (_, _, _, _) = _
    unfold BaseTree.summary
    rw [hr.root, hr.leafs, hr.len, hr.rows]
    exact congrArg (fun n => (f (nodes b k - 1), b ^ k, n, k + 1)) hv.len
  · refine (hreads i hi).trans (hr.reads i ?_).symm
    omega

/-- **C52.** `from_store_configs`, `LevelCacheStore`, over files that hold the leaves and the cached rows of the
trees `ts` (version 1): the sub-tree is that which `from_trees` makes of `ts`, no file changes, and each of its base trees
reads the leaves and the cached nodes as the tree did. -/
theorem C52_from_store_configs_level_cache (hb : Arity b) (hk : 1 ≤ k) (hf : FloatRows.ExactAt b k)
    {ts : List (BaseTree S₀ E)} {cs : List StoreConfig}
    (h : List.Forall₂ (fun t c => c.rowsToDiscard < k ∧
      ∃ d, t.CompactedAs A b k c.rowsToDiscard fs₀ d ∧ fs.file c.file = some d) ts cs) (sub : Nat) :
    ∃ us : List (BaseTree (LevelCacheStore E) E),
      List.Forall₂ (CachedCopy b k fs₀ fs) (ts.zip cs) us ∧
      fromStoreConfigs A b sub (b ^ k) cs fs = (fromTrees A sub us, fs) ∧
      (fromTrees A sub us).map (fun n => (n.root, n.leafs, n.len, n.rowCount))
        = (fromTrees A sub ts).map (fun n => (n.root, n.leafs, n.len, n.rowCount)) := by
  obtain ⟨us, h1, h2, h3⟩ : ∃ us : List (BaseTree (LevelCacheStore E) E),
      List.Forall₂ (CachedCopy b k fs₀ fs) (ts.zip cs) us ∧
      List.Forall₂ (fun t u => u.summary = t.summary) ts us ∧
      collectM (fun c => do
        let n ← M.ofRes (merkleTreeLen (b ^ k) b)
        let s : LevelCacheStore E ← Store.newWithConfig n b c
        M.get (BaseTree.fromDataStore b 0 0 s (b ^ k))) cs fs = (.ok us, fs) := by
    induction h with
    | nil => exact ⟨[], .nil, .nil, rfl⟩
    | cons h _ ih =>
      obtain ⟨hd, d, ht, hc⟩ := h
      obtain ⟨us, h1, h2, h3⟩ := ih
      obtain ⟨s, u, g1, g2, g3⟩ := cache_opens_v1 hb hk hf hd ht hc
      refine ⟨u :: us, .cons g3 h1, .cons g3.1 h2, ?_⟩
      unfold collectM
      rw [M.bind_ok (a := u) (fs' := fs) (by
        rw [M.bind_ok (a := nodes b k) (fs' := fs) (by rw [M.ofRes_run, merkleTreeLen_pow hb hk]),
          M.bind_ok g1, M.get_run, g2]), M.bind_ok h3]
      rfl
  refine ⟨us, h1, ?_, fromTrees_congr A sub h2⟩
  unfold fromStoreConfigs
  rw [M.bind_ok h3, M.ofRes_run]

/-- **C52 fails** for `from_store_configs` over `LevelCacheStore` on the files that building and compacting to version 2
leave: the store is opened without a reader and looks for the root behind the end of the file, so the call
returns `Err`, whatever the other configurations. -/
theorem C52_level_cache_v2_refuted (hb : Arity b) (hk : 1 ≤ k) (hf : FloatRows.ExactAt b k) {c : StoreConfig}
    (hd : c.rowsToDiscard < k) {ns : List E} (hn : ns.length = nodes b (k - 1 - c.rowsToDiscard))
    (hc : fs.file c.file = some (encodeAll ns)) (cs : List StoreConfig) (sub : Nat) :
    ∃ m, fromStoreConfigs (S := LevelCacheStore E) A b sub (b ^ k) (c :: cs) fs = (.error (.err m), fs) := by
  obtain ⟨m, hm⟩ := LevelCacheStore.last_no_reader (E := E) (b := b) (c := c) (ld := true)
    (n := (encodeAll ns).length) hd (by have := hb.two_le; omega) hc (by rw [length_encodeAll, hn])
  refine ⟨m, ?_⟩
  unfold fromStoreConfigs collectM
  refine M.bind_error (M.bind_error (fs' := fs) ?_)
  rw [M.bind_ok (a := nodes b k) (fs' := fs) (by rw [M.ofRes_run, merkleTreeLen_pow hb hk]),
    M.bind_ok (show Store.newWithConfig (nodes b k) b c fs = _ from
      (LevelCacheStore.newWithConfig_existing hc).trans (LevelCacheStore.newFromDisk_run hb hk hf hd hc)),
    M.get_run]
  unfold BaseTree.fromDataStore
  rw [ensure_true rfl, Res.ok_bind, ensure_true rfl, Res.ok_bind,
    ensure_true ((eq_nextPow2_iff _).2 (hb.pow_isPow2 k)).symm, Res.ok_bind,
    ensure_true ((eq_nextPow2_iff _).2 hb.pow2).symm, Res.ok_bind,
    merkleTreeLen_pow hb hk, Res.ok_bind, ensure_true (by rfl), Res.ok_bind, sizeValid_pow hb,
    Res.ok_bind, ensure_true rfl, Res.ok_bind, hm]
  rfl

end

section Examples
attribute [local instance] idealRows

/-- Root and leaves of the sub-tree of two files, one row discarded. -/
private def cacheConfigs (x y : Bytes) : Res (UInt8 × Nat) :=
  let c := StoreConfig.new "d" "x" 1
  let c' := StoreConfig.new "d" "y" 1
  ((fromStoreConfigs (S := LevelCacheStore UInt8) toyAlg 2 2 4 [c, c']
    ((FS.empty.set c.file (some x)).set c'.file (some y))).1).map fun t => (t.root, t.leafs)

-- version 1: four leaves and the root
example : (cacheConfigs [72, 73, 74, 75, 250] [1, 2, 3, 4, 5]).isOk = true ∧
    (cacheConfigs [72, 73, 74, 75, 250] [1, 2, 3, 4, 5]).map Prod.snd = .ok 8 := by decide +kernel
-- version 2: the root only
example : (cacheConfigs [250] [5]).isOk = false := by decide +kernel
end Examples
end Verif
