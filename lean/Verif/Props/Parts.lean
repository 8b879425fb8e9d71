import Verif.Lemmas.PartsBuild
import Verif.Spec.Toy
/-
C52: compound trees from slices, stores and configurations (src/merkle.rs:714-825).
-/
set_option linter.unusedSectionVars false
namespace Verif
open Spec

section
variable {S₀ S E : Type} [Element E] [LawfulElement E] [FloatRows] [StoreOps S₀ E] {A : Alg E}
  {b k : Nat} {fs₀ : FS}

/-- **C52.** `from_slices` on the bytes of the trees `ts` ends as `from_trees` on `ts` does, and
returns the same compound tree: root, sizes, reads and proofs.  For every store of which the laws of
`LawfulStore` are proved (`VecStore`, `DiskStore`, `MmapStore`), and every number of slices. -/
theorem C52_from_slices [Store S E] [LawfulStore S E] (hb : Arity b) (hk : 1 ≤ k)
    (hf : FloatRows.ExactAt b k) {ts : List (BaseTree S₀ E)} {ds : List Bytes}
    (h : List.Forall₂ (BaseTree.WrittenAs A b k fs₀) ts ds) (sub : Nat) (fs : FS) :
    ∃ (r : Res (Node (BaseTree S E) E)) (fs' : FS),
      fromSlices A b sub ds (b ^ k) fs = (r, fs') ∧
      Res.Alike (Node.SameIn b sub fs₀ fs') (fromTrees A sub ts) r := by
  obtain ⟨us, fs', h1, h2, _, _⟩ := collect_slices (S := S) hb hk hf h fs
  refine ⟨_, fs', ?_, fromTrees_alike (h2.imp fun t u ⟨f, cap, hc⟩ => hc.sameIn hb hk) ?_ sub⟩
  · unfold fromSlices
    rw [M.bind_ok h1]
    rfl
  · intro t ht
    obtain ⟨d, _, hd⟩ := Forall₂.exists_right h ht
    exact leafs_le_of_written hd

/-- **C52.** `from_slices_with_configs` likewise, when there are at least as many configurations as
slices, naming different files that do not exist yet. -/
theorem C52_from_slices_with_configs [Store S E] [LawfulStore S E] (hb : Arity b) (hk : 1 ≤ k)
    (hf : FloatRows.ExactAt b k) {ts : List (BaseTree S₀ E)} {ds : List Bytes}
    (h : List.Forall₂ (BaseTree.WrittenAs A b k fs₀) ts ds) (sub : Nat) (fs : FS)
    {cs : List StoreConfig} (hlen : ds.length ≤ cs.length) (hne : (cs.map StoreConfig.file).Nodup)
    (hfree : ∀ c ∈ cs, fs.file c.file = none) :
    ∃ (r : Res (Node (BaseTree S E) E)) (fs' : FS),
      fromSlicesWithConfigs A b sub ds (b ^ k) cs fs = (r, fs') ∧
      Res.Alike (Node.SameIn b sub fs₀ fs') (fromTrees A sub ts) r ∧
      ∀ g, (∀ c ∈ cs, g ≠ c.file) → fs'.file g = fs.file g := by
  obtain ⟨us, fs', h1, h2, h3⟩ := collect_slices_configs (S := S) hb hk hf cs hne h 0 (by omega) fs
    (by simpa using hfree)
  refine ⟨_, fs', ?_, fromTrees_alike (h2.imp fun t u ⟨f, cap, hc⟩ => hc.sameIn hb hk) ?_ sub,
    by simpa using h3⟩
  · unfold fromSlicesWithConfigs
    rw [M.bind_ok h1]
    rfl
  · intro t ht
    obtain ⟨d, _, hd⟩ := Forall₂.exists_right h ht
    exact leafs_le_of_written hd

/-- **C52 fails** for `from_slices_with_configs` with fewer configurations than slices: it panics
(index out of bounds), having written the files of the slices before, instead of returning an
error. -/
theorem C52_too_few_configs_refuted [Store S E] [LawfulStore S E] (hb : Arity b) (hk : 1 ≤ k)
    (hf : FloatRows.ExactAt b k) {t : BaseTree S₀ E} {d : Bytes} (h : t.WrittenAs A b k fs₀ d)
    (ds : List Bytes) (hds : ds ≠ []) (sub : Nat) (fs : FS) (c : StoreConfig)
    (hfree : fs.file c.file = none) :
    ∃ m fs', fromSlicesWithConfigs (S := S) A b sub (d :: ds) (b ^ k) [c] fs = (.error (.panic m), fs') := by
  obtain ⟨u, fs₁, f, cap, h1, _, _⟩ := fromTreeSliceWithConfig_copy (S := S) hb hk hf h fs hfree
  obtain ⟨d', ds', rfl⟩ := List.exists_cons_of_ne_nil hds
  obtain ⟨m, hm⟩ : ∃ m, idxP [c] 1 = .error (.panic m) := ⟨_, rfl⟩
  refine ⟨m, fs₁, ?_⟩
  unfold fromSlicesWithConfigs
  refine M.bind_error ?_
  rw [List.zipIdx_cons, collectM, M.bind_ok (a := u) (fs' := fs₁) (by
    exact (M.bind_ok (show M.ofRes (idxP [c] 0) fs = (.ok c, fs) from rfl)).trans h1)]
  refine M.bind_error ?_
  rw [List.zipIdx_cons, collectM]
  refine M.bind_error ?_
  exact M.bind_error (by rw [M.ofRes_run, hm])

/-- **C52.** `from_stores` on stores holding the nodes of the trees `ts` ends as `from_trees` on `ts`
does, and returns the same compound tree.  Any store, any state of it in which the nodes can be
read. -/
theorem C52_from_stores [Store S E] (hb : Arity b) (hk : 1 ≤ k)
    (hf : FloatRows.ExactAt b k) {ts : List (BaseTree S₀ E)} {ss : List S} (fs : FS)
    (h : List.Forall₂ (fun t s => (∃ leaves, t.IsTreeOf A b k leaves fs₀) ∧
      StoreOps.len (E := E) s = t.length ∧
      ∀ i, i < t.length → StoreOps.readAt fs s i = t.readAt fs₀ i) ts ss) (sub : Nat) :
    ∃ r : Res (Node (BaseTree S E) E), fromStores A b sub (b ^ k) ss fs = (r, fs) ∧
      Res.Alike (Node.SameIn b sub fs₀ fs) (fromTrees A sub ts) r := by
  obtain ⟨us, h1, h2⟩ := collectM_exists (fs := fs) (f := fun s : S =>
    M.get (BaseTree.fromDataStore b 0 0 s (b ^ k))) (Q := BaseTree.SameIn b fs₀ fs) (fun t s => by
      rintro ⟨⟨leaves, ht⟩, g1, g2⟩
      obtain ⟨f, _, hr⟩ := ht.exists_reads
      obtain ⟨u, e1, _, e2⟩ := fromDataStore_copy (fs := fs) hb hk hf hr (s := s) (g1.trans hr.len)
        (fun i hi => (g2 i (by rw [hr.len]; exact hi)).trans (hr.reads i hi))
      exact ⟨u, by rw [M.get_run, e1], e2⟩) h
  refine ⟨_, ?_, fromTrees_alike h2 ?_ sub⟩
  · unfold fromStores
    rw [M.bind_ok h1]
    rfl
  · intro t ht
    obtain ⟨s, _, ⟨leaves, hd⟩, _⟩ := Forall₂.exists_right h ht
    exact leafs_le_of_sizes hd.leafs hd.len

/-- **C52.** `from_store_configs`, `DiskStore`: on configurations whose files hold the bytes of the
trees `ts` it ends as `from_trees` on `ts` does, returns the same compound tree, and changes no
file. -/
theorem C52_from_store_configs_disk (hb : Arity b) (hk : 1 ≤ k) (hf : FloatRows.ExactAt b k)
    {ts : List (BaseTree S₀ E)} {cs : List StoreConfig} (fs : FS)
    (h : List.Forall₂ (fun t c => ∃ d, t.WrittenAs A b k fs₀ d ∧ fs.file c.file = some d) ts cs)
    (sub : Nat) :
    ∃ r : Res (Node (BaseTree (DiskStore E) E) E),
      fromStoreConfigs A b sub (b ^ k) cs fs = (r, fs) ∧
      Res.Alike (Node.SameIn b sub fs₀ fs) (fromTrees A sub ts) r :=
  fromStoreConfigs_alike hb hk (h.imp fun _ _ ⟨_, h1, h2⟩ => opensAs_disk hb hk hf h1 h2)
    (leafs_le_of_all h) sub

/-- **C52.** `from_store_configs`, `MmapStore`. -/
theorem C52_from_store_configs_mmap (hb : Arity b) (hk : 1 ≤ k) (hf : FloatRows.ExactAt b k)
    {ts : List (BaseTree S₀ E)} {cs : List StoreConfig} (fs : FS)
    (h : List.Forall₂ (fun t c => ∃ d, t.WrittenAs A b k fs₀ d ∧ fs.file c.file = some d) ts cs)
    (sub : Nat) :
    ∃ r : Res (Node (BaseTree (MmapStore E) E) E),
      fromStoreConfigs A b sub (b ^ k) cs fs = (r, fs) ∧
      Res.Alike (Node.SameIn b sub fs₀ fs) (fromTrees A sub ts) r :=
  fromStoreConfigs_alike hb hk (h.imp fun _ _ ⟨_, h1, h2⟩ => opensAs_mmap hb hk hf h1 h2)
    (leafs_le_of_all h) sub

/-- **C52.** `from_sub_tree_store_configs`, `DiskStore`: returns the tree that
`from_sub_trees_as_trees` makes of `ts`; up to `top - 1` configurations at the end are ignored. -/
theorem C52_from_sub_tree_store_configs_disk (hb : Arity b) (hk : 1 ≤ k)
    (hf : FloatRows.ExactAt b k) {ts : List (BaseTree S₀ E)} {cs : List StoreConfig} (fs : FS)
    (h : List.Forall₂ (fun t c => ∃ d, t.WrittenAs A b k fs₀ d ∧ fs.file c.file = some d) ts cs)
    {sub top : Nat} {t : Node (Tree1 S₀ E) E} (ht : fromSubTreesAsTrees A sub top ts = .ok t)
    (extra : List StoreConfig) (hx : extra.length < top) :
    ∃ u : Node (Tree1 (DiskStore E) E) E,
      fromSubTreeStoreConfigs A b sub top (b ^ k) (cs ++ extra) fs = (.ok u, fs) ∧
      Node.SameIn₂ b sub top fs₀ fs t u :=
  fromSubTreeStoreConfigs_same hb hk (h.imp fun _ _ ⟨_, h1, h2⟩ => opensAs_disk hb hk hf h1 h2)
    (leafs_le_of_all h) ht extra hx

/-- **C52.** `from_sub_tree_store_configs`, `MmapStore`. -/
theorem C52_from_sub_tree_store_configs_mmap (hb : Arity b) (hk : 1 ≤ k)
    (hf : FloatRows.ExactAt b k) {ts : List (BaseTree S₀ E)} {cs : List StoreConfig} (fs : FS)
    (h : List.Forall₂ (fun t c => ∃ d, t.WrittenAs A b k fs₀ d ∧ fs.file c.file = some d) ts cs)
    {sub top : Nat} {t : Node (Tree1 S₀ E) E} (ht : fromSubTreesAsTrees A sub top ts = .ok t)
    (extra : List StoreConfig) (hx : extra.length < top) :
    ∃ u : Node (Tree1 (MmapStore E) E) E,
      fromSubTreeStoreConfigs A b sub top (b ^ k) (cs ++ extra) fs = (.ok u, fs) ∧
      Node.SameIn₂ b sub top fs₀ fs t u :=
  fromSubTreeStoreConfigs_same hb hk (h.imp fun _ _ ⟨_, h1, h2⟩ => opensAs_mmap hb hk hf h1 h2)
    (leafs_le_of_all h) ht extra hx

/-- **C52.** `from_sub_tree_store_configs`, `DiskStore`: a number of configurations that is not `top`
groups of `sub` (up to `top - 1` more) is refused with `Err`. -/
theorem C52_wrong_config_count_disk (hb : Arity b) (hk : 1 ≤ k) (hf : FloatRows.ExactAt b k)
    {ts : List (BaseTree S₀ E)} {cs : List StoreConfig} (fs : FS)
    (h : List.Forall₂ (fun t c => ∃ d, t.WrittenAs A b k fs₀ d ∧ fs.file c.file = some d) ts cs)
    {sub top : Nat} (htop : 0 < top) (hsub : sub = 0 ∨ cs.length / top ≠ sub) :
    ∃ m, fromSubTreeStoreConfigs (S := DiskStore E) A b sub top (b ^ k) cs fs = (.error (.err m), fs) :=
  fromSubTreeStoreConfigs_wrong hb hk (h.imp fun _ _ ⟨_, h1, h2⟩ => opensAs_disk hb hk hf h1 h2)
    htop hsub

/-- **C52**: the same for `MmapStore`. -/
theorem C52_wrong_config_count_mmap (hb : Arity b) (hk : 1 ≤ k) (hf : FloatRows.ExactAt b k)
    {ts : List (BaseTree S₀ E)} {cs : List StoreConfig} (fs : FS)
    (h : List.Forall₂ (fun t c => ∃ d, t.WrittenAs A b k fs₀ d ∧ fs.file c.file = some d) ts cs)
    {sub top : Nat} (htop : 0 < top) (hsub : sub = 0 ∨ cs.length / top ≠ sub) :
    ∃ m, fromSubTreeStoreConfigs (S := MmapStore E) A b sub top (b ^ k) cs fs = (.error (.err m), fs) :=
  fromSubTreeStoreConfigs_wrong hb hk (h.imp fun _ _ ⟨_, h1, h2⟩ => opensAs_mmap hb hk hf h1 h2)
    htop hsub

/-- **C52 fails** for `from_sub_tree_store_configs` in a tree type without a top layer: it divides by
the top arity 0 before checking it, and panics. -/
theorem C52_no_top_layer_refuted [Store S E] (A : Alg E) (b sub leafs : Nat) (cs : List StoreConfig)
    (fs : FS) :
    ∃ m, fromSubTreeStoreConfigs (S := S) A b sub 0 leafs cs fs = (.error (.panic m), fs) :=
  ⟨_, rfl⟩

/-- **C52 fails** for `from_store_configs`, `DiskStore`: the first file is missing.  The call returns
`Err`, but leaves a file of zeros behind.  Repeating the same call then succeeds, with the zero
element as the root of the missing tree. -/
theorem C52_missing_file_disk_refuted (hb : Arity b) (hk : 1 ≤ k) (hf : FloatRows.ExactAt b k)
    {ts : List (BaseTree S₀ E)} {cs : List StoreConfig} (fs : FS) {c : StoreConfig}
    (hc : fs.file c.file = none)
    (h : List.Forall₂ (fun t c => ∃ d, t.WrittenAs A b k fs₀ d ∧ fs.file c.file = some d) ts cs)
    {z : E} (hz : Element.toBytes z = List.replicate (Element.byteLen E) 0) :
    ∃ m fs₁ n, fromStoreConfigs (S := DiskStore E) A b (cs.length + 1) (b ^ k) (c :: cs) fs
        = (.error (.err m), fs₁) ∧
      fromStoreConfigs (S := DiskStore E) A b (cs.length + 1) (b ^ k) (c :: cs) fs₁ = (.ok n, fs₁) ∧
      n.root = A.nodeHash (z :: ts.map BaseTree.root) 1 := by
  obtain ⟨fs₁, h1, h2, h3, _⟩ := DiskStore.newWithConfig_run (E := E) fs (nodes b k) b c hc
  obtain ⟨m, hm⟩ := fromStoreConfigs_creates (A := A) hb hk (S := DiskStore E) h1 (by rfl) cs (cs.length + 1)
  rw [zeros_eq_encodeAll hz] at h2
  obtain ⟨s, u, e1, e2, e3⟩ := disk_opens (fs := fs₁) hb hk hf (f := fun _ => z) (by simp)
    (by intro i hi; simp) h2
  have hrest : List.Forall₂ (fun r c => ∃ (s : DiskStore E) (u : BaseTree (DiskStore E) E),
      Store.newWithConfig (nodes b k) b c fs₁ = (.ok s, fs₁) ∧
      BaseTree.fromDataStore b 0 0 s (b ^ k) fs₁ = .ok u ∧ u.root = r ∧ u.length = nodes b k ∧
      u.rowCount = k + 1) (ts.map BaseTree.root) cs := by
    rw [List.forall₂_map_left_iff]
    refine h.imp fun t c' ⟨d, g1, g2⟩ => ?_
    have g3 : fs₁.file c'.file = some d := by
      rw [h3 _ (fun he => by rw [he, hc] at g2; cases g2)]; exact g2
    obtain ⟨⟨_, ht⟩, _⟩ := id g1
    obtain ⟨s, u, w1, w2, w3⟩ := opensAs_disk hb hk hf g1 g3
    have w4 := w3.summary
    simp only [BaseTree.summary, Prod.mk.injEq] at w4
    exact ⟨s, u, w1, w2, w4.1, w4.2.2.1.trans ht.len, w4.2.2.2.trans ht.rows⟩
  obtain ⟨n, hn1, hn2⟩ := fromStoreConfigs_roots (A := A) hb hk
    (.cons ⟨s, u, e1, e2, e3.root, e3.len, e3.rows⟩ hrest) (by simp)
  exact ⟨m, fs₁, n, hm, hn1, hn2⟩

/-- **C52 fails** for `from_store_configs`, `MmapStore`, in the same way. -/
theorem C52_missing_file_mmap_refuted (hb : Arity b) (hk : 1 ≤ k) (hf : FloatRows.ExactAt b k)
    {ts : List (BaseTree S₀ E)} {cs : List StoreConfig} (fs : FS) {c : StoreConfig}
    (hc : fs.file c.file = none)
    (h : List.Forall₂ (fun t c => ∃ d, t.WrittenAs A b k fs₀ d ∧ fs.file c.file = some d) ts cs)
    {z : E} (hz : Element.toBytes z = List.replicate (Element.byteLen E) 0) :
    ∃ m fs₁ n, fromStoreConfigs (S := MmapStore E) A b (cs.length + 1) (b ^ k) (c :: cs) fs
        = (.error (.err m), fs₁) ∧
      fromStoreConfigs (S := MmapStore E) A b (cs.length + 1) (b ^ k) (c :: cs) fs₁ = (.ok n, fs₁) ∧
      n.root = A.nodeHash (z :: ts.map BaseTree.root) 1 := by
  obtain ⟨fs₁, h1, h2, h3, _⟩ := MmapStore.newWithConfig_run (E := E) fs (nodes b k) b c hc
  obtain ⟨m, hm⟩ := fromStoreConfigs_creates (A := A) hb hk (S := MmapStore E) h1 (by rfl) cs (cs.length + 1)
  rw [zeros_eq_encodeAll hz] at h2
  obtain ⟨s, u, e1, e2, e3⟩ := mmap_opens (fs := fs₁) hb hk hf (f := fun _ => z) (by simp)
    (by intro i hi; simp) h2
  have hrest : List.Forall₂ (fun r c => ∃ (s : MmapStore E) (u : BaseTree (MmapStore E) E),
      Store.newWithConfig (nodes b k) b c fs₁ = (.ok s, fs₁) ∧
      BaseTree.fromDataStore b 0 0 s (b ^ k) fs₁ = .ok u ∧ u.root = r ∧ u.length = nodes b k ∧
      u.rowCount = k + 1) (ts.map BaseTree.root) cs := by
    rw [List.forall₂_map_left_iff]
    refine h.imp fun t c' ⟨d, g1, g2⟩ => ?_
    have g3 : fs₁.file c'.file = some d := by
      rw [h3 _ (fun he => by rw [he, hc] at g2; cases g2)]; exact g2
    obtain ⟨⟨_, ht⟩, _⟩ := id g1
    obtain ⟨s, u, w1, w2, w3⟩ := opensAs_mmap hb hk hf g1 g3
    have w4 := w3.summary
    simp only [BaseTree.summary, Prod.mk.injEq] at w4
    exact ⟨s, u, w1, w2, w4.1, w4.2.2.1.trans ht.len, w4.2.2.2.trans ht.rows⟩
  obtain ⟨n, hn1, hn2⟩ := fromStoreConfigs_roots (A := A) hb hk
    (.cons ⟨s, u, e1, e2, e3.root, e3.len, e3.rows⟩ hrest) (by simp)
  exact ⟨m, fs₁, n, hm, hn1, hn2⟩

end

/-! Concrete instances: two trees over four leaves each, as bytes, as files and as stores. -/
section
attribute [local instance] idealRows

def partCfg (i : Nat) : StoreConfig := StoreConfig.new "d" (toString i) 0
def partLeaves (i : Nat) : Source toyAlg := .new [UInt8.ofNat (4 * i), 1, 2, 3]
/-- The trees numbered from `i` on, built with their configurations in the store `S`. -/
def partTrees (S : Type) [Store S UInt8] (n i : Nat) : M (List (BaseTree S UInt8)) :=
  collectM (fun i => (partLeaves i).build (S := S) (A := toyAlg) 2 Sched.sequential (some (partCfg i)))
    ((List.range n).map (· + i))
/-- Roots of the trees, and bytes of their files. -/
def partFiles (n : Nat) : List (Option Bytes) :=
  let r := partTrees (DiskStore UInt8) n 0 FS.empty
  (List.range n).map fun i => r.2.file (partCfg i).file
/-- Root, number of leaves and the proof roots of a compound tree. -/
def partReport {S : Type} [Store S UInt8] (r : Res (Node (BaseTree S UInt8) UInt8) × FS) :
    Option (UInt8 × Nat × List (Option Bool)) :=
  match r.1 with
  | .ok n => some (n.root, n.leafs, (List.range n.leafs).map fun i =>
      match Tree1.genProof 2 2 r.2 (.sub n) i with
      | .ok p => (match p.validate toyAlg 2 with | .ok v => some v | .error _ => none)
      | .error _ => none)
  | .error _ => none

def partWhole : Res (Node (BaseTree (DiskStore UInt8) UInt8) UInt8) × FS :=
  match partTrees (DiskStore UInt8) 2 0 FS.empty with
  | (.ok ts, fs) => (fromTrees toyAlg 2 ts, fs)
  | (.error e, fs) => (.error e, fs)

example : (partReport partWhole).isSome = true := by decide +kernel
example : partReport (fromSlices (S := VecStore UInt8) toyAlg 2 2 ((partFiles 2).map (·.getD [])) 4 FS.empty)
    = partReport partWhole := by decide +kernel
example : partReport (fromSlices (S := MmapStore UInt8) toyAlg 2 2 ((partFiles 2).map (·.getD [])) 4 FS.empty)
    = partReport partWhole := by decide +kernel
example : partReport (fromSlicesWithConfigs (S := DiskStore UInt8) toyAlg 2 2
    ((partFiles 2).map (·.getD [])) 4 [partCfg 7, partCfg 8] FS.empty)
    = partReport partWhole := by decide +kernel
example : partReport (fromStoreConfigs (S := DiskStore UInt8) toyAlg 2 2 4 [partCfg 0, partCfg 1]
    partWhole.2) = partReport partWhole := by decide +kernel
/-- The order of the configurations matters. -/
example : partReport (fromStoreConfigs (S := DiskStore UInt8) toyAlg 2 2 4 [partCfg 1, partCfg 0]
    partWhole.2) ≠ partReport partWhole := by decide +kernel
/-- The second file is missing: first `Err`, then a tree with another root. -/
example :
    let fs := (partTrees (DiskStore UInt8) 1 0 FS.empty).2
    let r := fromStoreConfigs (S := DiskStore UInt8) toyAlg 2 2 4 [partCfg 1, partCfg 0] fs
    let r' := fromStoreConfigs (S := DiskStore UInt8) toyAlg 2 2 4 [partCfg 1, partCfg 0] r.2
    partReport r = none ∧ (partReport r').isSome = true := by decide +kernel

end
end Verif
