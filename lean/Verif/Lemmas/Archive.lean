import Verif.Spec.Archive
import Verif.Lemmas.PartsBuild
import Verif.Lemmas.LevelRuns
import Verif.Props.CachedProof
/-! Compacting the parts of a compound tree and opening it again. -/
set_option linter.unusedSectionVars false
namespace Verif
open Spec StoreOps

section
variable {E : Type} [Element E] [LawfulElement E] [FloatRows] {A : Alg E} {b k : Nat}

/-- What is in the file of a compacted part. -/
def ArchivePart.Compacted (A : Alg E) (b k version : Nat) (fs fs' : FS) (p : ArchivePart E) : Prop :=
  ∃ f, p.tree.IsFileTree A b k p.leaves f p.config fs ∧
    fs'.file p.config.file = some (compacted version b k p.config.rowsToDiscard p.leaves f)

theorem compactAll_run (hb : Arity b) (hk : 1 ≤ k) (hf : FloatRows.ExactAt b k) (version : Nat) :
    ∀ {ps : List (ArchivePart E)} {fs₀ fs : FS},
    (∀ p ∈ ps, ∃ f, p.tree.IsFileTree A b k p.leaves f p.config fs₀) →
    (∀ p ∈ ps, p.config.rowsToDiscard < k) → (ps.map fun p => p.config.file).Nodup →
    (∀ p ∈ ps, fs.file p.config.file = fs₀.file p.config.file) →
    ∃ fs', compactAll b version ps fs = (true, fs') ∧
      (∀ p ∈ ps, ArchivePart.Compacted A b k version fs₀ fs' p) ∧
      ∀ g, (∀ p ∈ ps, g ≠ p.config.file) → fs'.file g = fs.file g
  | [], _, fs, _, _, _, _ => ⟨fs, rfl, by simp, fun _ _ => rfl⟩
  | p :: ps, fs₀, fs, ht, hd, hn, hs => by
    obtain ⟨f, hp⟩ := ht p (by simp)
    have hfile : fs.file p.config.file = some (encodeAll (allNodes b k f)) := by
      rw [hs p (by simp)]; exact hp.file
    obtain ⟨fs₁, g1, g2, g3⟩ := DiskStore.compact_ok hb hk hf (hd p (by simp)) hp.len hp.size hp.layout hfile version
    have h0 := BaseTree.compact_of_store (t := p.tree) g1
    rw [List.map_cons, List.nodup_cons] at hn
    have hne : ∀ q ∈ ps, q.config.file ≠ p.config.file := fun q hq he => hn.1 (by
      rw [← he]; exact List.mem_map_of_mem (f := fun p : ArchivePart E => p.config.file) hq)
    obtain ⟨fs', h1, h2, h3⟩ := compactAll_run hb hk hf version (ps := ps) (fs₀ := fs₀) (fs := fs₁)
      (fun q hq => ht q (by simp [hq])) (fun q hq => hd q (by simp [hq])) hn.2
      (fun q hq => by rw [g3.1 _ (hne q hq)]; exact hs q (by simp [hq]))
    refine ⟨fs', by rw [compactAll, h0]; exact h1, fun q hq => ?_, fun g hg => ?_⟩
    · rcases List.mem_cons.1 hq with rfl | hq
      · exact ⟨f, hp, by rw [h3 _ fun q' hq' => (hne q' hq').symm]; exact g2⟩
      · exact h2 q hq
    · rw [h3 g fun q hq => hg q (by simp [hq])]
      exact g3.1 g (hg p (by simp))

/-- Part `p`, opened as `u`. -/
def ArchivePart.OpenedAs (A : Alg E) (b k : Nat) (fs fs' : FS) (p : ArchivePart E)
    (u : BaseTree (LevelCacheStore E) E) : Prop :=
  ∃ f, p.tree.IsFileTree A b k p.leaves f p.config fs ∧
    u.ReadsCached fs' b k p.config.rowsToDiscard p.leaves f

/-- Opening one compacted part. -/
theorem openPart (hb : Arity b) (hk : 1 ≤ k) (hf : FloatRows.ExactAt b k) {version : Nat}
    (hv : version ≠ 1) {fs fs' : FS} {p : ArchivePart E} (hd : p.config.rowsToDiscard < k)
    (h : ArchivePart.Compacted A b k version fs fs' p) {rc : ReplicaConfig} {bs : Bytes} {i : Nat}
    (hr : fs'.file (.named rc.path) = some bs) (ho : rc.offsets[i]? = some p.offset)
    (hl : region bs p.offset (p.leaves.length * Element.byteLen E) = encodeAll p.leaves) :
    ∃ u, (do
      let n ← M.ofRes (merkleTreeLen (b ^ k) b)
      let r ← ExternalReader.newFromConfig rc i
      let s : LevelCacheStore E ← LevelCacheStore.newFromDiskWithReader n b p.config r
      M.get (BaseTree.fromDataStore b 0 0 s (b ^ k)) : M (BaseTree (LevelCacheStore E) E)) fs'
        = (.ok u, fs') ∧ ArchivePart.OpenedAs A b k fs fs' p u := by
  obtain ⟨f, ht, hfile⟩ := h
  unfold compacted at hfile
  rw [if_neg hv] at hfile
  have hserves := ExternalReader.ofFile_serves hr hl
  have hreader : ExternalReader.newFromConfig rc i fs' = (.ok (.ofFile (.named rc.path) p.offset), fs') := by
    unfold ExternalReader.newFromConfig
    have hop : FS.openFile (.named rc.path) fs' = (.ok (), fs') := by
      unfold FS.openFile; rw [M.get_run, FS.contents_ok hr]; rfl
    rw [M.bind_ok hop, M.bind_ok (a := p.offset) (fs' := fs') (by
      rw [M.ofRes_run]; unfold idxP; rw [ho])]
    rfl
  have hview : LevelCacheStore.View b k p.config.rowsToDiscard
      (⟨nodes b k, p.config.file, b ^ k, rowStart b k (p.config.rowsToDiscard + 1) * Element.byteLen E, false,
        (encodeAll (cachedRows b k p.config.rowsToDiscard f)).length,
        some (.ofFile (.named rc.path) p.offset)⟩ : LevelCacheStore E) := ⟨rfl, rfl, rfl⟩
  have hp := nodes_pos b k
  have hle := rowStart_le_nodes b k (p.config.rowsToDiscard + 1) hd
  have hp2 := nodes_pos b (k - (p.config.rowsToDiscard + 1))
  refine ⟨_, ?_, f, ht, BaseTree.readsCached_v2
    (t := ⟨_, b ^ k, nodes b k, k + 1, f (nodes b k - 1)⟩) ht.layout hd hview rfl hserves rfl rfl rfl hfile⟩
  rw [M.bind_ok (a := nodes b k) (fs' := fs') (by rw [M.ofRes_run, merkleTreeLen_pow hb hk]),
    M.bind_ok hreader, M.bind_ok (LevelCacheStore.newFromDiskWithReader_run hb hk hf hd hfile (by
      rw [length_encodeAll, cachedRows_length]) _), M.get_run,
    fromDataStore_view hb hk hf hview
        (hview.readAt_cached_v2 hd rfl hfile (by omega) (by omega))]

theorem zipIdx_offsets {ps : List (ArchivePart E)} : List.Forall₂ (fun (p : ArchivePart E) (x : StoreConfig × Nat) =>
    p ∈ ps ∧ x.1 = p.config ∧ (ps.map ArchivePart.offset)[x.2]? = some p.offset) ps
      (ps.map ArchivePart.config).zipIdx := by
  rw [List.forall₂_iff_get]
  refine ⟨by simp, fun i h1 h2 => ?_⟩
  simp only [List.get_eq_getElem, List.getElem_zipIdx, List.getElem_map, Nat.zero_add]
  exact ⟨List.getElem_mem h1, trivial, by simp [h1]⟩

/-- The compound tree over compacted parts. -/
theorem openParts (hb : Arity b) (hk : 1 ≤ k) (hf : FloatRows.ExactAt b k) {version : Nat}
    (hv : version ≠ 1) {fs fs' : FS} {ps : List (ArchivePart E)}
    (hd : ∀ p ∈ ps, p.config.rowsToDiscard < k)
    (h : ∀ p ∈ ps, ArchivePart.Compacted A b k version fs fs' p) {path : String} {bs : Bytes}
    (hr : fs'.file (.named path) = some bs)
    (hl : ∀ p ∈ ps, region bs p.offset (p.leaves.length * Element.byteLen E) = encodeAll p.leaves)
    {sub : Nat} {n : Node (BaseTree (DiskStore E) E) E} (hn : fromTrees A sub (ps.map ArchivePart.tree) = .ok n) :
    ∃ (n' : Node (BaseTree (LevelCacheStore E) E) E) (us : List (BaseTree (LevelCacheStore E) E)),
      fromStoreConfigsAndReplica A b sub (b ^ k) (ps.map ArchivePart.config)
        ⟨path, ps.map ArchivePart.offset⟩ fs' = (.ok n', fs') ∧ fromTrees A sub us = .ok n' ∧
      List.Forall₂ (ArchivePart.OpenedAs A b k fs fs') ps us := by
  obtain ⟨us, h1, h2⟩ := collectM_exists (fs := fs') (f := fun (c : StoreConfig × Nat) => do
    let n ← M.ofRes (merkleTreeLen (b ^ k) b)
    let r ← ExternalReader.newFromConfig ⟨path, ps.map ArchivePart.offset⟩ c.2
    let s : LevelCacheStore E ← LevelCacheStore.newFromDiskWithReader n b c.1 r
    M.get (BaseTree.fromDataStore b 0 0 s (b ^ k))) (Q := ArchivePart.OpenedAs A b k fs fs')
    (fun p x ⟨hp, hx, ho⟩ => by
      rw [hx]
      exact openPart hb hk hf hv (hd p hp) (h p hp) (rc := ⟨path, _⟩) hr ho (hl p hp))
    (zipIdx_offsets (ps := ps))
  obtain ⟨hs, hc, hsame⟩ := (C39_from_trees A sub (ps.map ArchivePart.tree)).1.1 ⟨n, hn⟩
  have hlen := h2.length_eq
  rw [List.length_map] at hc
  obtain ⟨n', hn'⟩ := (C39_from_trees A sub us).1.2 ⟨hs, by omega, fun c hc d hd => by
    obtain ⟨_, _, f, _, h3⟩ := Forall₂.exists_left h2 hc
    obtain ⟨_, _, g, _, h4⟩ := Forall₂.exists_left h2 hd
    exact ⟨h3.len.trans h4.len.symm, h3.rows.trans h4.rows.symm⟩⟩
  refine ⟨n', us, ?_, hn', h2⟩
  unfold fromStoreConfigsAndReplica
  rw [M.bind_ok (mEnsure_true (by simp) _ _), M.bind_ok h1, M.ofRes_run, hn']

/-- The cached proofs of an opened part. -/
theorem OpenedAs.agree (hb : Arity b) (hb' : b ≤ buildChunkNodes) (hk : 1 ≤ k)
    (hf : ∀ j, j ≤ k → FloatRows.ExactAt b j) {σ : Sched} (hσ : σ.Valid) {fs fs' : FS} {p : ArchivePart E}
    {u : BaseTree (LevelCacheStore E) E} (h : ArchivePart.OpenedAs A b k fs fs' p u) {rows : Option Nat}
    (hr : p.config.rowsToDiscard ≤ BaseTree.effectiveDiscard (b ^ k) b rows) :
    p.tree.CachedProofsAgree A b σ rows fs fs' u := by
  obtain ⟨f, h1, h2⟩ := h
  exact agree_of_readsCached hb hb' hk hf hσ h1.isTreeOf h1.layout h2 hr

theorem forall₂_map_imp {α β γ : Type} {R : α → β → Prop} {Q : γ → β → Prop} {g : α → γ} {xs : List α} {ys : List β}
    (h : List.Forall₂ R xs ys) (hx : ∀ x ∈ xs, ∀ y, R x y → Q (g x) y) : List.Forall₂ Q (xs.map g) ys := by
  induction h with
  | nil => exact .nil
  | cons h _ ih => exact .cons (hx _ (by simp) _ h) (ih fun x hm => hx x (by simp [hm]))

theorem configGroups_map {α β : Type} (g : α → β) (per n : Nat) (xs : List α) :
    configGroups per n (xs.map g) = (configGroups per n xs).map (List.map g) := by
  induction n generalizing xs with
  | zero => rfl
  | succ n ih => simp only [configGroups, List.map_cons, List.map_take, ← List.map_drop, ih]

theorem configGroups_mem {α : Type} {per n : Nat} {xs : List α} :
    ∀ g ∈ configGroups per n xs, ∀ x ∈ g, x ∈ xs := by
  induction n generalizing xs with
  | zero => simp [configGroups]
  | succ n ih =>
    intro g hg x hx
    simp only [configGroups, List.mem_cons] at hg
    rcases hg with rfl | hg
    · exact List.mem_of_mem_take hx
    · exact List.mem_of_mem_drop (ih g hg x hx)

/-- A group of parts, the compound tree over it, and the compound tree over the opened parts. -/
def ArchivePart.GroupOpenedAs (A : Alg E) (b k sub : Nat) (fs fs' : FS)
    (x : List (ArchivePart E) × Node (BaseTree (DiskStore E) E) E)
    (u : Tree1 (LevelCacheStore E) E) : Prop :=
  fromTrees A sub (x.1.map ArchivePart.tree) = .ok x.2 ∧
  ∃ (n' : Node (BaseTree (LevelCacheStore E) E) E) (us : List (BaseTree (LevelCacheStore E) E)),
    u = .sub n' ∧ fromTrees A sub us = .ok n' ∧ List.Forall₂ (ArchivePart.OpenedAs A b k fs fs') x.1 us

/-- The compound tree with a top layer over compacted parts. -/
theorem openPartsTop (hb : Arity b) (hk : 1 ≤ k) (hf : FloatRows.ExactAt b k) {version : Nat}
    (hv : version ≠ 1) {fs fs' : FS} {ps : List (ArchivePart E)}
    (hd : ∀ p ∈ ps, p.config.rowsToDiscard < k)
    (h : ∀ p ∈ ps, ArchivePart.Compacted A b k version fs fs' p) {path : String} {bs : Bytes}
    (hr : fs'.file (.named path) = some bs)
    (hl : ∀ p ∈ ps, region bs p.offset (p.leaves.length * Element.byteLen E) = encodeAll p.leaves)
    {sub top : Nat} {n : Node (Tree1 (DiskStore E) E) E}
    (hn : fromSubTreesAsTrees A sub top (ps.map ArchivePart.tree) = .ok n) :
    ∃ (n' : Node (Tree1 (LevelCacheStore E) E) E)
      (xs : List (List (ArchivePart E) × Node (BaseTree (DiskStore E) E) E))
      (us : List (Tree1 (LevelCacheStore E) E)),
      fromSubTreeStoreConfigsAndReplica A b sub top (b ^ k) (ps.map ArchivePart.config)
        ⟨path, ps.map ArchivePart.offset⟩ fs' = (.ok n', fs') ∧
      fromSubTrees A top (xs.map fun x => Tree1.sub x.2) = .ok n ∧ fromSubTrees A top us = .ok n' ∧
      (∀ x ∈ xs, ∀ p ∈ x.1, p ∈ ps) ∧
      List.Forall₂ (ArchivePart.GroupOpenedAs A b k sub fs fs') xs us := by
  obtain ⟨hs, htop, _, _, hlen, _⟩ := fromSubTreesAsTrees_ok_iff.1 hn
  obtain ⟨ns, h1, h2⟩ := (flat_eq_nested A sub top _ n).1 hn
  rw [chunks_eq_groups hs hlen, mapM_ok_iff, configGroups_map] at h1
  rw [List.length_map] at hlen
  have hgl := h1.length_eq
  rw [List.length_map] at hgl
  have hzip : ((configGroups sub top ps).zip ns).map (fun x => Tree1.sub x.2) = ns.map Tree1.sub := by
    have e : ((configGroups sub top ps).zip ns).map (fun x => Tree1.sub x.2)
        = (((configGroups sub top ps).zip ns).map Prod.snd).map Tree1.sub := by
      rw [List.map_map]; rfl
    rw [e, List.map_snd_zip (by omega)]
  have hmem : ∀ x ∈ (configGroups sub top ps).zip ns, ∀ p ∈ x.1, p ∈ ps := fun x hx p hp =>
    configGroups_mem x.1 (List.of_mem_zip hx).1 p hp
  have hrel : List.Forall₂ (fun (x : List (ArchivePart E) × Node (BaseTree (DiskStore E) E) E)
      (y : List StoreConfig × List Nat) => (∀ p ∈ x.1, p ∈ ps) ∧
        fromTrees A sub (x.1.map ArchivePart.tree) = .ok x.2 ∧
        y = (x.1.map ArchivePart.config, x.1.map ArchivePart.offset))
      ((configGroups sub top ps).zip ns)
      ((configGroups sub top (ps.map ArchivePart.config)).zip
        (configGroups sub top (ps.map ArchivePart.offset))) := by
    rw [configGroups_map, configGroups_map]
    rw [List.forall₂_iff_get] at h1 ⊢
    refine ⟨by simp only [List.length_zip, List.length_map]; omega, fun i g1 g2 => ?_⟩
    simp only [List.length_zip, List.length_map] at g1 g2
    refine ⟨hmem _ (List.get_mem _ _), ?_, ?_⟩
    · have := h1.2 i (by simp only [List.length_map]; omega) (by omega)
      simpa using this
    · simp
  obtain ⟨us, h3, h4⟩ := collectM_exists (fs := fs') (f := fun (g : List StoreConfig × List Nat) => do
    let t ← fromStoreConfigsAndReplica A b sub (b ^ k) g.1 ⟨path, g.2⟩
    pure (Tree1.sub t)) (Q := ArchivePart.GroupOpenedAs A b k sub fs fs')
    (fun x y ⟨hp, hx, hy⟩ => by
      obtain ⟨n', us, g1, g2, g3⟩ := openParts hb hk hf hv (fun p hm => hd p (hp p hm))
        (fun p hm => h p (hp p hm)) hr (fun p hm => hl p (hp p hm)) hx
      refine ⟨.sub n', ?_, hx, n', us, rfl, g2, g3⟩
      rw [hy, M.bind_ok g1]; rfl) hrel
  have hul := h4.length_eq
  rw [List.length_zip, configGroups_length] at hul
  rw [configGroups_length] at hgl
  have hshape : ∀ u ∈ us, Tree1.length u = nodes b k * sub + 1 ∧ Tree1.rowCount u = k + 2 := by
    intro u hu
    obtain ⟨x, hx, _, n', vs, rfl, g2, g3⟩ := Forall₂.exists_left h4 hu
    obtain ⟨c0, e0, e1, e2, e3, rfl⟩ := Node.assemble_ok_iff.1 g2
    obtain ⟨_, _, f, _, g4⟩ := Forall₂.exists_left g3 (List.mem_of_head? e0)
    exact ⟨by show BaseTree.length c0 * sub + 1 = _; rw [g4.len], by
      show BaseTree.rowCount c0 + 1 = _; rw [g4.rows]⟩
  obtain ⟨n', hn'⟩ := (C39_from_sub_trees A top us).1.2 ⟨htop, by omega, fun c hc d hd =>
    ⟨(hshape c hc).1.trans (hshape d hd).1.symm, (hshape c hc).2.trans (hshape d hd).2.symm⟩⟩
  refine ⟨n', (configGroups sub top ps).zip ns, us, ?_, by rw [hzip]; exact h2, hn', hmem, h4⟩
  unfold fromSubTreeStoreConfigsAndReplica
  rw [M.bind_ok (mEnsure_true (by simp) _ _), M.bind_ok (a := sub) (fs' := fs') (by
    rw [M.ofRes_run, divP_ok htop, List.length_map, hlen, Nat.mul_div_cancel_left _ htop]),
    M.bind_ok h3, M.ofRes_run, hn']

end
end Verif
