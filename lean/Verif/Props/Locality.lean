import Verif.Lemmas.Locality
import Verif.Props.WholeTrees
/-!
**C81**  A proof depends on the nodes on its path only.
-/
set_option linter.unusedSectionVars false
namespace Verif
open Spec StoreOps

section
variable {E : Type} [Element E] {S S' : Type} [StoreOps S E] [StoreOps S' E] {fs fs' : FS}

/-- **C81** for base trees, whatever the store holds: `gen_proof` returns `Ok` exactly if every node at
`proofPositions` can be read, and the proof then consists of these nodes in this order and the recorded
root. -/
theorem C81_exact {b k : Nat} (hb : Arity b) (hk : 1 ≤ k) {t : BaseTree S E} (ht : t.FullSizes b k)
    {i : Nat} (hi : i < b ^ k) (p : Proof E) :
    t.genProof b 0 0 fs i = .ok p ↔
      ∃ es, List.Forall₂ (fun q e => t.readAt fs q = .ok e) (proofPositions b k i) es ∧
        p = .base 0 0 (es ++ [t.root]) (digits b k i) := by
  rw [BaseTree.genProof_positions hb hk ht hi]
  simp only [bind_ok_iff, mapM_ok_iff, Except.ok.injEq, eq_comm (a := p)]

/-- **C81**: when a node at `proofPositions` cannot be read, `gen_proof` fails exactly as the first such
read does. -/
theorem C81_first_failure {b k : Nat} (hb : Arity b) (hk : 1 ≤ k) {t : BaseTree S E} (ht : t.FullSizes b k)
    {i : Nat} (hi : i < b ^ k) {xs ys : List Nat} {q : Nat} {e : Fault}
    (hq : proofPositions b k i = xs ++ q :: ys) (hxs : ∀ x ∈ xs, Res.IsOk (t.readAt fs x))
    (he : t.readAt fs q = .error e) : t.genProof b 0 0 fs i = .error e := by
  rw [BaseTree.genProof_positions hb hk ht hi, hq]
  clear hq
  suffices h : (xs ++ q :: ys).mapM (t.readAt fs) = .error e by rw [h]; rfl
  induction xs with
  | nil => rw [List.nil_append, List.mapM_cons, he]; rfl
  | cons x xs ih =>
    obtain ⟨y, hy⟩ := hxs x (by simp)
    rw [List.cons_append, List.mapM_cons, hy, Res.ok_bind, ih fun z hz => hxs z (by simp [hz])]
    rfl

/-- **C81**: these are `k * (b - 1) + 1` nodes, all of them below the root. -/
theorem C81_positions {b k : Nat} (hb : 2 ≤ b) {i : Nat} (hi : i < b ^ k) :
    (proofPositions b k i).length = k * (b - 1) + 1 ∧
      (1 ≤ k → ∀ q ∈ proofPositions b k i, q + 1 < nodes b k) := by
  refine ⟨?_, fun hk q hq => ?_⟩
  · rw [proofPositions, List.length_cons, auth_length id (by omega : 0 < b)]
  · rw [proofPositions, List.mem_cons] at hq
    rcases hq with rfl | hq
    · obtain ⟨n, rfl⟩ : ∃ n, k = n + 1 := ⟨k - 1, by omega⟩
      have := nodes_pos b n
      simp only [nodes]; omega
    · exact (mem_auth_lt hb (Nat.le_refl k) hi hq).2

variable {sub top i j : Nat} {u : BaseTree S E} {f : S → S'} {t : Tree2 S E}

/-- **C81**, elements: `read_at` of a whole tree depends on one element of the base tree that holds it. -/
theorem C81_read (ht : t.Shaped sub top) (hu : holder BaseTree.leafs t.bases i = some (u, j))
    (h : (u.mapStore f).readAt fs' j = u.readAt fs j) :
    (t.mapStore f).readAt sub top fs' i = t.readAt sub top fs i :=
  Tree2.readAt_local ht hu h

/-- **C81**, proofs of whole trees: replace every store of the tree and every file by anything.  If the
base tree that holds the leaf still reads the same at `proofPositions`, the proof is the same. -/
theorem C81_proof {b k : Nat} (hb : Arity b) (hk : 1 ≤ k) (ht : t.Shaped sub top)
    (hu : holder BaseTree.leafs t.bases i = some (u, j)) (hs : u.FullSizes b k)
    (hs' : (u.mapStore f).FullSizes b k)
    (h : ∀ q ∈ proofPositions b k j, (u.mapStore f).readAt fs' q = u.readAt fs q) :
    (t.mapStore f).genProof b sub top fs' i = t.genProof b sub top fs i := by
  refine Tree2.genProof_local ht hu ?_
  have hj : j < b ^ k := by
    rw [← hs.leafs]
    exact holder_lt hu
  rw [BaseTree.genProof_positions hb hk hs' hj, BaseTree.genProof_positions hb hk hs hj, mapM_congr h]
  rfl

/-- **C81**, cached proofs of whole trees.  With `r` the number of rows taken as discarded, only the leaf
segment of `b ^ (r + 1)` leaves and those of the nodes at `proofPositions` that are leaves or above row `r`
matter.  Neither call changes a file. -/
theorem C81_cached [FloatRows] {b k : Nat} (hb : Arity b) (hk : 1 ≤ k) (hf : FloatRows.ExactAt b k)
    (ht : t.Shaped sub top) (hu : holder BaseTree.leafs t.bases i = some (u, j)) (hs : u.FullSizes b k)
    (hs' : (u.mapStore f).FullSizes b k) {rows : Option Nat} {r : Nat}
    (hr : r = BaseTree.effectiveDiscard (b ^ k) b rows)
    (h1 : ∀ q ∈ proofPositions b k j, q < b ^ k ∨ rowStart b k (r + 1) ≤ q →
      (u.mapStore f).readAt fs' q = u.readAt fs q)
    (h2 : ∀ buf, StoreOps.readRangeInto (E := E) fs' (f u.store) (j / b ^ (r + 1) * b ^ (r + 1))
        (j / b ^ (r + 1) * b ^ (r + 1) + b ^ (r + 1)) buf
      = StoreOps.readRangeInto (E := E) fs u.store (j / b ^ (r + 1) * b ^ (r + 1))
        (j / b ^ (r + 1) * b ^ (r + 1) + b ^ (r + 1)) buf) (A : Alg E) (σ : Sched) :
    ∃ res, t.genCachedProof A b sub top σ i rows fs = (res, fs) ∧
      (t.mapStore f).genCachedProof A b sub top σ i rows fs' = (res, fs') := by
  refine Tree2.genCachedProof_local ht hu ?_
  have hj : j < b ^ k := by
    rw [← hs.leafs]
    exact holder_lt hu
  exact BaseTree.genCachedProof_local hb hk hf hs hs' rfl hr hj h1 h2 A σ

end

/-! ### Files -/
section
variable {E : Type} [Element E] {fs fs' : FS} {sub top i j b k : Nat}

/-- **C81** for trees over `DiskStore`: of all files only one matters for a proof, and of this file only the
bytes of the nodes at `proofPositions`. -/
theorem C81_disk (hb : Arity b) (hk : 1 ≤ k) {t : Tree2 (DiskStore E) E} (ht : t.Shaped sub top)
    {u : BaseTree (DiskStore E) E} (hu : holder BaseTree.leafs t.bases i = some (u, j)) (hs : u.FullSizes b k)
    (h : ∀ q ∈ proofPositions b k j,
      (fs'.file u.store.file).map (region · (q * Element.byteLen E) (Element.byteLen E))
        = (fs.file u.store.file).map (region · (q * Element.byteLen E) (Element.byteLen E))) :
    t.genProof b sub top fs' i = t.genProof b sub top fs i := by
  have := C81_proof (f := id) (fs := fs) (fs' := fs') hb hk ht hu hs hs fun q hq => DiskStore.readAt_region (h q hq)
  rwa [t.mapStore_id] at this

/-- **C81** for trees over `MmapStore`. -/
theorem C81_mmap [LawfulElement E] (hb : Arity b) (hk : 1 ≤ k) {t : Tree2 (MmapStore E) E} (ht : t.Shaped sub top)
    {u : BaseTree (MmapStore E) E} (hu : holder BaseTree.leafs t.bases i = some (u, j)) (hs : u.FullSizes b k)
    (h : ∀ q ∈ proofPositions b k j,
      (fs'.file u.store.file).map (region · (q * Element.byteLen E) (Element.byteLen E))
        = (fs.file u.store.file).map (region · (q * Element.byteLen E) (Element.byteLen E))) :
    t.genProof b sub top fs' i = t.genProof b sub top fs i := by
  have := C81_proof (f := id) (fs := fs) (fs' := fs') hb hk ht hu hs hs fun q hq =>
    MmapStore.readAt_region LawfulElement.byteLen_pos (h q hq)
  rwa [t.mapStore_id] at this

/-- **C81**: overwriting any one node that is not on the path of leaf `i`, of any base tree over a
`DiskStore`, leaves the proof for leaf `i` as it is. -/
theorem C81_disk_overwrite [LawfulElement E] (hb : Arity b) (hk : 1 ≤ k) {t : Tree2 (DiskStore E) E}
    (ht : t.Shaped sub top) {u : BaseTree (DiskStore E) E}
    (hu : holder BaseTree.leafs t.bases i = some (u, j)) (hs : u.FullSizes b k) {s : DiskStore E} {e : E}
    {q : Nat} (hin : ∀ bs, fs.file s.file = some bs → (q + 1) * Element.byteLen E ≤ bs.length)
    (h : s.file = u.store.file → q ∉ proofPositions b k j) :
    t.genProof b sub top (s.writeAt e q fs).2 i = t.genProof b sub top fs i := by
  have hlen := LawfulElement.length_toBytes e
  refine C81_disk hb hk ht hu hs fun p hp => ?_
  have hfile : (s.writeAt e q fs).2.file u.store.file = fs.file u.store.file ∨
      (s.file = u.store.file ∧ ∃ bs, fs.file s.file = some bs ∧ (s.writeAt e q fs).2.file u.store.file
        = some (patch bs (q * Element.byteLen E) (Element.toBytes e))) := by
    unfold DiskStore.writeAt DiskStore.storeCopyFromSlice
    by_cases h1 : q * Element.byteLen E + (Element.toBytes e).length ≤ s.storeSize
    · rcases h2 : FS.writeAllAt s.file (q * Element.byteLen E) (Element.toBytes e) fs with ⟨r, fs1⟩
      have h3 : ((do
          mEnsure (q * Element.byteLen E + (Element.toBytes e).length ≤ s.storeSize) "Requested slice too large"
          FS.writeAllAt s.file (q * Element.byteLen E) (Element.toBytes e) : M Unit) fs) = (r, fs1) := by
        rw [M.bind_ok (mEnsure_true h1 _ _), h2]
      have h4 : fs1 = fs ∨ ∃ bs, fs.file s.file = some bs ∧
          fs1 = fs.set s.file (some (patch bs (q * Element.byteLen E) (Element.toBytes e))) := by
        unfold FS.writeAllAt FS.contents at h2
        cases hc : fs.file s.file with
        | none => rw [hc] at h2; cases h2; exact .inl rfl
        | some bs =>
          rw [hc] at h2
          dsimp only at h2
          split at h2
          · cases h2; exact .inl rfl
          · cases h2; exact .inr ⟨bs, rfl, rfl⟩
      have h5 : ∀ {α : Type} {a : α}, (((do
          mEnsure (q * Element.byteLen E + (Element.toBytes e).length ≤ s.storeSize) "Requested slice too large"
          FS.writeAllAt s.file (q * Element.byteLen E) (Element.toBytes e) : M Unit) >>= fun _ => pure a : M α) fs).2
          = fs1 := by
        intro α a
        cases r with
        | ok x => rw [M.bind_ok h3]; rfl
        | error x => rw [M.bind_error h3]
      rw [h5]
      rcases h4 with rfl | ⟨bs, h6, rfl⟩
      · exact .inl rfl
      · by_cases hsf : s.file = u.store.file
        · exact .inr ⟨hsf, bs, h6, by simp [FS.set, hsf]⟩
        · exact .inl (by simp [FS.set, Ne.symm hsf])
    · refine .inl ?_
      have h3 : ((do
          mEnsure (q * Element.byteLen E + (Element.toBytes e).length ≤ s.storeSize) "Requested slice too large"
          FS.writeAllAt s.file (q * Element.byteLen E) (Element.toBytes e) : M Unit) fs) = (.error (.err "Requested slice too large"), fs) := by
        rw [M.bind_error (mEnsure_false h1 _ _)]
      rw [M.bind_error h3]
  rcases hfile with h1 | ⟨h1, bs, h2, h3⟩
  · rw [h1]
  · rw [h3, ← h1, h2, Option.map_some, Option.map_some]
    have h4 := hin bs h2
    rw [Nat.succ_mul] at h4
    have hne : p ≠ q := fun hh => h h1 (hh ▸ hp)
    rw [region_patch_disjoint (by omega)]
    rw [hlen]
    rcases Nat.lt_or_gt_of_ne hne with hlt | hlt
    · left
      have := Nat.mul_le_mul_right (Element.byteLen E) (Nat.succ_le_of_lt hlt)
      rw [Nat.succ_mul] at this; exact this
    · right
      have := Nat.mul_le_mul_right (Element.byteLen E) (Nat.succ_le_of_lt hlt)
      rw [Nat.succ_mul] at this; exact this

end

/-! ### Trees the constructors return are of this shape -/
section
variable {S E : Type} [Element E] [StoreOps S E] {A : Alg E}

/-- **C81**: what `from_trees` returns for trees with equally many leaves is `Shaped`. -/
theorem C81_from_trees {sub top m : Nat} (hm : 0 < m) {cs : List (BaseTree S E)} {n : Node (BaseTree S E) E}
    (h : fromTrees A sub cs = .ok n) (hc : ∀ c ∈ cs, c.leafs = m) :
    (Tree1.sub n).Shaped sub ∧ (Tree2.sub n).Shaped sub top :=
  ⟨.of_assemble hm h hc, .of_assemble hm h hc⟩

/-- **C81**: what `from_sub_trees` returns for such trees is. -/
theorem C81_from_sub_trees {sub top m : Nat} (hm : 0 < m) {cs : List (Tree1 S E)} {n : Node (Tree1 S E) E}
    (h : fromSubTrees A top cs = .ok n) (hc : ∀ c ∈ cs, c.leafs = m ∧ c.Shaped sub) :
    (Tree2.top n).Shaped sub top := by
  obtain ⟨c0, -, -, -, -, hn⟩ := Node.assemble_ok_iff.1 h
  exact ⟨.of_assemble hm h fun c hcc => (hc c hcc).1, fun c hcc => (hc c (by rw [hn] at hcc; exact hcc)).2⟩

/-- **C81**: what `from_sub_trees_as_trees` returns is, for base trees with equally many leaves. -/
theorem C81_from_sub_trees_as_trees {sub top m : Nat} (hm : 0 < m) {cs : List (BaseTree S E)}
    {n : Node (Tree1 S E) E} (h : fromSubTreesAsTrees A sub top cs = .ok n) (hc : ∀ c ∈ cs, c.leafs = m) :
    (Tree2.top n).Shaped sub top := by
  have hs := (fromSubTreesAsTrees_ok_iff.1 h).1
  obtain ⟨ts, h1, h2⟩ := (flat_eq_nested A sub top cs n).1 h
  rw [mapM_ok_iff] at h1
  refine C81_from_sub_trees (m := sub * m) (Nat.mul_pos hs hm) h2 fun c hcc => ?_
  obtain ⟨x, hx, rfl⟩ := List.mem_map.1 hcc
  obtain ⟨g, hg, ht⟩ := Forall₂.exists_left h1 hx
  have hgc : ∀ c ∈ g, c.leafs = m := fun c hcg => hc c (by
    rw [← chunks_flatten hs cs]
    exact List.mem_flatten.2 ⟨g, hg, hcg⟩)
  obtain ⟨c0, -, h3, -, -, rfl⟩ := Node.assemble_ok_iff.1 ht
  refine ⟨?_, (C81_from_trees (top := top) hm ht hgc).1⟩
  show (g.map BaseTree.leafs).sum = _
  rw [List.map_congr_left hgc, ← h3]
  simp

end

/-! ### Concrete instances -/
section
attribute [local instance] idealRows

example : proofPositions 2 3 5 = [5, 4, 11, 12] := by decide
example : proofPositions 4 2 6 = [6, 4, 5, 7, 16, 18, 19] := by decide

/-- Only the file of the first base tree is left, and of it the nodes off the path of leaf 1 are overwritten. -/
def toyDamaged : FS := FS.empty.set toyFirst.file (some [72, 73, 0, 0, 0, 155, 0])

-- the hypotheses of C81_disk can be met
example : ∃ t u, toyWhole = some t ∧ t.Shaped 2 2 ∧ holder BaseTree.leafs t.bases 1 = some (u, 1) ∧
    u.FullSizes 2 2 ∧ ∀ q ∈ proofPositions 2 2 1,
      (toyDamaged.file u.store.file).map (region · (q * Element.byteLen UInt8) (Element.byteLen UInt8))
        = (toyPartsFs.file u.store.file).map (region · (q * Element.byteLen UInt8) (Element.byteLen UInt8)) := by
  refine ⟨_, _, rfl, ?_, rfl, ⟨rfl, rfl, rfl⟩, by decide +kernel⟩
  exact C81_from_sub_trees_as_trees (A := toyAlg) (m := 4) (by omega)
    (cs := toyParts.map ArchivePart.tree) rfl (by decide +kernel)

-- the proof for leaf 1 is as before; the other leaf on the damaged part and the other base trees are not
example : (toyWhole.map fun t => (decide ((t.genProof 2 2 2 toyDamaged 1).toOption = (t.genProof 2 2 2 toyPartsFs 1).toOption),
    (t.genProof 2 2 2 toyDamaged 1).isOk,
    decide ((t.genProof 2 2 2 toyDamaged 2).toOption = (t.genProof 2 2 2 toyPartsFs 2).toOption),
    (t.genProof 2 2 2 toyDamaged 5).isOk)) = some (true, true, false, false) := by decide +kernel

end
end Verif
