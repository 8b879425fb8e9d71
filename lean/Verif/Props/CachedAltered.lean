import Verif.Lemmas.CachedInv
import Verif.Props.CachedProof
import Verif.Props.ProofSound
/-! Property C49: a level-cache tree over corrupt data has no valid proof for a wrong leaf. -/
set_option linter.unusedSectionVars false
namespace Verif
open Spec StoreOps

section
variable {E : Type} [Element E] [LawfulElement E] [FloatRows] [DecidableEq E] {A : Alg E} {b k : Nat}

/-- **C49**, whatever the store delivers.  `t` is the tree of `leaves`; `u` has its sizes and its root and
reads anything at all.  Any proof `u.gen_cached_proof(i)` returns and that validates is the proof of `t`
(so its item is leaf `i`), or exhibits a collision. -/
theorem C49_any_store {S S' : Type} [StoreOps S E] [StoreOps S' E] (hA : A.LawfulReset) (hb : Arity b)
    (hk : 1 ≤ k) (hh : A.HeightsAgree b) {leaves : List E} {fs : FS} {t : BaseTree S E}
    (ht : t.IsTreeOf A b k leaves fs) {u : BaseTree S' E} (h1 : u.leafs = t.leafs)
    (h2 : u.length = t.length) (h3 : u.root = t.root) (fs' : FS) (σ : Sched) (rows : Option Nat) :
    t.CachedProofsBind A b σ rows fs fs' u := by
  intro i p fs'' h
  obtain ⟨f, hf, hrd⟩ := ht.exists_reads
  obtain ⟨rfl, hi, x, m, -, hp⟩ := BaseTree.genCachedProof_shape hb (h1.trans ht.leafs)
    (h2.trans hrd.len) h
  refine ⟨rfl, fun hv => ?_⟩
  have hi' : i < leaves.length := by rw [hf.count]; exact hi
  obtain ⟨_, _, _, hp'⟩ := Proof.new_base_ok hp
  have hr : p.root = .ok t.root := by rw [hp', ← h3]; exact Proof.root_split ..
  rcases C16_built_tree hA hb hk hh ht hi' hp hv hr with h | ⟨q, hq, hc⟩
  · exact ⟨p, h.2, .inl rfl⟩
  · refine ⟨q, hq, .inr ?_⟩
    have hg := BaseTree.genProof_eq hb hk hrd hi
    rw [hq] at hg
    cases hg
    subst hp'
    exact hc

/-- **C49** for a leaf that reads differently: no proof that `gen_cached_proof` returns for it validates,
or it exhibits a collision with the full tree's proof. -/
theorem C49_altered_leaf {S S' : Type} [StoreOps S E] [StoreOps S' E] (hA : A.LawfulReset) (hb : Arity b)
    (hk : 1 ≤ k) (hh : A.HeightsAgree b) {leaves : List E} {fs : FS} {t : BaseTree S E}
    (ht : t.IsTreeOf A b k leaves fs) {u : BaseTree S' E} (h1 : u.leafs = t.leafs)
    (h2 : u.length = t.length) (h3 : u.root = t.root) {fs' fs'' : FS} {σ : Sched} {rows : Option Nat}
    {i : Nat} (hi : i < leaves.length) {x : E} (hx : u.readAt fs' i = .ok x) (hne : x ≠ leaves[i])
    {p : Proof E} (h : u.genCachedProof A b 0 0 σ i rows fs' = (.ok p, fs'')) :
    p.item = .ok x ∧ (p.validate A b = .ok false ∨ ∃ q, t.genProof b 0 0 fs i = .ok q ∧
      Collision A.nodeHash (proofTranscript A.nodeHash b p) (proofTranscript A.nodeHash b q)) := by
  obtain ⟨f, hf, hrd⟩ := ht.exists_reads
  obtain ⟨rfl, hi', y, m, hy, hp⟩ := BaseTree.genCachedProof_shape hb (h1.trans ht.leafs)
    (h2.trans hrd.len) h
  obtain rfl : y = x := by rw [hx] at hy; cases hy; rfl
  obtain ⟨_, _, _, hp'⟩ := Proof.new_base_ok hp
  have hitem : p.item = .ok y := by rw [hp']; rfl
  refine ⟨hitem, ?_⟩
  obtain ⟨⟨v, hv⟩, -⟩ := C22_base_validate_total A b _ _ _ hp
  cases v with
  | false => exact .inl hv
  | true =>
    right
    obtain ⟨q, hq, h4⟩ := (C49_any_store hA hb hk hh ht h1 h2 h3 _ σ rows i p _ h).2 hv
    refine ⟨q, hq, h4.resolve_left ?_⟩
    rintro rfl
    obtain ⟨p', e1, e2, -⟩ := C14_proof_complete hb hk ht hi
    rw [e1] at hq
    cases hq
    rw [e2] at hitem
    cases hitem
    exact hne rfl

/-- **C49** for a tree on disk that was compacted and opened with an external reader: whatever the reader
returns for whatever request, every validating proof is the original tree's, or exhibits a collision. -/
theorem C49_any_reader (hA : A.LawfulReset) (hb : Arity b) (hk : 1 ≤ k) (hh : A.HeightsAgree b)
    (hf : FloatRows.ExactAt b k) {leaves : List E} {f : Nat → E} {c : StoreConfig} {fs : FS}
    {t : BaseTree (DiskStore E) E} (ht : t.IsFileTree A b k leaves f c fs) (hd : c.rowsToDiscard < k)
    {version : Nat} (hv : version ≠ 1) {t' : BaseTree (DiskStore E) E} {fs' : FS}
    (h : t.compact b c version fs = (.ok true, t', fs')) (r : ExternalReader) :
    ∃ (s : LevelCacheStore E) (u : BaseTree (LevelCacheStore E) E),
      LevelCacheStore.newFromDiskWithReader t.length b c r fs' = (.ok s, fs') ∧
      BaseTree.fromDataStore b 0 0 s t.leafs fs' = .ok u ∧
      u.leafs = t.leafs ∧ u.root = t.root ∧
      ∀ (σ : Sched) (rows : Option Nat), t.CachedProofsBind A b σ rows fs fs' u := by
  obtain ⟨fs₁, g1, g2, g3⟩ :=
    DiskStore.compact_ok hb hk hf hd ht.len ht.size ht.layout ht.file version
  have h0 := BaseTree.compact_of_store (t := t) g1
  rw [h] at h0
  simp only [Prod.mk.injEq, true_and] at h0
  obtain ⟨-, rfl⟩ := h0
  unfold compacted at g2
  rw [if_neg hv] at g2
  have hl : LevelCacheStore.View b k c.rowsToDiscard
      (⟨nodes b k, c.file, b ^ k, rowStart b k (c.rowsToDiscard + 1) * Element.byteLen E, false,
        (encodeAll (cachedRows b k c.rowsToDiscard f)).length, some r⟩ : LevelCacheStore E) :=
    ⟨rfl, rfl, rfl⟩
  have hlen : t.length = nodes b k := ht.len
  have hp := nodes_pos b k
  have hle := rowStart_le_nodes b k (c.rowsToDiscard + 1) hd
  have hp2 := nodes_pos b (k - (c.rowsToDiscard + 1))
  have hroot : f (nodes b k - 1) = t.root := by
    obtain ⟨g, hg, hr⟩ := ht.isTreeOf.exists_reads
    rw [hr.root, layout_unique hg ht.layout _ (by omega)]
  have hu : ∀ u : BaseTree (LevelCacheStore E) E, u.leafs = t.leafs → u.length = t.length →
      u.root = t.root → ∀ σ rows, t.CachedProofsBind A b σ rows fs fs' u :=
    fun u e1 e2 e3 => C49_any_store hA hb hk hh ht.isTreeOf e1 e2 e3 fs'
  refine ⟨_, _, by rw [hlen]; exact LevelCacheStore.newFromDiskWithReader_run hb hk hf hd g2 (by
    rw [length_encodeAll, cachedRows_length]) r,
    by rw [ht.leafs]; exact fromDataStore_view hb hk hf hl
        (hl.readAt_cached_v2 hd rfl g2 (by omega) (by omega)), ht.leafs.symm, hroot, fun σ rows => ?_⟩
  refine hu _ ?_ ?_ ?_ σ rows
  · exact ht.leafs.symm
  · exact hl.len.trans hlen.symm
  · exact hroot

/-! Compound trees. -/
variable {S S' : Type} [StoreOps S E] [StoreOps S' E] {sub : Nat} {σ : Sched} {rows : Option Nat} {fs fs' : FS}

/-- **C49** for compound trees over parts that have it. -/
theorem C49_compound {cs : List (BaseTree S E)} {cs' : List (BaseTree S' E)} {lss : List (List E)}
    {n : Node (BaseTree S E) E} {n' : Node (BaseTree S' E) E}
    (hn : fromTrees A sub cs = .ok n) (hn' : fromTrees A sub cs' = .ok n')
    (hcs : List.Forall₂ (BaseTree.IsTree A b fs) cs lss)
    (h : List.Forall₂ (fun c c' => (c'.leafs = c.leafs ∧ c'.root = c.root) ∧
      BaseTree.CachedProofsBind A b σ rows fs fs' c c') cs cs') :
    (n'.leafs = n.leafs ∧ n'.root = n.root) ∧
      Tree1.CachedProofsBind A b sub σ rows fs fs' (.sub n) (.sub n') := by
  obtain ⟨k, hk, hr, hl, hk2⟩ := fromTrees_height hn hcs
  obtain ⟨c1, r1, l1⟩ := C39_from_trees_result hn
  obtain ⟨c2, r2, l2⟩ := C39_from_trees_result hn'
  have hs := ((C39_from_trees A sub cs).1.1 ⟨_, hn⟩).1
  have hu : n.Uniform BaseTree.leafs sub (b ^ k) := .of_assemble hn (fun c hc => by
    obtain ⟨ls, _, h⟩ := Forall₂.exists_right hk2 hc; exact h.leafs)
  have hroots : cs'.map BaseTree.root = cs.map BaseTree.root := by
    clear hn hn' hcs hk2 c1 c2 r1 r2 l1 l2 hu
    induction h with
    | nil => rfl
    | cons e _ ih => simp [e.1.2, ih]
  have hleafs : cs'.map BaseTree.leafs = cs.map BaseTree.leafs := by
    clear hn hn' hcs hk2 c1 c2 r1 r2 l1 l2 hu hroots
    induction h with
    | nil => rfl
    | cons e _ ih => simp [e.1.1, ih]
  have hroot : n'.root = n.root := by rw [r1, r2, hroots]
  have hle : n'.leafs = n.leafs := by rw [l1, l2, hleafs]
  refine ⟨⟨hle, hroot⟩, fun i p fs'' hg => ?_⟩
  rw [← c1, ← c2] at h
  have h0 : ¬ (0 = 0 ∧ sub = 0) := by omega
  exact Node.cached_layer_bind (pTop := 0) (pSub := sub) (b := b) (gen := BaseTree.genProof b 0 0 fs)
    (rootOf := BaseTree.root) (leafsOf' := BaseTree.leafs) (rootOf' := BaseTree.root) (fs := fs')
    (gen' := fun c i => c.genCachedProof A b 0 0 σ i rows) hu hroot hle h0 h hg

/-- **C49** with a top layer. -/
theorem C49_compound_top (hb : Arity b) {top : Nat} {cs : List (Tree1 S E)} {cs' : List (Tree1 S' E)}
    {lss : List (List E)} {n : Node (Tree1 S E) E} {n' : Node (Tree1 S' E) E}
    (hn : fromSubTrees A top cs = .ok n) (hn' : fromSubTrees A top cs' = .ok n')
    (hcs : List.Forall₂ (Tree1.IsCompound A b sub fs) cs lss)
    (h : List.Forall₂ (fun c c' => (c'.leafs = c.leafs ∧ c'.root = c.root) ∧
      Tree1.CachedProofsBind A b sub σ rows fs fs' c c') cs cs')
    {i : Nat} {p : Proof E} {fs'' : FS}
    (hg : (Tree2.top n').genCachedProof A b sub top σ i rows fs' = (.ok p, fs'')) :
    fs'' = fs' ∧ (p.validate A b = .ok true → ∃ q, (Tree2.top n).genProof b sub top fs i = .ok q ∧
      (p = q ∨ Collision A.nodeHash (proofTranscript A.nodeHash b p)
        (proofTranscript A.nodeHash b q))) := by
  obtain ⟨k, -, hs, ht, -, -, hl, -⟩ := fromSubTrees_layer hb hn hcs
  obtain ⟨c1, r1, l1⟩ := C39_from_sub_trees_result hn
  obtain ⟨c2, r2, l2⟩ := C39_from_sub_trees_result hn'
  have hu := fromSubTrees_uniform hb hn hcs
  have hroots : cs'.map Tree1.root = cs.map Tree1.root := by
    clear hn hn' hcs c1 c2 r1 r2 l1 l2 hu
    induction h with
    | nil => rfl
    | cons e _ ih => simp [e.1.2, ih]
  have hleafs : cs'.map Tree1.leafs = cs.map Tree1.leafs := by
    clear hn hn' hcs c1 c2 r1 r2 l1 l2 hu hroots
    induction h with
    | nil => rfl
    | cons e _ ih => simp [e.1.1, ih]
  have hroot : n'.root = n.root := by rw [r1, r2, hroots]
  have hle : n'.leafs = n.leafs := by rw [l1, l2, hleafs]
  obtain ⟨m, hu⟩ := hu
  rw [← c1, ← c2] at h
  have h0 : ¬ (top = 0 ∧ sub = 0) := by omega
  exact Node.cached_layer_bind (pTop := top) (pSub := sub) (b := b) (gen := Tree1.genProof b sub fs)
    (rootOf := Tree1.root) (leafsOf' := Tree1.leafs) (rootOf' := Tree1.root) (fs := fs')
    (gen' := fun c i => c.genCachedProof A b sub σ i rows) hu hroot hle h0 h hg

end

/-! The tree `72, 73, 74, 75 | 91, 155 | 250` compacted with no inner row discarded, and a replica in which
leaf 2 was changed to `99`: the proof for leaf 2 has the item `99` and does not validate, nor does the one
for its sibling; those for the other leaves do. -/
section
attribute [local instance] idealRows

def accepted : Res Bool → Bool
  | .ok v => v
  | .error _ => false

def toyAltered : Option (List (Option (List UInt8 × Bool))) :=
  let fs := ((toyCachedFull 0).compact 2 (StoreConfig.new "d" "t" 0) 2 (toyCachedFs 0)).2.2
  let fs := fs.set (.named "r") (some [0, 0, 72, 73, 99, 75, 9])
  match LevelCacheStore.newFromDiskWithReader (E := UInt8) 7 2 (StoreConfig.new "d" "t" 0)
    (.ofFile (.named "r") 2) fs with
  | (.ok s, fs) => match BaseTree.fromDataStore 2 0 0 s 4 fs with
    | .ok t => some ((List.range 4).map fun i =>
        match (t.genCachedProof toyAlg 2 0 0 Sched.sequential i (some 0) fs).1 with
        | .ok p => some (p.lem, accepted (p.validate toyAlg 2))
        | .error _ => none)
    | _ => none
  | _ => none

example : toyAltered = some [some ([72, 73, 155, 250], true), some ([73, 72, 155, 250], true),
    some ([99, 75, 91, 250], false), some ([75, 99, 91, 250], false)] := by decide +kernel

end
end Verif
