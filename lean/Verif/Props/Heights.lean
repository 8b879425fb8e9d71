import Verif.Lemmas.Heights
import Verif.Props.ProofComplete
/-! Property C20 for every tree: which proofs validate under an algorithm that looks at the height.
`build` hashes row `l` with height `l` (src/store/mod.rs:287, 348), `validate` with `l * (b - 1)`
(src/proof.rs:190); `from_trees` hashes the roots with height 1 (src/merkle.rs:562),
`validate_sub_tree_proof` with height 0 (src/proof.rs:122). -/
namespace Verif
open Spec

section
variable {E : Type} [Element E] [DecidableEq E] {S : Type} [StoreOps S E] {A : Alg E} {b k : Nat}
  {leaves : List E} {fs : FS}

/-- **C20**, where it holds: binary base trees, and base trees of two rows, for every algorithm. -/
theorem C20_base_partial (hA : A.LawfulReset) (hb : Arity b) (hk : 1 ≤ k) (h : b = 2 ∨ k = 1)
    {t : BaseTree S E} (ht : t.IsTreeOf A b k leaves fs) {i : Nat} (hi : i < leaves.length) :
    ∃ p, t.genProof b 0 0 fs i = .ok p ∧ p.validate A b = .ok true := by
  obtain ⟨f, hf, hr⟩ := ht.exists_reads
  have hi' : i < b ^ k := hf.count ▸ hi
  refine ⟨_, BaseTree.genProof_eq hb hk hr hi', ?_⟩
  rw [honest_validate hA hb.two_le]
  congr 1
  rw [decide_eq_true_eq]
  have := climb_auth (hgt := fun j => j * (b - 1)) (by have := hb.two_le; omega : 0 < b) hf
    (fun l hl ns => by
      rcases h with rfl | rfl
      · simp
      · rw [show l = 0 by omega, Nat.zero_mul]) k i (Nat.le_refl _) hi'
  simpa [rowStart] using this

/-- **C20, refuted for every other base tree**: three rows or more of arity above 2.  If the algorithm
tells the two heights with which `build` and `validate` compute the root apart, then no proof of the
tree validates. -/
theorem C20_base_refuted (hA : A.LawfulReset) (hb : Arity b) (hb3 : 3 ≤ b) (hk : 2 ≤ k)
    (hsep : ∀ ns ns', A.nodeHash ns (k - 1) ≠ A.nodeHash ns' ((k - 1) * (b - 1)))
    {t : BaseTree S E} (ht : t.IsTreeOf A b k leaves fs) {i : Nat} (hi : i < leaves.length) :
    (k - 1) * (b - 1) ≠ k - 1 ∧ ∃ p, t.genProof b 0 0 fs i = .ok p ∧ p.validate A b = .ok false := by
  obtain ⟨f, hf, hr⟩ := ht.exists_reads
  have hi' : i < b ^ k := hf.count ▸ hi
  refine ⟨fun h => ?_, _, BaseTree.genProof_eq hb (by omega) hr hi', ?_⟩
  · have h2 : (k - 1) * 2 ≤ (k - 1) * (b - 1) := Nat.mul_le_mul_left _ (by omega)
    omega
  rw [honest_validate hA hb.two_le]
  congr 1
  rw [decide_eq_false_iff_not]
  obtain ⟨ns, hns⟩ := hf.root_hashed (by omega)
  obtain ⟨ns', hns'⟩ := climb_last (H := A.nodeHash) (hgt := fun j => j * (b - 1))
    (steps b (digits b k i) (auth f b k k i)) 0 (f i) (by
      intro h0
      have := steps_length b (digits b k i) (auth f b k k i)
      rw [h0, digits_length] at this
      simp at this
      omega)
  rw [steps_length, digits_length, Nat.zero_add] at hns'
  rw [hns', hns]
  exact fun h => hsep _ _ h.symm

/-- **C20** for `from_trees`: a compound proof validates exactly if the sub-proof does and the
algorithm hashes the sub-roots alike with heights 0 and 1.  (The sub-proof does for binary base trees
and for base trees of two rows.) -/
theorem C20_compound_iff (hA : A.LawfulReset) (hb : Arity b) {sub : Nat} {cs : List (BaseTree S E)}
    {t : Node (BaseTree S E) E} {lss : List (List E)} (ht : fromTrees A sub cs = .ok t)
    (hcs : List.Forall₂ (BaseTree.IsTree A b fs) cs lss) {i : Nat} (hi : i < lss.flatten.length) :
    ∃ sp p, p.sub = some sp ∧ (Tree1.sub t).genProof b sub fs i = .ok p ∧
      (∃ v, sp.validate A b = .ok v) ∧ (b = 2 ∨ t.rowCount = 3 → sp.validate A b = .ok true) ∧
      p.validate A b = .ok (decide (sp.validate A b = .ok true ∧
        A.nodeHash (cs.map BaseTree.root) 0 = A.nodeHash (cs.map BaseTree.root) 1)) := by
  obtain ⟨k, hk, hrow, -, hk2⟩ := fromTrees_height ht hcs
  obtain ⟨k', -, hrow', -, hs0, -, -, -, -, h2⟩ :=
    fromTrees_layer hb (top := 0) (by simp [layerArity]) ht hcs
  obtain rfl : k' = k := by omega
  obtain ⟨hlt, sp, p, e1, e2, rfl, -, -, -⟩ := h2 i hi
  obtain ⟨c0, -, h1, -, -, rfl⟩ := Node.assemble_ok_iff.1 ht
  dsimp only at hlt e1 e2
  obtain ⟨ls, -, hc⟩ := Forall₂.exists_right hk2 (List.getElem_mem hlt)
  obtain ⟨f, hf, hr⟩ := hc.exists_reads
  have hbk : 0 < b ^ k' := Nat.pow_pos (by have := hb.two_le; omega)
  have hlen : i % b ^ k' < ls.length := by rw [hf.count]; exact Nat.mod_lt _ hbk
  have hsub : b = 2 ∨ k' = 1 → sp.validate A b = .ok true := fun h => by
    obtain ⟨p, g1, g2⟩ := C20_base_partial hA hb hk h hc hlen
    rw [g1] at e1
    exact Except.ok.inj e1 ▸ g2
  rw [BaseTree.genProof_eq hb hk hr (Nat.mod_lt _ hbk)] at e1
  obtain rfl := Except.ok.inj e1
  refine ⟨_, _, rfl, e2, ⟨_, honest_validate hA hb.two_le f _⟩,
    fun h => hsub (h.imp_right fun h => by dsimp only at h hrow; omega), ?_⟩
  have hroot : (honestProof f b k' (i % b ^ k')).root
      = .ok ((cs.map BaseTree.root)[i / b ^ k']'(by rw [List.length_map]; exact hlt)) := by
    rw [List.getElem_map, hr.root]
    exact Proof.root_split ..
  have har : (cs.map BaseTree.root).length = layerArity 0 sub := by
    rw [List.length_map, h1]; simp [layerArity]
  by_cases hn : A.nodeHash (cs.map BaseTree.root) 0 = A.nodeHash (cs.map BaseTree.root) 1
  · cases hv : decide (climb A.nodeHash (fun j => j * (b - 1)) 0 (f (i % b ^ k'))
        (steps b (digits b k' (i % b ^ k')) (auth f b k' k' (i % b ^ k'))) = f (nodes b k' - 1)) with
    | true =>
      have hv' := honest_validate hA (k := k') hb.two_le f (i % b ^ k')
      rw [hv] at hv'
      rw [validate_nested_honest hA (by rw [List.length_map]; exact hlt) hs0 har hroot hv']
      simp [hv', hn]
    | false =>
      have hv' := honest_validate hA (k := k') hb.two_le f (i % b ^ k')
      rw [hv] at hv'
      simp [Proof.validate, hv', Res.ok_bind, hs0]
  · rw [validate_nested_false hA (by rw [List.length_map]; exact hlt) hs0 har hroot
      (honest_validate hA hb.two_le f _) hn]
    simp [hn]

/-- **C20, refuted for every compound tree** of `from_trees`: if the algorithm tells height 0 from
height 1, then no proof validates. -/
theorem C20_compound_every_refuted (hA : A.LawfulReset) (hb : Arity b) {sub : Nat}
    {cs : List (BaseTree S E)} {t : Node (BaseTree S E) E} {lss : List (List E)}
    (ht : fromTrees A sub cs = .ok t) (hcs : List.Forall₂ (BaseTree.IsTree A b fs) cs lss)
    (hsep : ∀ ns, A.nodeHash ns 0 ≠ A.nodeHash ns 1) {i : Nat} (hi : i < lss.flatten.length) :
    ∃ p, (Tree1.sub t).genProof b sub fs i = .ok p ∧ p.validate A b = .ok false := by
  obtain ⟨sp, p, -, h1, -, -, h2⟩ := C20_compound_iff hA hb ht hcs hi
  refine ⟨p, h1, ?_⟩
  rw [h2]
  simp [hsep]

/-- The same one layer up: a proof of a three-layer tree validates exactly if its sub-proof does (for
which see `C20_compound_iff`) and the algorithm hashes the roots of the compound trees alike with
heights 0 and 1. -/
theorem C20_top_iff (hA : A.LawfulReset) (hb : Arity b) {sub top : Nat}
    {cs : List (Tree1 S E)} {t : Node (Tree1 S E) E} {lss : List (List E)}
    (ht : fromSubTrees A top cs = .ok t) (hcs : List.Forall₂ (Tree1.IsCompound A b sub fs) cs lss)
    {i : Nat} (hi : i < lss.flatten.length) :
    ∃ (c : Tree1 S E) (j : Nat) (sp p : Proof E), c ∈ cs ∧ c.genProof b sub fs j = .ok sp ∧
      p.sub = some sp ∧ (Tree2.top t).genProof b sub top fs i = .ok p ∧
      (∃ v, sp.validate A b = .ok v) ∧
      p.validate A b = .ok (decide (sp.validate A b = .ok true ∧
        A.nodeHash (cs.map Tree1.root) 0 = A.nodeHash (cs.map Tree1.root) 1)) := by
  obtain ⟨k, hk, hs0, ht0, hrow, -, -, -, -, -, h2⟩ := fromSubTrees_layer hb ht hcs
  obtain ⟨hlt, sp, p, e1, e2, rfl, -, -, -⟩ := h2 i hi
  obtain ⟨c0, -, h1, hrows, -, rfl⟩ := Node.assemble_ok_iff.1 ht
  dsimp only at hlt e1 hrow
  have hrow2 := hrows _ (List.getElem_mem hlt)
  refine ⟨_, _, sp, _, List.getElem_mem hlt, e1, rfl, e2, ?_⟩
  obtain ⟨ls, -, hcomp⟩ := Forall₂.exists_right hcs (List.getElem_mem hlt)
  obtain ⟨k', -, -, hr', -, -, hch⟩ := hcomp.child hb
  obtain rfl : k' = k := by omega
  have hlt1 : i % (sub * b ^ k') < ls.length := by
    rw [hch.count]
    exact Nat.mod_lt _ (Nat.mul_pos hs0 (Nat.pow_pos (by have := hb.two_le; omega)))
  have hroot : sp.root = .ok ((cs.map Tree1.root)[i / (sub * b ^ k')]'(by
      rw [List.length_map]; exact hlt)) := by
    obtain ⟨q, g1, g2, -⟩ := hch.proof _ hlt1
    rw [e1] at g1
    rw [Except.ok.inj g1, g2, List.getElem_map]
  have hsv : ∃ v, sp.validate A b = .ok v := by
    obtain ⟨us, lss', n, hn, hu1, hu2, rfl⟩ := hcomp
    rw [hn] at e1
    obtain ⟨sp', p', -, h3, -, -, h4⟩ := C20_compound_iff hA hb hu1 hu2 hlt1
    rw [h3] at e1
    rw [← Except.ok.inj e1]
    exact ⟨_, h4⟩
  refine ⟨hsv, ?_⟩
  obtain ⟨v, hv⟩ := hsv
  have har : (cs.map Tree1.root).length = layerArity top sub := by
    rw [List.length_map, h1]; simp [layerArity, ht0]
  by_cases hn : A.nodeHash (cs.map Tree1.root) 0 = A.nodeHash (cs.map Tree1.root) 1
  · cases v with
    | true =>
      rw [validate_nested_honest hA (by rw [List.length_map]; exact hlt) hs0 har hroot hv]
      simp [hv, hn]
    | false => simp [Proof.validate, hv, Res.ok_bind, ht0]
  · rw [validate_nested_false hA (by rw [List.length_map]; exact hlt) hs0 har hroot hv hn]
    simp [hn]

/-- So the same is refuted one layer up. -/
theorem C20_top_every_refuted (hA : A.LawfulReset) (hb : Arity b) {sub top : Nat}
    {cs : List (Tree1 S E)} {t : Node (Tree1 S E) E} {lss : List (List E)}
    (ht : fromSubTrees A top cs = .ok t) (hcs : List.Forall₂ (Tree1.IsCompound A b sub fs) cs lss)
    (hsep : ∀ ns, A.nodeHash ns 0 ≠ A.nodeHash ns 1) {i : Nat} (hi : i < lss.flatten.length) :
    ∃ p, (Tree2.top t).genProof b sub top fs i = .ok p ∧ p.validate A b = .ok false := by
  obtain ⟨k, hk, hs0, ht0, hrow, -, -, -, -, -, h2⟩ := fromSubTrees_layer hb ht hcs
  obtain ⟨hlt, sp, p, e1, e2, rfl, -, -, -⟩ := h2 i hi
  refine ⟨_, e2, ?_⟩
  obtain ⟨c0, -, h1, hrows, -, rfl⟩ := Node.assemble_ok_iff.1 ht
  dsimp only at hlt e1 hrow
  have hrow2 := hrows _ (List.getElem_mem hlt)
  obtain ⟨ls, -, hcomp⟩ := Forall₂.exists_right hcs (List.getElem_mem hlt)
  obtain ⟨k', -, -, hr', -, -, hch⟩ := hcomp.child hb
  obtain rfl : k' = k := by omega
  obtain ⟨us, lss', n, hn, hu1, hu2, rfl⟩ := hcomp
  rw [hn] at e1
  have hlt2 : i % (sub * b ^ k') < lss'.flatten.length := by
    rw [hch.count]
    exact Nat.mod_lt _ (Nat.mul_pos hs0 (Nat.pow_pos (by have := hb.two_le; omega)))
  obtain ⟨p', h3, h4⟩ := C20_compound_every_refuted hA hb hu1 hu2 hsep hlt2
  rw [h3] at e1
  obtain rfl := Except.ok.inj e1
  simp only [Proof.validate, h4, Res.ok_bind]
  split <;> rfl

end

/-! ### The hypotheses can be met -/
section examples
attribute [local instance] idealRows

/-- An algorithm whose `multi_node` is the height and nothing else. -/
def heightAlg : Alg UInt8 where
  σ := UInt8
  init := 7
  write := fun s bs => bs.foldl (fun s x => 31 * s + x) s
  hash := fun s => (s, s)
  reset := fun _ => 7
  leaf := fun s e => (e, s)
  multiNode := fun s _ h => (UInt8.ofNat h, s)

example : heightAlg.LawfulReset := fun _ => rfl
example : ∀ ns ns', heightAlg.nodeHash ns (2 - 1) ≠ heightAlg.nodeHash ns' ((2 - 1) * (4 - 1)) := by
  intro _ _ h
  exact absurd (show (1 : UInt8) = 3 from h) (by decide)
example : ∀ ns, heightAlg.nodeHash ns 0 ≠ heightAlg.nodeHash ns 1 := by
  intro _ h
  exact absurd (show (0 : UInt8) = 1 from h) (by decide)
-- A tree of sixteen leaves and arity 4, a tree of four leaves and arity 4, and a compound tree.
example : ∃ t : BaseTree (VecStore UInt8) UInt8,
    t.IsTreeOf heightAlg 4 2 (Source.new (A := heightAlg) sixteen).leaves FS.empty := by
  obtain ⟨k, hk, ht⟩ := C08_vec (A := heightAlg) (src := Source.new sixteen) (cfg := none)
    (fs := FS.empty) (fun _ => rfl) (b := 4) Sched.sequential_valid trivial
    (idealRows_floor (by decide) (by decide)) (by simp) (by rfl)
  obtain ⟨f, hf, -⟩ := ht.exists_reads
  have h4 : 4 ^ 2 = 4 ^ k := hf.count
  obtain rfl : 2 = k := Nat.pow_right_injective (by decide) h4
  exact ⟨_, ht⟩
example : ∃ (t : BaseTree (VecStore UInt8) UInt8)
    (n : Node (BaseTree (VecStore UInt8) UInt8) UInt8) (m : Node (Tree1 (VecStore UInt8) UInt8) UInt8),
    (BaseTree.new (S := VecStore UInt8) heightAlg 4 Sched.sequential [1, 2, 3, 4] FS.empty).1 = .ok t ∧
      fromTrees heightAlg 2 [t, t] = .ok n ∧ fromSubTrees heightAlg 2 [Tree1.sub n, Tree1.sub n] = .ok m :=
  ⟨_, _, _, rfl, rfl, rfl⟩

end examples
end Verif
