import Verif.Lemmas.OwnProof
import Verif.Props.ProofComplete
import Verif.Props.ProofSound
import Verif.Props.ProofTotal
import Verif.Props.Compound
import Verif.Props.Update
/-! Property C89: a valid base proof with the root of a tree is one of the tree's own proofs. -/
namespace Verif
open Spec

section
variable {S E : Type} [Element E] [DecidableEq E] [StoreOps S E] {A : Alg E} {b k : Nat} {leaves : List E}
  {fs : FS} {t : BaseTree S E} {l : List E} {path : List Nat} {p : Proof E}

/-- **C89** for proofs as deep as the tree: such a proof is, lemma by lemma, the one `gen_proof` gives for the leaf its
path leads to; or `b` neighbouring nodes of the tree collide with a list hashed for the proof at the same row.  For
algorithms that ignore the height argument, and for all algorithms on binary trees. -/
theorem C89_own_proof (hA : A.LawfulReset) (hh : A.HeightsAgree b) (hb : Arity b) (hk : 1 ≤ k)
    (ht : t.IsTreeOf A b k leaves fs) (hp : Proof.new b 0 0 none l path = .ok p)
    (hv : p.validate A b = .ok true) (hr : p.root = .ok t.root) (hd : path.length = k) :
    (∃ i, ∃ hi : i < leaves.length, path = digits b k i ∧ t.genProof b 0 0 fs i = .ok p ∧
      p.item = .ok leaves[i]) ∨
    ∃ y z g, t.Hashed fs b k y g ∧ (z, g * (b - 1)) ∈ baseTranscript A.nodeHash b l path ∧ y ≠ z ∧
      A.nodeHash y g = A.nodeHash z g := by
  have hb2 := hb.two_le
  obtain ⟨f, hf, hread⟩ := ht.exists_reads
  obtain ⟨-, -, hl, hp'⟩ := Proof.new_base_ok hp
  have hlt : ∀ d ∈ path, d < b := by
    by_contra hc
    push Not at hc
    have := (C22_base_validate_total A b l path p hp).2 hc
    rw [hv] at this; simp at this
  obtain ⟨i, hi, he⟩ := digits_surj path hlt
  rw [hd] at hi he
  have hil : i < leaves.length := by rw [hf.count]; exact hi
  have hg := BaseTree.genProof_eq hb hk hread hi
  have hhn := honest_new f hb2 hk i
  have hhv : (honestProof f b k i).validate A b = .ok true := honest_validates hA hb2 hh hf hi
  have hroot : p.root = (honestProof f b k i).root := by
    rw [hr, honestProof, Proof.root_split, hread.root]
  rw [he] at hhn
  rcases C16_binding A hA b l _ path p _ hp hhn hv hhv hroot with ⟨h1, h2⟩ | ⟨j, x, y, h, h1, h2, h3, h4⟩
  · refine .inl ⟨i, hil, he.symm, ?_, ?_⟩
    · rw [hg]
      subst h1
      rw [hhn] at hp
      exact hp
    · rw [h2, ← hf.leaf i hil]
      rfl
  · right
    have hy := List.mem_of_getElem? h2
    have hx := List.mem_of_getElem? h1
    have hsl : steps b path (auth f b k k i ++ [f (nodes b k - 1)]) = steps b (digits b k i) (auth f b k k i) := by
      rw [he]
      exact steps_append _ _ _ (by rw [auth_length f (by omega), hd])
    rw [List.cons_append] at hy
    simp only [baseTranscript, hsl] at hy
    have hh' : ∀ l, l < k → ∀ ns, A.nodeHash ns (l * (b - 1)) = A.nodeHash ns l := fun l _ ns => hh.eq l ns
    obtain ⟨g, m, hg1, hm, rfl, rfl⟩ := transcript_auth (hgt := fun j => j * (b - 1)) (by omega : 0 < b) hf hh' k i
      (Nat.le_refl _) hi y h (by simpa [rowStart] using hy)
    refine ⟨_, x, g, ⟨hg1, by simp, m, hm, fun c hc => ?_⟩, hx, h3.symm, ?_⟩
    · simp only [List.length_map, List.length_range] at hc
      rw [hread.reads _ ?_]
      · simp
      · refine rowStart_add_lt b k g _ (by omega) ?_
        rw [show k - g = k - (g + 1) + 1 by omega, Nat.pow_succ]
        calc m * b + c < m * b + b := by omega
          _ = (m + 1) * b := by ring
          _ ≤ _ := Nat.mul_le_mul_right _ hm
    · rw [← hh.eq g x]
      rw [← hh.eq g]
      exact h4.symm

/-- **C89** for binary trees, whatever the depth of the proof and whatever the algorithm does with the height: the
proof is the tree's own, or it and the tree show two different pairs of children and height with the same hash. -/
theorem C89_binary (hA : A.LawfulReset) (hk : 1 ≤ k)
    (ht : t.IsTreeOf A 2 k leaves fs) (hp : Proof.new 2 0 0 none l path = .ok p)
    (hv : p.validate A 2 = .ok true) (hr : p.root = .ok t.root) :
    (∃ i, ∃ hi : i < leaves.length, path = digits 2 k i ∧ t.genProof 2 0 0 fs i = .ok p ∧
      p.item = .ok leaves[i]) ∨
    ∃ y z g h, t.Hashed fs 2 k y g ∧ (z, h) ∈ baseTranscript A.nodeHash 2 l path ∧ (y, g) ≠ (z, h) ∧
      A.nodeHash y g = A.nodeHash z h := by
  have hb : Arity 2 := (show Arity 2 from ⟨1, by omega, rfl⟩)
  by_cases hd : path.length = k
  · rcases C89_own_proof hA (.inr rfl) hb hk ht hp hv hr hd with h | ⟨y, z, g, h1, h2, h3, h4⟩
    · exact .inl h
    · refine .inr ⟨y, z, g, g, h1, by simpa using h2, by simp [h3], h4⟩
  · right
    obtain ⟨f, hf, hread⟩ := ht.exists_reads
    obtain ⟨-, hpl, hl, rfl⟩ := Proof.new_base_ok hp
    obtain ⟨x, m, r, rfl, hm⟩ := lemma_split hl
    simp only [Proof.mk] at *
    rw [validateBase_spec A hA (by omega) x r m path hm] at hv
    simp only [Except.ok.injEq, decide_eq_true_eq] at hv
    rw [Proof.root_split] at hr
    have hr : r = t.root := Except.ok.inj hr
    have hst : (steps 2 path m).length = path.length := steps_length 2 path m
    obtain ⟨z, h1, h2⟩ := climb_end A.nodeHash (fun j => j * (2 - 1)) (steps 2 path m) 0 x (by
      intro h0; rw [h0] at hst; simp at hst; omega)
    rw [hv.2, hr, hread.root, hst] at h2
    have hstep := hf.step (k - 1) 0 (by omega) (by simp)
    rw [show k - 1 + 1 = k by omega, Nat.add_zero, ← Nat.add_sub_cancel (rowStart 2 k k) 1, rowStart_top] at hstep
    refine ⟨_, z, k - 1, 0 + path.length - 1, ⟨by omega, by simp, 0, by simp, fun c hc => ?_⟩, ?_, ?_,
      hstep.symm.trans (by simpa using h2)⟩
    · simp only [List.length_map, List.length_range] at hc
      rw [hread.reads _ ?_]
      · simp
      · refine rowStart_add_lt 2 k (k - 1) _ (by omega) ?_
        rw [show k - (k - 1) = 1 by omega]; simp; omega
    · rw [List.cons_append, baseTranscript]
      simp only [steps_append _ _ _ hm]
      rw [hst] at h1
      simpa using h1
    · intro h0
      simp only [Prod.mk.injEq] at h0
      omega

/-- **C89**: so where the hashes of the proof do not collide with those of the tree, the proof is valid with the root
of the tree exactly if it is the proof of one of its leaves. -/
theorem C89_binary_iff (hA : A.LawfulReset) (hinj : ∀ y z g h, t.Hashed fs 2 k y g →
      (z, h) ∈ baseTranscript A.nodeHash 2 l path → A.nodeHash y g = A.nodeHash z h → y = z ∧ g = h)
    (hk : 1 ≤ k) (ht : t.IsTreeOf A 2 k leaves fs) (hp : Proof.new 2 0 0 none l path = .ok p) :
    (p.validate A 2 = .ok true ∧ p.root = .ok t.root) ↔
      ∃ i, i < leaves.length ∧ t.genProof 2 0 0 fs i = .ok p := by
  constructor
  · rintro ⟨hv, hr⟩
    rcases C89_binary hA hk ht hp hv hr with ⟨i, hi, -, h, -⟩ | ⟨y, z, g, h, h1, h2, h3, h4⟩
    · exact ⟨i, hi, h⟩
    · obtain ⟨rfl, rfl⟩ := hinj _ _ _ _ h1 h2 h4
      exact (h3 rfl).elim
  · rintro ⟨i, hi, h⟩
    obtain ⟨f, hf, hread⟩ := ht.exists_reads
    have hi' : i < 2 ^ k := by rw [← hf.count]; exact hi
    rw [BaseTree.genProof_eq (show Arity 2 from ⟨1, by omega, rfl⟩) hk hread hi'] at h
    cases h
    exact ⟨honest_validates hA (by omega) (.inr rfl) hf hi', by rw [honestProof, Proof.root_split, hread.root]⟩

end

/-! ### Compound trees -/
section
variable {S E : Type} [StoreOps S E] [Element E]

theorem Node.genSubTreeProof_new {C : Type} {leafsOf : C → Nat} {rootOf : C → E} {gen : C → Nat → Res (Proof E)}
    {b pTop pSub : Nat} {t : Node C E} {arity i : Nat} {p : Proof E}
    (h : t.genSubTreeProof leafsOf rootOf gen b pTop pSub arity i = .ok p) :
    ∃ c ∈ t.children, ∃ li sp lem path, gen c li = .ok sp ∧ Proof.new b pTop pSub (some sp) lem path = .ok p ∧
      lem.length = arity ∧ 0 < arity := by
  unfold Node.genSubTreeProof at h
  simp only [bind_ok_iff, ensure_ok_iff] at h
  obtain ⟨-, h0, per, -, ti, -, -, hc, c, hi, li, -, sp, hs, lem, hl, hn⟩ := h
  have hti : ti < t.children.length := by
    by_contra hc
    rw [idxP, List.getElem?_eq_none (by omega)] at hi
    simp at hi
  rw [idxP_ok hti] at hi
  cases hi
  refine ⟨_, List.getElem_mem hti, li, sp, lem, _, hs, hn, ?_, by omega⟩
  rw [hc, Node.layerLemma_erase hti] at hl
  cases hl
  rw [List.length_append, List.length_eraseIdx_of_lt (by simpa using hti)]
  simp only [List.length_map, List.length_singleton]
  omega

theorem BaseTree.genProof_new {b sub top : Nat} {fs : FS} {t : BaseTree S E} {i : Nat} {p : Proof E}
    (h : t.genProof b sub top fs i = .ok p) : ∃ lem path, Proof.new b 0 0 none lem path = .ok p := by
  unfold BaseTree.genProof at h
  simp only [bind_ok_iff] at h
  obtain ⟨-, -, -, -, -, -, _, -, _, -, -, -, -, -, _, -, ⟨sibs, path⟩, -, -, -, -, -, hn⟩ := h
  exact ⟨_, _, hn⟩

variable [DecidableEq E] {A : Alg E} {b : Nat} {fs : FS}

omit [DecidableEq E] in
/-- The proofs of compound trees have the lengths of the layers. -/
theorem Tree1.genProof_honest {sub : Nat} {n : Node (BaseTree S E) E} {i : Nat} {q : Proof E}
    (hq : (Tree1.sub n).genProof b sub fs i = .ok q) : Obtainable b q ∧ HonestLengths q := by
  obtain ⟨c, -, li, sp, lem, path, h1, h2, h3, h4⟩ := Node.genSubTreeProof_new hq
  obtain ⟨l0, p0, h5⟩ := BaseTree.genProof_new h1
  refine ⟨.nested (.base h5) h2, ?_⟩
  rw [Proof.new_nested_ok h2, Proof.new_none_ok h5]
  have e : layerArity 0 sub = sub := by simp [layerArity]
  exact ⟨by rw [e, h3], by rw [e]; exact h4, trivial⟩

omit [DecidableEq E] in
theorem Tree2.genProof_honest {sub top : Nat} {n : Node (Tree1 S E) E}
    (hs : ∀ c ∈ n.children, ∃ m, c = Tree1.sub m) {i : Nat} {q : Proof E}
    (hq : (Tree2.top n).genProof b sub top fs i = .ok q) : Obtainable b q ∧ HonestLengths q := by
  obtain ⟨c, hc, li, sp, lem, path, h1, h2, h3, h4⟩ := Node.genSubTreeProof_new hq
  obtain ⟨m, rfl⟩ := hs c hc
  obtain ⟨h5, h6⟩ := Tree1.genProof_honest h1
  refine ⟨.nested h5 h2, ?_⟩
  rw [Proof.new_nested_ok h2]
  have e : layerArity top sub = top := by simp [layerArity, h4]
  exact ⟨by rw [e, h3], by rw [e]; exact h4, h6⟩

/-- **C89** for trees of `from_trees`: a valid proof with the root of the tree that has the shape of one of the tree's
proofs and lemmas of the right lengths is that proof, or the lists hashed for the two collide. -/
theorem C89_compound (hA : A.LawfulReset) (hI : A.IgnoresHeight) (hb : Arity b) {sub : Nat} {t : Tree1 S E}
    {leaves : List E} (ht : t.IsCompound A b sub fs leaves) {p q : Proof E} (hp : Obtainable b p) (hl : HonestLengths p)
    (hv : p.validate A b = .ok true) (hr : p.root = .ok t.root) {i : Nat} (hi : i < leaves.length)
    (hq : t.genProof b sub fs i = .ok q) (hs : SameShape p q) :
    p = q ∨ Collision A.nodeHash (proofTranscript A.nodeHash b p) (proofTranscript A.nodeHash b q) := by
  obtain ⟨cs, lss, n, rfl, g1, g2, rfl⟩ := ht
  obtain ⟨h1, h2⟩ := Tree1.genProof_honest hq
  obtain ⟨-, -, q', -, g3, -, -, g4, -, g5⟩ := C18_compound_complete hb g1 g2 hi
  rw [hq] at g3
  cases g3
  exact C57_exact_lengths hA hp h1 hs hl h2 hv (g5 hA hI) (by rw [hr, g4]; rfl)

/-- **C89** for trees of `from_sub_trees`. -/
theorem C89_top (hA : A.LawfulReset) (hI : A.IgnoresHeight) (hb : Arity b) {sub top : Nat} {cs : List (Tree1 S E)}
    {t : Node (Tree1 S E) E} {lss : List (List E)} (ht : fromSubTrees A top cs = .ok t)
    (hcs : List.Forall₂ (Tree1.IsCompound A b sub fs) cs lss) {p q : Proof E} (hp : Obtainable b p)
    (hl : HonestLengths p) (hv : p.validate A b = .ok true) (hr : p.root = .ok t.root) {i : Nat}
    (hi : i < lss.flatten.length) (hq : (Tree2.top t).genProof b sub top fs i = .ok q) (hs : SameShape p q) :
    p = q ∨ Collision A.nodeHash (proofTranscript A.nodeHash b p) (proofTranscript A.nodeHash b q) := by
  obtain ⟨h1, h2⟩ := Tree2.genProof_honest (fun c hc => by
    rw [(C39_from_sub_trees_result ht).1] at hc
    obtain ⟨_, -, -, -, n, hn, -⟩ := Forall₂.exists_right hcs hc
    exact ⟨n, hn⟩) hq
  obtain ⟨-, -, q', -, g3, -, -, g4, -, g5⟩ := C19_from_sub_trees hb ht hcs hi
  rw [hq] at g3
  cases g3
  exact C57_exact_lengths hA hp h1 hs hl h2 hv (g5 hA hI) (by rw [hr, g4])

end

/-! Concrete instances: the premises hold of the proof of a leaf of the tree over `1, 2, 3, 4`; with an algorithm that
uses the height, a proof of one layer does not validate with the root of that tree, while it does with one that
ignores it. -/
section
attribute [local instance] idealRows

example : ∃ p, Proof.new 2 0 0 none [73, 72, 155, 250] [1, 0] = .ok p ∧ p.validate toyAlg 2 = .ok true ∧
    p.root = .ok smallTree.root ∧ smallTree.genProof 2 0 0 FS.empty 1 = .ok p ∧
    smallTree.IsTreeOf toyAlg 2 2 ([1, 2, 3, 4].map toyAlg.leafHash) FS.empty :=
  ⟨.base 0 0 [73, 72, 155, 250] [1, 0], by decide +kernel, by decide +kernel, by decide +kernel, by decide +kernel,
    smallTree_isTreeOf⟩

/-- The children of the root of the tree over `1, 2, 3, 4`, with the root, as a proof of one layer. -/
def shortProof (A : Alg UInt8) : Res Bool :=
  match (BaseTree.new (S := VecStore UInt8) A 2 Sched.sequential [1, 2, 3, 4] FS.empty).1 with
  | .ok t => do
    let x ← t.readAt FS.empty 4
    let y ← t.readAt FS.empty 5
    let p ← Proof.new 2 0 0 none [x, y, t.root] [0]
    p.validate A 2
  | .error e => .error e

example : shortProof toyAlg = .ok true ∧ shortProof toyAlgH = .ok false := by decide +kernel

end
end Verif
