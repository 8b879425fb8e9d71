import Verif.Lemmas.ProofEdit
import Verif.Props.ProofTotal
import Verif.Props.RootBinding
/-
C84: proofs whose lemma was changed through `lemma_mut` (src/proof.rs:223).
-/
namespace Verif
open Spec

section
variable {E : Type}

/-- **C84**: what safe code can make: the layers without extra arities have a path (and the arity is at least 2),
nothing else is known of them. -/
theorem C84_reachable [Inhabited E] {b : Nat} {p : Proof E} : Reachable b p ↔ Pathed b p := by
  have mk0 : ∀ {top subn : Nat} (s : Option (Proof E)) (path : List Nat),
      (layerArity top subn = 0 → 2 ≤ b ∧ path ≠ []) →
      ∃ l : List E, Proof.new b top subn s l path = .ok (Proof.mk s top subn l path) := by
    intro top subn s path h
    by_cases h0 : top = 0 ∧ subn = 0
    · obtain ⟨rfl, rfl⟩ := h0
      obtain ⟨hb, hp⟩ := h rfl
      refine ⟨List.replicate (2 + (b - 1) * path.length) default, ?_⟩
      have : 1 * 1 ≤ (b - 1) * path.length := Nat.mul_le_mul (by omega) (List.length_pos_iff.2 hp)
      unfold Proof.new merkleProofLemmaLen
      rw [if_pos ⟨rfl, rfl⟩, ensure_true (by simp only [List.length_replicate]; omega), Res.ok_bind,
        subP_ok (by omega), Res.ok_bind, subP_ok (by omega), Res.ok_bind, Nat.add_sub_cancel, Res.ok_bind,
        ensure_true (by simp), Res.ok_bind]
    · exact ⟨[], by unfold Proof.new; rw [if_neg h0]⟩
  have need : ∀ {top subn : Nat} {s : Option (Proof E)} {l : List E} {path : List Nat} {q : Proof E},
      Proof.new b top subn s l path = .ok q →
      q = Proof.mk s top subn l path ∧ (layerArity top subn = 0 → 2 ≤ b ∧ path ≠ []) := by
    intro top subn s l path q h
    by_cases h0 : top = 0 ∧ subn = 0
    · obtain ⟨rfl, rfl⟩ := h0
      obtain ⟨h1, h2, -, h3⟩ := Proof.new_base_ok h
      exact ⟨h3, fun _ => ⟨h1, by rintro rfl; simp at h2⟩⟩
    · unfold Proof.new at h
      rw [if_neg h0] at h
      refine ⟨(Except.ok.inj h).symm, fun hl => absurd ?_ h0⟩
      unfold layerArity at hl
      split at hl <;> omega
  constructor
  · intro h
    induction h with
    | base h => obtain ⟨rfl, hn⟩ := need h; exact hn
    | nested _ h ih => obtain ⟨rfl, hn⟩ := need h; exact ⟨ih, hn⟩
    | @clear p _ ih => cases p with
      | base => exact ih
      | nested => exact ih.2
    | @set s p _ _ ih1 ih2 => cases p with
      | base => exact ⟨ih1, ih2⟩
      | nested => exact ⟨ih1, ih2.2⟩
    | @edit p l _ ih => cases p with
      | base => exact ih
      | nested => exact ih
  · intro h
    induction p with
    | base t n l path =>
      obtain ⟨l0, hl⟩ := mk0 none path h
      exact (Reachable.base hl).edit l
    | nested s t n l path ih =>
      obtain ⟨l0, hl⟩ := mk0 (some s) path h.2
      exact (Reachable.nested (ih h.1) hl).edit l

/-- **C84**: with the lemma lengths of `Proof::new` again, an edited proof is one that `Proof::new` makes, so all that
is proved of those is true of it. -/
theorem C84_made [Inhabited E] {b : Nat} {p : Proof E} : Made b p ↔ Reachable b p ∧ ExactLengths b p := by
  rw [C84_reachable]
  have mk0 : ∀ {top subn : Nat} (s : Option (Proof E)) (l : List E) (path : List Nat),
      (∃ q, Proof.new b top subn s l path = .ok q) ↔ (layerArity top subn = 0 → 2 ≤ b ∧ path ≠ []) ∧
        (layerArity top subn = 0 → l.length = 2 + (b - 1) * path.length) := by
    intro top subn s l path
    by_cases h0 : top = 0 ∧ subn = 0
    · obtain ⟨rfl, rfl⟩ := h0
      constructor
      · rintro ⟨q, h⟩
        obtain ⟨h1, h2, h3, -⟩ := Proof.new_base_ok h
        exact ⟨fun _ => ⟨h1, by rintro rfl; simp at h2⟩, fun _ => h3⟩
      · rintro ⟨h1, h2⟩
        obtain ⟨hb, hp⟩ := h1 rfl
        have h2 := h2 rfl
        have : 1 * 1 ≤ (b - 1) * path.length := Nat.mul_le_mul (by omega) (List.length_pos_iff.2 hp)
        refine ⟨Proof.mk s 0 0 l path, ?_⟩
        unfold Proof.new merkleProofLemmaLen
        rw [if_pos ⟨rfl, rfl⟩, ensure_true (by omega), Res.ok_bind,
          subP_ok (by omega), Res.ok_bind, subP_ok (by omega), Res.ok_bind, Nat.add_sub_cancel, Res.ok_bind,
          ensure_true h2, Res.ok_bind]
    · have hl : ¬ layerArity top subn = 0 := by
        unfold layerArity; split <;> omega
      constructor
      · exact fun _ => ⟨fun h => absurd h hl, fun h => absurd h hl⟩
      · exact fun _ => ⟨_, by unfold Proof.new; rw [if_neg h0]⟩
  constructor
  · intro h
    induction h with
    | base h =>
      have := (mk0 _ _ _).1 ⟨_, h⟩
      obtain rfl := Proof.new_none_ok h
      exact this
    | nested _ h ih =>
      have := (mk0 _ _ _).1 ⟨_, h⟩
      obtain rfl := Proof.new_nested_ok h
      exact ⟨⟨ih.1, this.1⟩, ih.2, this.2⟩
  · rintro ⟨h1, h2⟩
    induction p with
    | base t n l path =>
      obtain ⟨q, hq⟩ := (mk0 none l path).2 ⟨h1, h2⟩
      have := Proof.new_none_ok hq
      subst this
      exact .base hq
    | nested s t n l path ih =>
      obtain ⟨q, hq⟩ := (mk0 (some s) l path).2 ⟨h1.2, h2.2⟩
      have := Proof.new_nested_ok hq
      subst this
      exact .nested (ih h1.1 h2.1) hq

variable [DecidableEq E] {A : Alg E} {b : Nat}

/-- **C84**, base proofs with any lemma of at least two elements.  Validation is true exactly if all steps can be done
and the last element of the lemma is the hash they end in; false exactly if all steps can be done and it is not, or a
path entry out of range is met with enough elements left; and else it panics. -/
theorem C84_base (hA : A.LawfulReset) (hb : 2 ≤ b) (x : E) (rest : List E) (hr : rest ≠ []) (path : List Nat) :
    (Proof.validate A b (.base 0 0 (x :: rest) path) = .ok true ↔
      Complete b (rest.length + 1) path ∧ rest.getLast? = some (climb A.nodeHash (fun j => j * (b - 1)) 0 x
        (steps b (path.take (stepCount b (rest.length + 1))) rest))) ∧
    (Proof.validate A b (.base 0 0 (x :: rest) path) = .ok false ↔
      (Complete b (rest.length + 1) path ∧ rest.getLast? ≠ some (climb A.nodeHash (fun j => j * (b - 1)) 0 x
        (steps b (path.take (stepCount b (rest.length + 1))) rest))) ∨
      Rejected b (rest.length + 1) path) ∧
    ((∃ m, Proof.validate A b (.base 0 0 (x :: rest) path) = .error (.panic m)) ↔
      ¬ Complete b (rest.length + 1) path ∧ ¬ Rejected b (rest.length + 1) path) := by
  obtain ⟨h1, h2, h3⟩ := validateBase_any hA hb x rest hr path
  refine ⟨h2, h3, ?_⟩
  rcases h1 with ⟨v, hv⟩ | ⟨m, hm⟩
  · rw [hv] at h2 h3 ⊢
    constructor
    · rintro ⟨m, hm⟩; cases hm
    · rintro ⟨c1, c2⟩
      cases v with
      | true => exact absurd (h2.1 rfl).1 c1
      | false => exact (h3.1 rfl).elim (fun h => absurd h.1 c1) (fun h => absurd h c2)
  · rw [hm] at h2 h3 ⊢
    refine ⟨fun _ => ?_, fun _ => ⟨m, rfl⟩⟩
    refine ⟨fun hc => ?_, fun hc => ?_⟩
    · by_cases he : rest.getLast? = some (climb A.nodeHash (fun j => j * (b - 1)) 0 x
        (steps b (path.take (stepCount b (rest.length + 1))) rest))
      · have := h2.2 ⟨hc, he⟩; cases this
      · have := h3.2 (.inl ⟨hc, he⟩); cases this
    · have := h3.2 (.inr hc); cases this

/-- **C84**: C56 for every value of the type `Proof` at all.  Validation ends; it panics exactly if a layer it gets to
lacks path entries or lemma elements, returns `Err` exactly if the sub-proofs do not match the layers, and else a
boolean. -/
theorem C84_validate (hA : A.LawfulReset) (hb : 2 ≤ b) (p : Proof E) :
    ((∃ m, p.validate A b = .error (.panic m)) ↔ ¬ CheckableAny A b p) ∧
    ((∃ m, p.validate A b = .error (.err m)) ↔ Mismatched p ∧ CheckableAny A b p) ∧
    ((∃ v, p.validate A b = .ok v) ↔ ¬ Mismatched p ∧ CheckableAny A b p) := by
  induction p with
  | base top subn l path =>
    by_cases h0 : 0 < layerArity top subn
    · have : ∃ m, Proof.validate A b (.base top subn l path) = .error (.err m) := by
        rw [Proof.validate]
        unfold layerArity at h0
        by_cases h1 : top > 0
        · rw [if_pos h1]; exact ⟨_, rfl⟩
        · rw [if_neg h1] at h0; rw [if_neg h1, if_pos h0]; exact ⟨_, rfl⟩
      obtain ⟨m, hm⟩ := this
      rw [hm]
      simp [CheckableAny, Mismatched, h0]
    · have h00 : top = 0 ∧ subn = 0 := by
        unfold layerArity at h0; split at h0 <;> omega
      obtain ⟨rfl, rfl⟩ := h00
      by_cases hl : l.length < 2
      · rw [C56_short_lemma hl]
        simp [CheckableAny, Mismatched, h0, hl]
      · match l, hl with
        | [], hl => simp at hl
        | [_], hl => simp at hl
        | x :: y :: rest, hl =>
          obtain ⟨-, -, h3⟩ := C84_base hA hb x (y :: rest) (by simp) path
          have h1 := (validateBase_any hA hb x (y :: rest) (by simp) path).1
          have hc : CheckableAny A b (.base 0 0 (x :: y :: rest) path) ↔
              Complete b ((y :: rest).length + 1) path ∨ Rejected b ((y :: rest).length + 1) path := by
            simp only [CheckableAny]
            constructor
            · rintro (h | h | h)
              · exact absurd h h0
              · exact absurd h hl
              · exact h
            · exact fun h => .inr (.inr h)
          have hmm : ¬ Mismatched (.base 0 0 (x :: y :: rest) path : Proof E) := h0
          rw [hc, h3]
          rcases h1 with ⟨v, hv⟩ | ⟨m, hm⟩
          · rw [hv] at h3 ⊢
            have : Complete b ((y :: rest).length + 1) path ∨ Rejected b ((y :: rest).length + 1) path := by
              by_contra hn
              obtain ⟨m, hm⟩ := h3.2 ⟨fun h => hn (.inl h), fun h => hn (.inr h)⟩
              cases hm
            refine ⟨not_or.symm, ?_, ?_⟩ <;> simp only [hmm, this, not_false_eq_true, and_self, false_and, iff_false, iff_true]
            · rintro ⟨m, hm⟩; cases hm
            · exact ⟨v, rfl⟩
          · rw [hm] at h3 ⊢
            have hn := h3.1 ⟨m, rfl⟩
            have : ¬ (Complete b ((y :: rest).length + 1) path ∨ Rejected b ((y :: rest).length + 1) path) := not_or.2 hn
            refine ⟨not_or.symm, ?_, ?_⟩ <;> simp only [hmm, this, and_false, iff_false]
            · rintro ⟨m, hm⟩; cases hm
            · rintro ⟨m, hm⟩; cases hm
  | nested s top subn l path ih =>
    by_cases h0 : layerArity top subn = 0
    · have h00 : top = 0 ∧ subn = 0 := by
        unfold layerArity at h0; split at h0 <;> omega
      obtain ⟨rfl, rfl⟩ := h00
      rw [Proof.validate]
      simp [CheckableAny, Mismatched, h0]
    · by_cases hs : s.validate A b = .ok true
      · have hs' := ih.2.2.1 ⟨_, hs⟩
        obtain ⟨r, -, hl⟩ := C56_layer hA hs (Nat.pos_of_ne_zero h0) l path
        cases path with
        | nil =>
          obtain ⟨m, hm⟩ := hl
          rw [hm]
          simp [CheckableAny, h0, hs, hs']
        | cons p0 ps =>
          dsimp only at hl
          split at hl
          · rename_i hf
            rw [hl]
            simp [CheckableAny, Mismatched, h0, hs, hs', hf]
          · rename_i hf
            obtain ⟨m, hm⟩ := hl
            rw [hm]
            simp [CheckableAny, h0, hs, hs', hf]
      · rw [C56_sub_proof hs (Nat.pos_of_ne_zero h0)]
        simpa [CheckableAny, Mismatched, h0, hs] using ih

/-- **C84** fails: C22 does not survive `lemma_mut`.  A base proof made by `Proof::new`, with a path in range, whose
lemma was made one element longer panics on validation, wherever the element was put and whatever it is. -/
theorem C84_longer_refuted (hA : A.LawfulReset) {l l' : List E} {path : List Nat} {p : Proof E}
    (hp : Proof.new b 0 0 none l path = .ok p) (hr : ∀ q ∈ path, q < b) (hl : l'.length = l.length + 1) :
    ∃ m, (withLemma l' p).validate A b = .error (.panic m) := by
  obtain ⟨hb, _, e1, rfl⟩ := Proof.new_base_ok hp
  have hn : path.length < stepCount b l'.length := by
    rw [lt_stepCount hb, Nat.mul_comm]; omega
  rw [(C84_validate hA hb _).1]
  simp only [Proof.mk, withLemma, CheckableAny, layerArity]
  rintro (h | h | h | ⟨t, q, h1, h2, h3, h4, h5⟩)
  · simp at h
  · omega
  · exact absurd h.1 (by omega)
  · exact absurd (hr q (List.mem_of_getElem? h3)) (by omega)

/-- **C84** fails: the path is not bound by the root.  To the path of a valid base proof (of safe code's making) anything
can be appended; the proof stays valid, while `path()` leads elsewhere. -/
theorem C84_path_refuted (hA : A.LawfulReset) (hb : 2 ≤ b) {l : List E} {path : List Nat}
    (hv : Proof.validate A b (.base 0 0 l path) = .ok true) (extra : List Nat) :
    Proof.validate A b (.base 0 0 l (path ++ extra)) = .ok true := by
  match l, hv with
  | [], hv => cases hv
  | [_], hv => cases hv
  | x :: y :: rest, hv =>
    obtain ⟨⟨c1, c2, c3⟩, h⟩ := (C84_base hA hb x (y :: rest) (by simp) path).1.1 hv
    have ht : (path ++ extra).take (stepCount b ((y :: rest).length + 1))
        = path.take (stepCount b ((y :: rest).length + 1)) := List.take_append_of_le_length c1
    refine (C84_base hA hb x (y :: rest) (by simp) _).1.2 ⟨⟨?_, ?_, c3⟩, ?_⟩
    · rw [List.length_append]; omega
    · rw [ht]; exact c2
    · rw [ht]; exact h

/-- **C84**: a base proof with a lemma of two elements is valid exactly if they are equal: the item is then the root. -/
theorem C84_two (hA : A.LawfulReset) (hb : 2 ≤ b) (x y : E) (path : List Nat) :
    Proof.validate A b (.base 0 0 [x, y] path) = .ok (decide (x = y)) := by
  have hn : stepCount b ([y].length + 1) = 0 := by
    simpa using stepCount_exact (m := 0) hb
  have hc : Complete b ([y].length + 1) path := by
    unfold Complete; rw [hn]; simp
  obtain ⟨h1, h2, -⟩ := C84_base hA hb x [y] (by simp) path
  rw [hn] at h1 h2
  by_cases h : x = y
  · rw [h1.2 ⟨hc, by simp [steps, climb, h]⟩, decide_eq_true h]
  · rw [h2.2 (.inl ⟨hc, by simpa [steps, climb, eq_comm] using h⟩), decide_eq_false h]

/-- **C84**, binding: C23 for every value of the type `Proof`.  Two valid proofs with the same root and, as far as
validation gets, the same shape have the same item and the same data wherever validation looks, or two different lists
hashed for them collide. -/
theorem C84_binding (hA : A.LawfulReset) (hb : 2 ≤ b) {p q : Proof E} (hs : SameShape (trim b p) (trim b q))
    (vp : p.validate A b = .ok true) (vq : q.validate A b = .ok true) (hr : p.root = q.root) :
    (SameRead b (trim b p) (trim b q) ∧ (innermost p).item = (innermost q).item) ∨
      Collision A.nodeHash (proofTranscript A.nodeHash b (trim b p)) (proofTranscript A.nodeHash b (trim b q)) := by
  rcases trim_binding hA hb hs vp vq hr with h | h
  · refine .inl ⟨h, ?_⟩
    clear hs vp vq hr
    induction p generalizing q with
    | base t n l path =>
      cases q with
      | nested => exact h.elim
      | base t' n' l' path' =>
        have h := congrArg List.head? h.1
        rw [List.head?_take, List.head?_take, if_neg (by omega), if_neg (by omega)] at h
        simp only [innermost, Proof.item, Proof.lem, h]
    | nested s t n l path ih =>
      cases q with
      | base => exact h.elim
      | nested s' t' n' l' path' =>
        rw [innermost, innermost]
        exact ih h.1
  · exact .inr h

/-- **C84**: from a valid proof that `Proof::new` made nothing is trimmed; C69 is C84 for such proofs. -/
theorem C84_trim {p : Proof E} (hp : Obtainable b p) (hv : p.validate A b = .ok true) : 2 ≤ b ∧ trim b p = p :=
  trim_made (C56_obtainable hp) hv

variable [Element E]

/-- **C84**, nodes: C69 for every value of the type `Proof`, so also after changes through `lemma_mut`.  Path
entries beyond the steps that the lemma gives rise to are left out (`trim`). -/
theorem C84_node (hA : A.LawfulReset) (hI : A.IgnoresHeight) {shape : List Nat} {leaves : List E} {r : E}
    (ht : TreeRoot A shape leaves r) (hb : 2 ≤ b) {p : Proof E}
    (hv : p.validate A b = .ok true) (hr : p.root = .ok r) :
    (proofArities b (trim b p) <+: shape ∧
      (innermost p).item = .ok (walk (fun ns => A.nodeHash ns 0) shape leaves (proofPath (trim b p)))) ∨
    (shape <+: proofArities b (trim b p) ∧ shape.length < (proofArities b (trim b p)).length ∧
      ∃ z h, (z, h) ∈ proofTranscript A.nodeHash b (trim b p) ∧
        walk (fun ns => A.nodeHash ns 0) shape leaves ((proofPath (trim b p)).take shape.length)
          = A.nodeHash z 0) ∨
    ∃ y z h, LayersHashed (fun ns => A.nodeHash ns 0) shape leaves y ∧
      (z, h) ∈ proofTranscript A.nodeHash b (trim b p) ∧ y ≠ z ∧ A.nodeHash y 0 = A.nodeHash z 0 := by
  obtain ⟨-, -, hrt⟩ := ht.layers hI
  obtain ⟨x, st, e1, e2, e3, e4, e5, e6⟩ := valid_steps_any hA hI hb hv
  rw [Proof.root, e2] at hr
  have hr := Except.ok.inj hr
  rw [hrt] at hr
  rcases down_walk _ _ _ e5 hr.symm with ⟨g1, g2⟩ | ⟨st₁, s, st₂, rfl, g1, g2⟩ | ⟨y, z, g1, g2, g3⟩
  · left
    rw [e4] at g1
    rw [e3] at g2
    exact ⟨g1, by rw [e1, g2]⟩
  · right; left
    obtain ⟨z, hz, hzd⟩ := down_hashed (H := fun ns => A.nodeHash ns 0) (x := x) (s := s) (st := st₂)
    obtain ⟨h, hh⟩ := e6 z (DownHashed.append.2 (Or.inr hz))
    rw [← e4, ← e3, List.map_append, List.map_append, g1]
    refine ⟨List.prefix_append _ _, by simp, z, h, hh, ?_⟩
    rw [List.take_left' (by rw [← g1]; simp), g2, hzd]
  · right; right
    obtain ⟨h, hh⟩ := e6 z g2
    exact ⟨y, z, h, g1, hh, g3⟩

/-- **C84**, leaves: the leaf that the trimmed path leads to. -/
theorem C84_leaf (hA : A.LawfulReset) (hI : A.IgnoresHeight) {shape : List Nat} {leaves : List E} {r : E}
    (ht : TreeRoot A shape leaves r) (hb : 2 ≤ b) {p : Proof E}
    (hv : p.validate A b = .ok true) (hr : p.root = .ok r)
    (hd : (proofArities b (trim b p)).length = shape.length) :
    (proofArities b (trim b p) = shape ∧ position shape (proofPath (trim b p)) < leaves.length ∧
      ∃ x, (innermost p).item = .ok x ∧ leaves[position shape (proofPath (trim b p))]? = some x) ∨
    ∃ y z h, LayersHashed (fun ns => A.nodeHash ns 0) shape leaves y ∧
      (z, h) ∈ proofTranscript A.nodeHash b (trim b p) ∧ y ≠ z ∧ A.nodeHash y 0 = A.nodeHash z 0 := by
  rcases C84_node hA hI ht hb hv hr with ⟨h1, h2⟩ | ⟨_, h, _⟩ | h
  · left
    have h1 := h1.eq_of_length hd
    obtain ⟨hl, -, -⟩ := ht.layers hI
    obtain ⟨x, st, e1, e2, e3, e4, e5, e6⟩ := valid_steps_any hA hI hb hv
    have hw := walk_leaf (H := fun ns => A.nodeHash ns 0) shape (proofPath (trim b p)) leaves
      (by rw [← hd, ← e3, ← e4]; simp) hl
      (by rw [← e3]; exact lt_of_arities e5 (by rw [e4, h1]; exact List.prefix_rfl))
    exact ⟨h1, hw.1, _, h2, hw.2⟩
  · omega
  · exact Or.inr h

end

section
variable {E : Type} [Element E] [LawfulElement E] [DecidableEq E] {σ : Type} {init : σ}
  {write : σ → Bytes → σ} {hash : σ → E × σ} {b : Nat}

/-- **C84**, data: with the default hash methods and a streaming hasher the depth is bound as well. -/
theorem C84_item (hw : Streaming write) {shape : List Nat} {xs : List E} {r : E}
    (ht : TreeRoot (Alg.ofHasher σ init write hash) shape
      (xs.map (Alg.ofHasher σ init write hash).leafHash) r) (hb : 2 ≤ b) {p : Proof E}
    (hv : p.validate (Alg.ofHasher σ init write hash) b = .ok true) (hr : p.root = .ok r) {e : E}
    (he : (innermost p).item = .ok ((Alg.ofHasher σ init write hash).leafHash e)) :
    (proofArities b (trim b p) = shape ∧ xs[position shape (proofPath (trim b p))]? = some e) ∨
    ∃ u v, ShapeHashed (digest init write hash) shape xs u ∧
      (v = leafInput e ∨ ∃ z h, (z, h) ∈ proofTranscript (Alg.ofHasher σ init write hash).nodeHash b (trim b p) ∧
        v = nodeInput z) ∧
      u ≠ v ∧ digest init write hash u = digest init write hash v := by
  have hA : (Alg.ofHasher σ init write hash).LawfulReset := fun _ => rfl
  have eH : ∀ ns h, (Alg.ofHasher σ init write hash).nodeHash ns h
      = digest init write hash (nodeInput ns) := fun ns h => nodeHash_ofHasher init hash hw ns h
  have eL : ∀ x, (Alg.ofHasher σ init write hash).leafHash x
      = digest init write hash (leafInput x) := leafHash_ofHasher init hash hw
  have hI : (Alg.ofHasher σ init write hash).IgnoresHeight := fun ns h h' => by rw [eH, eH]
  obtain ⟨hl, -, -⟩ := ht.layers hI
  rw [List.length_map] at hl
  obtain ⟨x, st, e1, e2, e3, e4, e5, e6⟩ := valid_steps_any hA hI hb hv
  have hpl : (proofPath (trim b p)).length = (proofArities b (trim b p)).length := by rw [← e3, ← e4]; simp
  have hlt := fun {as} (h : proofArities b (trim b p) <+: as) =>
    lt_of_arities e5 (as := as) (by rw [e4]; exact h)
  rw [e3] at hlt
  have fH : (fun ns => (Alg.ofHasher σ init write hash).nodeHash ns 0)
      = fun ns => digest init write hash (nodeInput ns) := funext fun ns => eH ns 0
  have fL : xs.map (Alg.ofHasher σ init write hash).leafHash
      = xs.map fun e => digest init write hash (leafInput e) := by
    apply List.map_congr_left
    intro x _
    exact eL x
  rcases C84_node hA hI ht hb hv hr with ⟨h1, h2⟩ | ⟨h1, h2, z, h, hz, hh⟩ | ⟨y, z, h, hy, hz, h3, h4⟩
  · rw [he] at h2
    have h2 := Except.ok.inj h2
    rw [eL] at h2
    by_cases hd : (proofArities b (trim b p)).length = shape.length
    · have h1' := h1.eq_of_length hd
      have hwl := walk_leaf (H := fun ns => (Alg.ofHasher σ init write hash).nodeHash ns 0) shape
        (proofPath (trim b p)) (xs.map (Alg.ofHasher σ init write hash).leafHash) (by omega)
        (by simpa using hl) (hlt h1)
      rw [← h2, List.getElem?_map] at hwl
      have hi : position shape (proofPath (trim b p)) < xs.length := by simpa using hwl.1
      have hx := hwl.2
      rw [List.getElem?_eq_getElem hi, Option.map_some, Option.some.injEq, eL] at hx
      by_cases hxe : xs[position shape (proofPath (trim b p))] = e
      · exact Or.inl ⟨h1', by rw [List.getElem?_eq_getElem hi, hxe]⟩
      · exact Or.inr ⟨_, _, shapeHashed_leaf _ _ hl (List.getElem_mem hi), Or.inl rfl,
          fun g => hxe (leafInput_inj g), hx⟩
    · have := h1.length_le
      rw [fH, fL] at h2
      obtain ⟨y, hy, hyw⟩ := walk_node (H := fun ns => digest init write hash (nodeInput ns)) shape
        (proofPath (trim b p)) (xs.map fun e => digest init write hash (leafInput e)) (by omega) (hlt h1)
      exact Or.inr ⟨_, _, layersHashed_map_leaf _ _ hl hy, Or.inl rfl,
        (leafInput_ne_nodeInput _ _).symm, by rw [h2, hyw]⟩
  · have hwl := walk_leaf (H := fun ns => (Alg.ofHasher σ init write hash).nodeHash ns 0) shape
      ((proofPath (trim b p)).take shape.length) (xs.map (Alg.ofHasher σ init write hash).leafHash)
      (by rw [List.length_take]; omega) (by simpa using hl) (by
        intro i g g'
        rw [List.getElem_take]
        obtain ⟨t, ht⟩ := h1
        have := hlt (as := shape ++ t) (by rw [ht]; exact List.prefix_rfl) i (by simp; omega) (by simp at g'; omega)
        rwa [List.getElem_append_left g] at this)
    have hi : position shape ((proofPath (trim b p)).take shape.length) < xs.length := by simpa using hwl.1
    have hx := hwl.2
    rw [List.getElem?_map, List.getElem?_eq_getElem hi, Option.map_some, Option.some.injEq, eL, hh,
      eH] at hx
    exact Or.inr ⟨_, _, shapeHashed_leaf _ _ hl (List.getElem_mem hi), Or.inr ⟨z, h, hz, rfl⟩,
      leafInput_ne_nodeInput _ _, hx⟩
  · rw [fH, fL] at hy
    rw [eH, eH] at h4
    exact Or.inr ⟨_, _, layersHashed_map_leaf _ _ hl hy, Or.inr ⟨z, h, hz, rfl⟩,
      fun g => h3 (nodeInput_inj g), h4⟩

/-- **C84**, `validate_with_data` of a base proof. -/
theorem C84_data (hw : Streaming write) {shape : List Nat} {xs : List E} {r : E}
    (ht : TreeRoot (Alg.ofHasher σ init write hash) shape
      (xs.map (Alg.ofHasher σ init write hash).leafHash) r)
    {top subn : Nat} {l : List E} {path : List Nat} (hb : 2 ≤ b)
    {d : HashableVal (Alg.ofHasher σ init write hash)}
    (hv : Proof.validateWithData (Alg.ofHasher σ init write hash) b (.base top subn l path) d = .ok true)
    (hr : (Proof.base top subn l path).root = .ok r) :
    (shape = List.replicate (path.take (stepCount b l.length)).length b ∧
      xs[position shape (path.take (stepCount b l.length)).reverse]? = some (hash (d init)).1) ∨
    ∃ u v, ShapeHashed (digest init write hash) shape xs u ∧
      (v = leafInput (hash (d init)).1 ∨
        ∃ z h, (z, h) ∈ baseTranscript (Alg.ofHasher σ init write hash).nodeHash b l (path.take (stepCount b l.length)) ∧
          v = nodeInput z) ∧
      u ≠ v ∧ digest init write hash u = digest init write hash v := by
  unfold Proof.validateWithData at hv
  simp only [bind_ok_iff] at hv
  obtain ⟨x, hx, hv⟩ := hv
  split at hv
  · rename_i hlx
    have he : (innermost (.base top subn l path)).item
        = .ok ((Alg.ofHasher σ init write hash).leafHash (hash (d init)).1) := by
      rw [innermost, hx, ← hlx]
      rfl
    rcases C84_item hw ht hb hv hr he with ⟨h1, h2⟩ | h
    · exact Or.inl ⟨h1.symm, h2⟩
    · exact Or.inr h
  · simp at hv

end

/-! Concrete instances. -/

/-- The honest proof of a tree of two leaves; longer: panic; the sibling gone, so that the root serves as sibling:
false; one element: false; both ends only: item against root. -/
example : Proof.validate toyAlg 2 (.base 0 0 [5, 6, 251] [0]) = .ok true ∧
    (∃ m, Proof.validate toyAlg 2 (.base 0 0 [5, 6, 251, 251] [0]) = .error (.panic m)) ∧
    Proof.validate toyAlg 2 (.base 0 0 [5, 251] [0]) = .ok false ∧
    Proof.validate toyAlg 2 (.base 0 0 [251, 251] [0]) = .ok true ∧
    Proof.validate toyAlg 2 (.base 0 0 [5] [0]) = .ok false ∧
    Proof.validate toyAlg 2 (.base 0 0 [5, 6, 251] [0, 1, 1]) = .ok true ∧
    Proof.validate toyAlg 2 (.base 0 0 [5, 6, 251] [7]) = .ok false := by
  refine ⟨by decide, ⟨_, rfl⟩, by decide, by decide, by decide, by decide, by decide⟩

/-- The proof with two path entries too many is one that safe code can make. -/
example : Reachable 2 (.base 0 0 [5, 6, 251] [0, 1, 1] : Proof UInt8) ∧
    ¬ Obtainable 2 (.base 0 0 [5, 6, 251] [0, 1, 1] : Proof UInt8) :=
  ⟨C84_reachable.2 fun _ => ⟨by decide, by decide⟩, fun h => by
    have := ((C84_made.1 (C56_obtainable h)).2 rfl)
    simp at this⟩

-- C84_node, C84_leaf: the trimmed proof is the honest one
example : trim 2 (.base 0 0 [5, 6, 251] [0, 1, 1] : Proof UInt8) = .base 0 0 [5, 6, 251] [0] := rfl

end Verif
