import Verif.Lemmas.ProofTotal
import Verif.Props.ProofSound
/-
C56, C57: how validation ends for every proof made by `Proof::new` or by setting
`sub_tree_proof` (src/proof.rs:85-195), and what can
be changed in a valid compound proof without anybody noticing.
-/
namespace Verif
open Spec
variable {E : Type}

/-! ### C56 -/

/-- C56.  Setting the public field `sub_tree_proof` makes no proofs that `Proof::new` does not make,
so what is proved of those (C16, C17, C22, C23) is true of all. -/
theorem C56_obtainable {b : Nat} {p : Proof E} (h : Obtainable b p) : Made b p := by
  have mkn : ∀ {p : Proof E}, Made b p → ∀ s' : Option (Proof E),
      Proof.new b p.top p.subn s' p.lem p.path = .ok (Proof.mk s' p.top p.subn p.lem p.path) := by
    intro p hp s'
    have key : ∀ {top subn : Nat} {l : List E} {path : List Nat} {q : Proof E} {o : Option (Proof E)},
        Proof.new b top subn o l path = .ok q →
        Proof.new b top subn s' l path = .ok (Proof.mk s' top subn l path) := by
      intro top subn l path q o hq
      unfold Proof.new at hq ⊢
      split at hq
      · rename_i h0
        rw [if_pos h0]
        simp only [bind_ok_iff, ensure_ok_iff, exists_const] at hq
        obtain ⟨h1, n, h2, h3, -⟩ := hq
        rw [ensure_true h1, Res.ok_bind, h2, Res.ok_bind, ensure_true h3, Res.ok_bind]
      · rename_i h0
        rw [if_neg h0]
    cases hp with
    | base h => have := Proof.new_none_ok h; subst this; exact key h
    | nested _ h => have := Proof.new_nested_ok h; subst this; exact key h
  induction h with
  | base h => exact .base h
  | nested _ h ih => exact .nested ih h
  | clear _ ih => exact .base (mkn ih none)
  | set _ _ ih1 ih2 => exact .nested ih1 (mkn ih2 _)

section
variable [DecidableEq E] {A : Alg E} {b : Nat}

/-- C56.  The check of a compound layer whose sub-proof is valid, in all cases: without a path it
panics; if the lemma does not hold the siblings and a root it panics; else it is true exactly if the
path entry is below the arity and the siblings, with the root of the sub-proof among them, hash to
the root. -/
theorem C56_layer (hA : A.LawfulReset) {s : Proof E} (hs : s.validate A b = .ok true)
    {top subn : Nat} (har : 0 < layerArity top subn) (l : List E) (path : List Nat) :
    ∃ r, s.root = .ok r ∧
      match path with
      | [] => ∃ m, Proof.validate A b (.nested s top subn l path) = .error (.panic m)
      | p0 :: _ =>
        if LayerFits (layerArity top subn) subn p0 l.length then
          Proof.validate A b (.nested s top subn l path) = .ok (decide (p0 < layerArity top subn ∧
            l.getLast? = some (A.nodeHash (insertAt p0 r (l.take (layerArity top subn - 1))) 0)))
        else ∃ m, Proof.validate A b (.nested s top subn l path) = .error (.panic m) := by
  obtain ⟨r, hr⟩ := validate_true_root hs
  refine ⟨r, hr, ?_⟩
  have hval : Proof.validate A b (.nested s top subn l path)
      = Proof.validateTopLayer A (layerArity top subn) s (.nested s top subn l path) := by
    unfold layerArity at har ⊢
    rw [Proof.validate]
    by_cases h1 : top > 0
    · rw [if_pos h1, if_pos h1, hs]; rfl
    · rw [if_neg h1] at har
      rw [if_neg h1, if_neg h1, if_pos har, hs]; rfl
  rw [hval]
  cases path with
  | nil => exact ⟨_, rfl⟩
  | cons p0 ps =>
    exact validateTopLayer_eq (p := .nested s top subn l (p0 :: ps)) hA har hr rfl

/-- C56.  A compound proof whose sub-proof is not valid ends as the sub-proof does. -/
theorem C56_sub_proof {s : Proof E} (hs : s.validate A b ≠ .ok true) {top subn : Nat}
    (har : 0 < layerArity top subn) (l : List E) (path : List Nat) :
    Proof.validate A b (.nested s top subn l path) = s.validate A b := by
  have hred : ∀ (n : Nat), (do
      let v ← s.validate A b
      if !v then .ok false else Proof.validateTopLayer A n s (.nested s top subn l path))
        = s.validate A b := by
    intro n
    cases h : s.validate A b with
    | error e => rfl
    | ok v =>
      cases v with
      | false => rfl
      | true => exact absurd h hs
  unfold layerArity at har
  rw [Proof.validate]
  by_cases h1 : top > 0
  · rw [if_pos h1]; exact hred _
  · rw [if_neg h1] at har
    rw [if_neg h1, if_pos har]; exact hred _

/-- C56.  For every proof that can be made: validation ends, and it
panics exactly if a layer it gets to lacks a path entry or lemma elements,
returns `Err` exactly if the sub-proofs do not match the layers, and else a boolean. -/
theorem C56_validate (hA : A.LawfulReset) {p : Proof E} (hp : Obtainable b p) :
    ((∃ m, p.validate A b = .error (.panic m)) ↔ ¬ Checkable A b p) ∧
    ((∃ m, p.validate A b = .error (.err m)) ↔ Mismatched p ∧ Checkable A b p) ∧
    ((∃ v, p.validate A b = .ok v) ↔ ¬ Mismatched p ∧ Checkable A b p) := by
  have hm := C56_obtainable hp
  clear hp
  induction hm with
  | @base top subn l path p h =>
    have hpe := Proof.new_none_ok h
    subst hpe
    by_cases h0 : 0 < layerArity top subn
    · have : ∃ m, Proof.validate A b (.base top subn l path) = .error (.err m) := by
        rw [Proof.validate]
        unfold layerArity at h0
        by_cases h1 : top > 0
        · rw [if_pos h1]; exact ⟨_, rfl⟩
        · rw [if_neg h1] at h0; rw [if_neg h1, if_pos h0]; exact ⟨_, rfl⟩
      obtain ⟨m, hm⟩ := this
      rw [hm]
      simp [Checkable, Mismatched, h0]
    · have h00 : top = 0 ∧ subn = 0 := by
        unfold layerArity at h0; split at h0 <;> omega
      obtain ⟨rfl, rfl⟩ := h00
      obtain ⟨v, hv⟩ := (C22_base_validate_total A b l path _ h).1
      rw [hv]
      simp [Checkable, Mismatched, h0]
  | @nested s top subn l path p ms h ih =>
    have hpe := Proof.new_nested_ok h
    subst hpe
    by_cases h0 : layerArity top subn = 0
    · have h00 : top = 0 ∧ subn = 0 := by
        unfold layerArity at h0; split at h0 <;> omega
      obtain ⟨rfl, rfl⟩ := h00
      rw [Proof.validate]
      simp [Checkable, Mismatched, h0]
    · by_cases hs : s.validate A b = .ok true
      · have hs' := ih.2.2.1 ⟨_, hs⟩
        obtain ⟨r, -, hl⟩ := C56_layer hA hs (Nat.pos_of_ne_zero h0) l path
        cases path with
        | nil =>
          obtain ⟨m, hm⟩ := hl
          rw [hm]
          simp [Checkable, h0, hs, hs']
        | cons p0 ps =>
          dsimp only at hl
          split at hl
          · rename_i hf
            rw [hl]
            simp [Checkable, Mismatched, h0, hs, hs', hf]
          · rename_i hf
            obtain ⟨m, hm⟩ := hl
            rw [hm]
            simp [Checkable, h0, hs, hs', hf]
      · rw [C56_sub_proof hs (Nat.pos_of_ne_zero h0)]
        simpa [Checkable, Mismatched, h0, hs] using ih

/-- C56.  Base proofs with fewer than two lemma elements (which `Proof::new` does not make) would be
invalid. -/
theorem C56_short_lemma {l : List E} (hl : l.length < 2) (path : List Nat) :
    Proof.validate A b (.base 0 0 l path) = .ok false := by
  simp only [Proof.validate, Nat.lt_irrefl, gt_iff_lt, ↓reduceIte]
  unfold Proof.validateBase
  rw [if_pos (by simpa [Proof.lem] using hl)]

/-! ### C57 -/

/-- C57 fails.  A valid compound proof has, at its outermost layer, only the siblings and the root checked:
anything can stand between them in the lemma, and anything can follow the first path entry. -/
theorem C57_slack_refuted (hA : A.LawfulReset) {s : Proof E} {top subn : Nat} {sibs : List E} {r : E}
    {p0 : Nat} {path : List Nat} (hs : sibs.length + 1 = layerArity top subn)
    (hv : Proof.validate A b (.nested s top subn (sibs ++ [r]) (p0 :: path)) = .ok true)
    (junk : List E) (path' : List Nat) :
    Proof.validate A b (.nested s top subn (sibs ++ junk ++ [r]) (p0 :: path')) = .ok true := by
  obtain ⟨h1, har, -⟩ := validate_nested_true hv
  obtain ⟨x, hx, hl⟩ := C56_layer hA h1 har (sibs ++ [r]) (p0 :: path)
  obtain ⟨x', hx', hl'⟩ := C56_layer hA h1 har (sibs ++ junk ++ [r]) (p0 :: path')
  have hxx : x' = x := by rw [hx] at hx'; exact (Except.ok.inj hx').symm
  subst hxx
  dsimp only at hl hl'
  have htake : ∀ rest : List E, (sibs ++ rest).take (layerArity top subn - 1) = sibs := by
    intro rest
    rw [← hs, Nat.add_sub_cancel, List.take_left']
    rfl
  split at hl
  · rename_i hf
    rw [hl] at hv
    have hd := of_decide_eq_true (Except.ok.inj hv)
    have hf' : LayerFits (layerArity top subn) subn p0 (sibs ++ junk ++ [r]).length := by
      unfold LayerFits at hf ⊢
      rw [if_pos hd.1] at hf ⊢
      simp only [List.length_append, List.length_cons, List.length_nil] at hf ⊢
      omega
    rw [if_pos hf'] at hl'
    rw [hl']
    congr 1
    refine decide_eq_true ⟨hd.1, ?_⟩
    rw [List.append_assoc, htake]
    have h2 := hd.2
    rw [htake] at h2
    rw [← h2]
    simp
  · obtain ⟨m, hm⟩ := hl
    rw [hm] at hv
    cases hv

/-- C57.  But nothing else: see `C23_compound_binding`.  If moreover the lemmas of all compound layers
have the length of an honest proof (one element per node of the layer), two valid proofs with the same
shape and root are the same proof, or show a collision. -/
theorem C57_exact_lengths (hA : A.LawfulReset) {p q : Proof E} (mp : Obtainable b p)
    (mq : Obtainable b q) (hs : SameShape p q) (hp : HonestLengths p) (hq : HonestLengths q)
    (vp : p.validate A b = .ok true) (vq : q.validate A b = .ok true) (hr : p.root = q.root) :
    p = q ∨ Collision A.nodeHash (proofTranscript A.nodeHash b p) (proofTranscript A.nodeHash b q) := by
  rcases C23_compound_binding A hA b p q (C56_obtainable mp) (C56_obtainable mq) hs vp vq hr with h | h
  · left
    replace h := h.1
    clear mp mq vp vq hr
    induction p generalizing q with
    | base t n l path =>
      cases q with
      | nested => exact h.elim
      | base t' n' l' path' =>
        obtain ⟨rfl, rfl, rfl⟩ := hs
        have : l = l' := h
        rw [this]
    | nested s t n l path ih =>
      cases q with
      | base => exact h.elim
      | nested s' t' n' l' path' =>
        obtain ⟨hss, rfl, rfl, rfl⟩ := hs
        obtain ⟨h1, h2, h3⟩ := h
        obtain ⟨p1, p2, p3⟩ := hp
        obtain ⟨q1, q2, q3⟩ := hq
        rw [ih hss p3 q3 h1]
        have split : ∀ (l : List E) (n : Nat), l.length = n → 0 < n →
            l = l.take (n - 1) ++ l.getLast?.toList := by
          intro l n hn h0
          obtain ⟨xs, x, rfl⟩ := List.eq_nil_or_concat l |>.resolve_left (by rintro rfl; simp at hn; omega)
          simp at hn
          rw [← hn]
          simp
        rw [split l _ p1 p2, split l' _ q1 q2, h2, h3]
  · exact Or.inr h

end

/-! Concrete instances. -/

/-- A valid compound proof and the same proof with two more lemma elements and path entries. -/
example : Proof.validate toyAlg 2 (.nested (.base 0 0 [5, 6, 251] [0]) 0 2 [9, 108] [1]) = .ok true ∧
    Proof.validate toyAlg 2 (.nested (.base 0 0 [5, 6, 251] [0]) 0 2 [9, 77, 78, 108] [1, 5, 5])
      = .ok true := by decide

/-- Setting `sub_tree_proof` of a compound proof to `None`: `Err`. -/
example : Obtainable 2 (.base 0 2 [9, 108] [1] : Proof UInt8) ∧
    (Mismatched (.base 0 2 [9, 108] [1] : Proof UInt8)) ∧
    ∃ m, Proof.validate toyAlg 2 (.base 0 2 [9, 108] [1]) = .error (.err m) :=
  ⟨.clear (p := .nested (.base 0 0 [5, 6, 251] [0]) 0 2 [9, 108] [1])
    (.nested (.base (top := 0) (subn := 0) (l := [5, 6, 251]) (path := [0])
      (p := .base 0 0 [5, 6, 251] [0]) (by decide))
      (top := 0) (subn := 2) (l := [9, 108]) (path := [1]) (by decide)),
    by simp [Mismatched, layerArity], _, rfl⟩

end Verif
