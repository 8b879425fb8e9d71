import Verif.Lemmas.ProofSound
/-! Helper lemmas for nested proofs. -/
namespace Verif
open Spec
variable {E : Type}

theorem gather_ok_bound (h : Res E) (p : Nat) (l : List E) (base : Nat) :
    ∀ n j cur ns c, Proof.gather h p l base n j cur = .ok (ns, c) →
      cur ≤ c ∧ (cur < c → base + c ≤ l.length) ∧ (c + 1 = cur + n → j ≤ p ∧ p < j + n)
  | 0, j, cur, ns, c, hg => by
    simp only [Proof.gather, Except.ok.injEq, Prod.mk.injEq] at hg
    omega
  | n + 1, j, cur, ns, c, hg => by
    rw [Proof.gather] at hg
    split at hg
    · simp only [bind_ok_iff, Except.ok.injEq, Prod.mk.injEq] at hg
      obtain ⟨x, hx, ⟨ns', c'⟩, h1, h2, h3⟩ := hg
      subst h3
      have := gather_ok_bound h p l base n _ _ _ _ h1
      exact ⟨this.1, this.2.1, by omega⟩
    · simp only [bind_ok_iff, Except.ok.injEq, Prod.mk.injEq] at hg
      obtain ⟨x, hx, ⟨ns', c'⟩, h1, h2, h3⟩ := hg
      dsimp only at h3
      subst h3
      have hlt : base + cur < l.length := by
        unfold idxP at hx
        cases hc : l[base + cur]? with
        | none => rw [hc] at hx; cases hx
        | some y => exact (List.getElem?_eq_some_iff.1 hc).1
      have := gather_ok_bound h p l base n _ _ _ _ h1
      refine ⟨by omega, fun _ => ?_, fun e => ?_⟩
      · rcases Nat.lt_or_ge (cur + 1) c' with h | h
        · exact this.2.1 h
        · omega
      · have := this.2.2 (by omega); omega

/-- What a successful check of a compound layer establishes. -/
theorem validateTopLayer_true [DecidableEq E] (A : Alg E) (hA : A.LawfulReset) (arity : Nat)
    (har : 0 < arity) (s p : Proof E) (h : Proof.validateTopLayer A arity s p = .ok true) :
    ∃ p0 r, p.path.head? = some p0 ∧ s.lem.getLast? = some r ∧ p0 < arity ∧
      (p.lem.take (arity - 1)).length = arity - 1 ∧
      p.lem.getLast? = some (A.nodeHash (insertAt p0 r (p.lem.take (arity - 1))) 0) := by
  unfold Proof.validateTopLayer at h
  simp only [bind_ok_iff] at h
  obtain ⟨p0, h0, ⟨ns, cur⟩, hg, h⟩ := h
  dsimp only at h
  split at h
  · simp at h
  · rename_i hcur
    simp only [ne_eq, Decidable.not_not] at hcur
    simp only [bind_ok_iff, Except.ok.injEq, decide_eq_true_eq] at h
    obtain ⟨r, hr, hh⟩ := h
    obtain ⟨-, hb1, hb2⟩ := gather_ok_bound _ _ _ _ _ _ _ _ _ hg
    have hp0 := hb2 (by omega)
    have hsr : ∃ x, Proof.subTreeRoot s p = .ok x := by
      cases hx : Proof.subTreeRoot s p with
      | ok x => exact ⟨x, rfl⟩
      | error e =>
        exfalso
        rw [hx] at hg
        -- position p0 is reached, so the error shows
        have : ∀ n j cur, j ≤ p0 → p0 < j + n → ∀ o,
            Proof.gather (Except.error e) p0 p.lem 0 n j cur ≠ .ok o := by
          intro n
          induction n with
          | zero => intro j cur h1 h2; omega
          | succ n ih =>
            intro j cur h1 h2 o
            rw [Proof.gather]
            split
            · simp
            · rename_i hj
              intro hc
              simp only [bind_ok_iff] at hc
              obtain ⟨x, -, y, hy, -⟩ := hc
              exact ih (j + 1) (cur + 1) (by omega) (by omega) _ hy
        exact this _ _ _ hp0.1 hp0.2 _ hg
    obtain ⟨x, hx⟩ := hsr
    rw [hx] at hg
    have hlen : arity - 1 ≤ p.lem.length := by
      rcases Nat.eq_zero_or_pos (arity - 1) with h | h
      · omega
      · have := hb1 (by omega); omega
    rw [gather_hit x p0 p.lem 0 arity 0 0 hp0.1 hp0.2 (by omega)] at hg
    simp only [Except.ok.injEq, Prod.mk.injEq] at hg
    obtain ⟨hns, -⟩ := hg
    refine ⟨p0, x, ?_, ?_, by omega, by simp; omega, ?_⟩
    · unfold idxP at h0
      cases hp : p.path with
      | nil => rw [hp] at h0; simp at h0
      | cons a t => rw [hp] at h0; simpa using h0
    · unfold Proof.subTreeRoot at hx
      split at hx
      · unfold Proof.root at hx
        cases hl : s.lem.getLast? with
        | none => rw [hl] at hx; cases hx
        | some y => rw [hl] at hx; simpa using hx
      · cases hx
    · unfold Proof.root at hr
      cases hl : p.lem.getLast? with
      | none => rw [hl] at hr; cases hr
      | some y =>
        rw [hl] at hr
        simp only [Except.ok.injEq] at hr
        subst hr
        rw [← hh, ← hns, hA A.init]
        simp [Alg.nodeHash]

theorem Collision.left {H : List E → Nat → E} {t u t' u' : List (List E × Nat)}
    (h : Collision H t u) : Collision H (t ++ t') (u ++ u') := by
  obtain ⟨j, x, y, hh, h1, h2, h3⟩ := h
  refine ⟨j, x, y, hh, ?_, ?_, h3⟩
  · rw [List.getElem?_append_left (List.getElem?_eq_some_iff.1 h1).1]; exact h1
  · rw [List.getElem?_append_left (List.getElem?_eq_some_iff.1 h2).1]; exact h2

theorem Collision.right {H : List E → Nat → E} {t u t' u' : List (List E × Nat)}
    (hl : t.length = u.length) (h : Collision H t' u') : Collision H (t ++ t') (u ++ u') := by
  obtain ⟨j, x, y, hh, h1, h2, h3⟩ := h
  refine ⟨t.length + j, x, y, hh, ?_, ?_, h3⟩
  · rw [List.getElem?_append_right (by omega)]; simpa using h1
  · rw [hl, List.getElem?_append_right (by omega)]; simpa using h2

theorem transcript_length (H : List E → Nat → E) (hgt : Nat → Nat) :
    ∀ (st : List (Nat × List E)) (l : Nat) (x : E), (transcript H hgt l x st).length = st.length
  | [], _, _ => rfl
  | (p, s) :: rest, l, x => by simp [transcript, transcript_length H hgt rest]

theorem steps_length (b : Nat) : ∀ (ps : List Nat) (s : List E), (steps b ps s).length = ps.length
  | [], _ => rfl
  | p :: ps, s => by simp [steps, steps_length b ps]

theorem Proof.new_nested_ok {b top subn : Nat} {s : Proof E} {l : List E} {path : List Nat}
    {p : Proof E} (h : Proof.new b top subn (some s) l path = .ok p) :
    p = .nested s top subn l path := by
  unfold Proof.new at h
  split at h
  · simp only [bind_ok_iff, ensure_ok_iff, exists_const, Except.ok.injEq] at h
    obtain ⟨_, _, _, _, h⟩ := h
    exact h.symm
  · simp only [Except.ok.injEq] at h; exact h.symm

theorem Proof.new_none_ok {b top subn : Nat} {l : List E} {path : List Nat}
    {p : Proof E} (h : Proof.new b top subn none l path = .ok p) :
    p = .base top subn l path := by
  unfold Proof.new at h
  split at h
  · simp only [bind_ok_iff, ensure_ok_iff, exists_const, Except.ok.injEq] at h
    obtain ⟨_, _, _, _, h⟩ := h
    exact h.symm
  · simp only [Except.ok.injEq] at h; exact h.symm

/-- What a successful validation of a nested proof establishes about its outermost layer. -/
theorem validate_nested_true [DecidableEq E] {A : Alg E} {b top subn : Nat} {path : List Nat}
    {s : Proof E} {l : List E} (hv : Proof.validate A b (.nested s top subn l path) = .ok true) :
    s.validate A b = .ok true ∧ 0 < layerArity top subn ∧
      Proof.validateTopLayer A (layerArity top subn) s (.nested s top subn l path) = .ok true := by
  simp only [Proof.validate] at hv
  unfold layerArity
  by_cases h1 : top > 0
  · simp only [h1, ↓reduceIte, bind_ok_iff] at hv
    obtain ⟨v, hv1, hv2⟩ := hv
    cases v with
    | false => simp at hv2
    | true => simp only [Bool.not_true, Bool.false_eq_true, ↓reduceIte] at hv2
              exact ⟨hv1, by simp [h1], by simpa [h1] using hv2⟩
  · by_cases h2 : subn > 0
    · simp only [h1, h2, ↓reduceIte, bind_ok_iff] at hv
      obtain ⟨v, hv1, hv2⟩ := hv
      cases v with
      | false => simp at hv2
      | true => simp only [Bool.not_true, Bool.false_eq_true, ↓reduceIte] at hv2
                exact ⟨hv1, by simp [h1, h2], by simpa [h1] using hv2⟩
    · simp [h1, h2] at hv

theorem validate_base_arity [DecidableEq E] {A : Alg E} {b top subn : Nat} {path : List Nat}
    {l : List E} (vp : Proof.validate A b (.base top subn l path) = .ok true) :
    top = 0 ∧ subn = 0 := by
  simp only [Proof.validate] at vp
  by_cases h1 : top > 0
  · simp [h1] at vp
  · by_cases h2 : subn > 0
    · simp [h1, h2] at vp
    · omega

theorem transcript_length_eq [DecidableEq E] (A : Alg E) (hA : A.LawfulReset) (b : Nat)
    (p : Proof E) (mp : Made b p) : ∀ q, Made b q → SameShape p q →
    p.validate A b = .ok true → q.validate A b = .ok true →
    (proofTranscript A.nodeHash b p).length = (proofTranscript A.nodeHash b q).length := by
  induction mp with
  | @base top subn l path p hp =>
    intro q mq hsh vp vq
    have hpe := Proof.new_none_ok hp
    subst hpe
    cases mq with
    | nested _ hq =>
      have := Proof.new_nested_ok hq
      subst this
      exact absurd hsh (by simp [SameShape])
    | @base top' subn' l' path' _ hq =>
      have := Proof.new_none_ok hq
      subst this
      obtain ⟨rfl, rfl, rfl⟩ := hsh
      obtain ⟨rfl, rfl⟩ := validate_base_arity vp
      obtain ⟨_, _, e1, -⟩ := Proof.new_base_ok hp
      obtain ⟨_, _, e2, -⟩ := Proof.new_base_ok hq
      cases l with
      | nil => simp at e1; omega
      | cons x l =>
        cases l' with
        | nil => simp at e2; omega
        | cons x' l' =>
          simp [proofTranscript, baseTranscript, transcript_length, steps_length]
  | @nested s top subn l path p ms hp ih =>
    intro q mq hsh vp vq
    have hpe := Proof.new_nested_ok hp
    subst hpe
    cases mq with
    | base hq =>
      have := Proof.new_none_ok hq
      subst this
      exact absurd hsh (by simp [SameShape])
    | @nested s' top' subn' l' path' _ ms' hq =>
      have := Proof.new_nested_ok hq
      subst this
      obtain ⟨hss, rfl, rfl, rfl⟩ := hsh
      obtain ⟨v1, har, t1⟩ := validate_nested_true vp
      obtain ⟨v2, _, t2⟩ := validate_nested_true vq
      obtain ⟨p0, r, e1, e2, -⟩ := validateTopLayer_true A hA _ har _ _ t1
      obtain ⟨p0', r', f1, f2, -⟩ := validateTopLayer_true A hA _ har _ _ t2
      simp only [Proof.path] at e1
      simp [proofTranscript, e1, e2, f2, ih s' ms' hss v1 v2]

theorem Spec.SameData.innermost {p : Proof E} : ∀ {q : Proof E}, SameData p q →
    (innermost p).lem = (Spec.innermost q).lem := by
  induction p with
  | base t n l path =>
    intro q h
    cases q with
    | base => exact h
    | nested => exact h.elim
  | nested s t n l path ih =>
    intro q h
    cases q with
    | base => exact h.elim
    | nested s' => exact ih (q := s') h.1

theorem compound_binding_aux [DecidableEq E] (A : Alg E) (hA : A.LawfulReset) (b : Nat)
    (p : Proof E) (mp : Made b p) : ∀ q, Made b q → SameShape p q →
    p.validate A b = .ok true → q.validate A b = .ok true → p.root = q.root →
    SameData p q ∨
      Collision A.nodeHash (proofTranscript A.nodeHash b p) (proofTranscript A.nodeHash b q) := by
  induction mp with
  | @base top subn l path p hp =>
    intro q mq hsh vp vq hr
    have hpe := Proof.new_none_ok hp
    subst hpe
    cases mq with
    | nested _ hq =>
      have := Proof.new_nested_ok hq
      subst this
      exact absurd hsh (by simp [SameShape])
    | @base top' subn' l' path' _ hq =>
      have := Proof.new_none_ok hq
      subst this
      obtain ⟨rfl, rfl, rfl⟩ := hsh
      have h0 : top = 0 ∧ subn = 0 := by
        simp only [Proof.validate] at vp
        by_cases h1 : top > 0
        · simp [h1] at vp
        · by_cases h2 : subn > 0
          · simp [h1, h2] at vp
          · omega
      obtain ⟨rfl, rfl⟩ := h0
      rcases C16_aux A hA b l l' path _ _ hp hq vp vq hr with h | h
      · exact Or.inl h.1
      · exact Or.inr h
  | @nested s top subn l path p ms hp ih =>
    intro q mq hsh vp vq hr
    have hpe := Proof.new_nested_ok hp
    subst hpe
    cases mq with
    | base hq =>
      have := Proof.new_none_ok hq
      subst this
      exact absurd hsh (by simp [SameShape])
    | @nested s' top' subn' l' path' _ ms' hq =>
      have := Proof.new_nested_ok hq
      subst this
      obtain ⟨hss, rfl, rfl, rfl⟩ := hsh
      obtain ⟨v1, har, t1⟩ := validate_nested_true vp
      obtain ⟨v2, _, t2⟩ := validate_nested_true vq
      obtain ⟨p0, r, e1, e2, e3, e4, e5⟩ := validateTopLayer_true A hA _ har _ _ t1
      obtain ⟨p0', r', f1, f2, f3, f4, f5⟩ := validateTopLayer_true A hA _ har _ _ t2
      simp only [Proof.path, Proof.lem] at e1 f1 e4 f4 e5 f5
      rw [e1] at f1
      obtain rfl := Option.some.inj f1
      have hhash : A.nodeHash (insertAt p0 r (l.take (layerArity top subn - 1))) 0
          = A.nodeHash (insertAt p0 r' (l'.take (layerArity top subn - 1))) 0 := by
        simp only [Proof.root, Proof.lem, e5, f5, Except.ok.injEq] at hr
        exact hr
      have tP : proofTranscript A.nodeHash b (.nested s top subn l path) =
          proofTranscript A.nodeHash b s ++
            [(insertAt p0 r (l.take (layerArity top subn - 1)), 0)] := by
        simp [proofTranscript, e1, e2]
      have tQ : proofTranscript A.nodeHash b (.nested s' top subn l' path) =
          proofTranscript A.nodeHash b s' ++
            [(insertAt p0 r' (l'.take (layerArity top subn - 1)), 0)] := by
        simp [proofTranscript, e1, f2]
      have lenEq : (proofTranscript A.nodeHash b s).length
          = (proofTranscript A.nodeHash b s').length :=
        transcript_length_eq A hA b s ms s' ms' hss v1 v2
      rw [tP, tQ]
      by_cases hi : insertAt p0 r (l.take (layerArity top subn - 1))
          = insertAt p0 r' (l'.take (layerArity top subn - 1))
      · obtain ⟨hrr, hsib⟩ := insertAt_inj (by rw [e4, f4]) hi
        subst hrr
        have hroot : s.root = s'.root := by simp only [Proof.root, e2, f2]
        rcases ih s' ms' hss v1 v2 hroot with h | h
        · exact Or.inl ⟨h, hsib, by rw [e5, f5, hhash]⟩
        · exact Or.inr (Collision.left h)
      · right
        exact Collision.right lenEq ⟨0, _, _, 0, rfl, rfl, hi, hhash⟩

end Verif
