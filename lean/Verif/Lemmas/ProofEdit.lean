import Verif.Spec.ProofEdit
import Verif.Lemmas.ProofTotal
import Verif.Lemmas.Walk
/-! Validation of base proofs with a lemma of any length. -/
namespace Verif
open Spec

section
variable {E : Type}

theorem stepCount_le {b n : Nat} (hb : 2 ≤ b) : n - 2 ≤ stepCount b n * (b - 1) := by
  unfold stepCount
  have h := Nat.div_add_mod (n - 2 + (b - 2)) (b - 1)
  have h2 := Nat.mod_lt (n - 2 + (b - 2)) (show b - 1 > 0 by omega)
  rw [Nat.mul_comm] at h
  omega

theorem lt_stepCount {b n t : Nat} (hb : 2 ≤ b) : t < stepCount b n ↔ t * (b - 1) < n - 2 := by
  unfold stepCount
  rw [← Nat.succ_le_iff, Nat.le_div_iff_mul_le (by omega), Nat.succ_mul]
  omega

theorem stepCount_exact {b m : Nat} (hb : 2 ≤ b) : stepCount b (2 + (b - 1) * m) = m := by
  have h1 : ¬ m < stepCount b (2 + (b - 1) * m) := by
    rw [lt_stepCount hb, Nat.mul_comm]; omega
  have h2 := stepCount_le (n := 2 + (b - 1) * m) hb
  rw [Nat.add_sub_cancel_left, Nat.mul_comm (b - 1) m] at h2
  have := Nat.le_of_mul_le_mul_right h2 (by omega)
  rw [Nat.mul_comm m] at this
  omega

/-- One step of the loop, in all cases. -/
theorem validateLoop_step (A : Alg E) (hA : A.LawfulReset) {b : Nat} (hb : 2 ≤ b) (l : List E) (path : List Nat)
    (f pi : Nat) (a : A.σ) (h : E) (hi : 1 + pi * (b - 1) < l.length - 1) :
    match path[pi]? with
    | none => ∃ m, Proof.validateLoop A b l path (f + 1) (1 + pi * (b - 1)) pi a h = .error (.panic m)
    | some p =>
      if p < b then
        if (pi + 1) * (b - 1) < l.length then
          ∃ a', Proof.validateLoop A b l path (f + 1) (1 + pi * (b - 1)) pi a h =
            Proof.validateLoop A b l path f (1 + (pi + 1) * (b - 1)) (pi + 1) a'
              (A.nodeHash (insertAt p h ((l.drop (1 + pi * (b - 1))).take (b - 1))) (pi * (b - 1)))
        else ∃ m, Proof.validateLoop A b l path (f + 1) (1 + pi * (b - 1)) pi a h = .error (.panic m)
      else if (pi + 1) * (b - 1) + 2 ≤ l.length then
        Proof.validateLoop A b l path (f + 1) (1 + pi * (b - 1)) pi a h = .ok none
      else ∃ m, Proof.validateLoop A b l path (f + 1) (1 + pi * (b - 1)) pi a h = .error (.panic m) := by
  have hmul : (pi + 1) * (b - 1) = pi * (b - 1) + (b - 1) := Nat.succ_mul ..
  have hstep : 1 + pi * (b - 1) + (b - 1) = 1 + (pi + 1) * (b - 1) := by omega
  cases hp : path[pi]? with
  | none =>
    rw [Proof.validateLoop, if_pos hi]
    simp only [idxP, hp]
    exact ⟨_, rfl⟩
  | some p =>
    obtain ⟨hlt, hpe⟩ := List.getElem?_eq_some_iff.1 hp
    rw [Proof.validateLoop, if_pos hi]
    simp only [idxP_eq hlt, Res.ok_bind, hpe]
    have panics : (∀ o, Proof.gather (.ok h) p l (1 + pi * (b - 1)) b 0 0 ≠ .ok o) →
        ∃ m, Proof.gather (.ok h) p l (1 + pi * (b - 1)) b 0 0 = .error (.panic m) := fun hn => by
      rcases gather_okOrPanic (h := .ok h) (Or.inl ⟨h, rfl⟩) p l (1 + pi * (b - 1)) b 0 0 with ⟨o, ho⟩ | hm
      · exact absurd ho (hn o)
      · exact hm
    by_cases hpb : p < b
    · rw [if_pos hpb]
      by_cases hfit : (pi + 1) * (b - 1) < l.length
      · rw [if_pos hfit, gather_hit h p l _ b 0 0 (by omega) (by omega) (by omega), Res.ok_bind]
        have hcur : ¬ (0 + (b - 1) ≠ b - 1) := by omega
        dsimp only
        rw [if_neg hcur, hstep]
        refine ⟨(A.multiNode (A.reset a) (insertAt p h ((l.drop (1 + pi * (b - 1))).take (b - 1))) (pi * (b - 1))).2, ?_⟩
        simp only [Alg.nodeHash, Nat.sub_zero, Nat.add_zero, show 1 + pi * (b - 1) - 1 = pi * (b - 1) by omega]
        rw [hA a]
      · rw [if_neg hfit]
        obtain ⟨m, hm⟩ := panics fun o ho => by
          have := ((gather_ok_needs (.ok h) p l (1 + pi * (b - 1)) b 0 0 o ho).1 ⟨by omega, by omega⟩).2
          omega
        rw [hm]
        exact ⟨m, rfl⟩
    · rw [if_neg hpb]
      by_cases hfit : (pi + 1) * (b - 1) + 2 ≤ l.length
      · rw [if_pos hfit, gather_miss _ p l _ b 0 0 (by omega) (by omega), Res.ok_bind]
        have hcur : (0 + b ≠ b - 1) := by omega
        dsimp only
        rw [if_pos hcur]
      · rw [if_neg hfit]
        obtain ⟨m, hm⟩ := panics fun o ho => by
          have := (gather_ok_needs (.ok h) p l (1 + pi * (b - 1)) b 0 0 o ho).2 (by omega)
          omega
        rw [hm]
        exact ⟨m, rfl⟩

/-- The loop with a lemma of any length. -/
theorem validateLoop_any (A : Alg E) (hA : A.LawfulReset) {b : Nat} (hb : 2 ≤ b) (l : List E) (path : List Nat) :
    ∀ (r f pi : Nat) (a : A.σ) (h : E), pi + r = stepCount b l.length → r < f → (r = 0 ∨ 2 ≤ l.length) →
      (Proof.validateLoop A b l path f (1 + pi * (b - 1)) pi a h).OkOrPanic ∧
      (∀ h', Proof.validateLoop A b l path f (1 + pi * (b - 1)) pi a h = .ok (some h') ↔
        (pi + r ≤ path.length ∨ r = 0) ∧ (∀ p ∈ (path.drop pi).take r, p < b) ∧
        ((pi + r) * (b - 1) < l.length ∨ r = 0) ∧
        h' = climb A.nodeHash (fun j => j * (b - 1)) pi h
          (steps b ((path.drop pi).take r) (l.drop (1 + pi * (b - 1))))) ∧
      (Proof.validateLoop A b l path f (1 + pi * (b - 1)) pi a h = .ok none ↔
        ∃ t p, t < r ∧ (∀ q ∈ (path.drop pi).take t, q < b) ∧ (path.drop pi)[t]? = some p ∧ b ≤ p ∧
          (pi + t + 1) * (b - 1) + 2 ≤ l.length)
  | 0, f, pi, a, h, hr, hf, _ => by
    obtain ⟨f, rfl⟩ : ∃ g, f = g + 1 := ⟨f - 1, by omega⟩
    have hn : ¬ (1 + pi * (b - 1) < l.length - 1) := by
      have := stepCount_le (n := l.length) hb
      rw [← hr, Nat.add_zero] at this
      omega
    rw [Proof.validateLoop, if_neg hn]
    refine ⟨Or.inl ⟨_, rfl⟩, fun h' => ?_, ?_⟩
    · simp [steps, climb, eq_comm]
    · constructor
      · intro hc; cases hc
      · rintro ⟨t, _, ht, _⟩; omega
  | r + 1, f, pi, a, h, hr, hf, hl => by
    obtain ⟨f, rfl⟩ : ∃ g, f = g + 1 := ⟨f - 1, by omega⟩
    have hl := hl.resolve_left (by omega)
    have hlt : pi * (b - 1) < l.length - 2 := (lt_stepCount hb).1 (by omega)
    have hs := validateLoop_step A hA hb l path f pi a h (by omega)
    have bad : (∃ m, Proof.validateLoop A b l path (f + 1) (1 + pi * (b - 1)) pi a h = .error (.panic m)) →
        ∀ P : Prop, ∀ Q : E → Prop, ¬ P → (∀ h', ¬ Q h') →
        (Proof.validateLoop A b l path (f + 1) (1 + pi * (b - 1)) pi a h).OkOrPanic ∧
        (∀ h', Proof.validateLoop A b l path (f + 1) (1 + pi * (b - 1)) pi a h = .ok (some h') ↔ Q h') ∧
        (Proof.validateLoop A b l path (f + 1) (1 + pi * (b - 1)) pi a h = .ok none ↔ P) := by
      rintro ⟨m, hm⟩ P Q hP hQ
      rw [hm]
      exact ⟨Or.inr ⟨m, rfl⟩, fun h' => ⟨fun hc => (by cases hc), fun hc => absurd hc (hQ h')⟩,
        ⟨fun hc => (by cases hc), fun hc => absurd hc hP⟩⟩
    cases hp : path[pi]? with
    | none =>
      rw [hp] at hs
      have hle := List.getElem?_eq_none_iff.1 hp
      refine bad hs _ _ ?_ ?_
      · rintro ⟨t, p, _, _, h3, _⟩
        rw [List.drop_eq_nil_of_le hle] at h3
        simp at h3
      · rintro h' ⟨h1, _⟩
        omega
    | some p =>
      rw [hp] at hs
      obtain ⟨hpl, hpe⟩ := List.getElem?_eq_some_iff.1 hp
      have hd : path.drop pi = p :: path.drop (pi + 1) := by rw [List.drop_eq_getElem_cons hpl, hpe]
      dsimp only at hs
      split at hs
      · rename_i hpb
        split at hs
        · rename_i hfit
          obtain ⟨a', ha'⟩ := hs
          have ih := validateLoop_any A hA hb l path r f (pi + 1) a'
            (A.nodeHash (insertAt p h ((l.drop (1 + pi * (b - 1))).take (b - 1))) (pi * (b - 1)))
            (by omega) (by omega) (by omega)
          obtain ⟨i1, i2, i3⟩ := ih
          rw [ha']
          refine ⟨i1, fun h' => (i2 h').trans ?_, i3.trans ?_⟩
          · rw [hd]
            simp only [List.take_succ_cons, List.mem_cons, forall_eq_or_imp, hpb, true_and, steps, climb,
              List.drop_drop]
            rw [show 1 + pi * (b - 1) + (b - 1) = 1 + (pi + 1) * (b - 1) by rw [Nat.succ_mul]; omega,
              show pi + (r + 1) = pi + 1 + r by omega]
            constructor
            · rintro ⟨h1, h2, h3, h4⟩
              refine ⟨.inl ?_, h2, .inl ?_, h4⟩
              · rcases h1 with h1 | rfl <;> omega
              · rcases h3 with h3 | rfl
                · exact h3
                · exact hfit
            · rintro ⟨h1, h2, h3, h4⟩
              exact ⟨.inl (h1.resolve_right (by omega)), h2, .inl (h3.resolve_right (by omega)), h4⟩
          · rw [hd]
            constructor
            · rintro ⟨t, q, h1, h2, h3, h4, h5⟩
              refine ⟨t + 1, q, by omega, ?_, by simpa using h3, h4, by
                rw [show pi + (t + 1) + 1 = pi + 1 + t + 1 by omega]; exact h5⟩
              simp only [List.take_succ_cons, List.mem_cons, forall_eq_or_imp, hpb, true_and]
              exact h2
            · rintro ⟨t, q, h1, h2, h3, h4, h5⟩
              cases t with
              | zero =>
                simp only [List.getElem?_cons_zero, Option.some.injEq] at h3
                omega
              | succ t =>
                refine ⟨t, q, by omega, ?_, by simpa using h3, h4, by
                  rw [show pi + 1 + t + 1 = pi + (t + 1) + 1 by omega]; exact h5⟩
                simp only [List.take_succ_cons, List.mem_cons, forall_eq_or_imp] at h2
                exact h2.2
        · rename_i hfit
          refine bad hs _ _ ?_ ?_
          · rintro ⟨t, q, h1, h2, h3, h4, h5⟩
            rw [hd] at h3
            have : (pi + 1) * (b - 1) ≤ (pi + t + 1) * (b - 1) := Nat.mul_le_mul_right _ (by omega)
            omega
          · rintro h' ⟨_, _, h3, _⟩
            have : (pi + 1) * (b - 1) ≤ (pi + (r + 1)) * (b - 1) := Nat.mul_le_mul_right _ (by omega)
            omega
      · rename_i hpb
        have hQ : ∀ h' : E, ¬ ((pi + (r + 1) ≤ path.length ∨ r + 1 = 0) ∧ (∀ p ∈ (path.drop pi).take (r + 1), p < b) ∧
            ((pi + (r + 1)) * (b - 1) < l.length ∨ r + 1 = 0) ∧
            h' = climb A.nodeHash (fun j => j * (b - 1)) pi h
              (steps b ((path.drop pi).take (r + 1)) (l.drop (1 + pi * (b - 1))))) := by
          rintro h' ⟨_, h2, _⟩
          exact hpb (h2 p (by rw [hd]; simp))
        have hPt : ∀ t q, (∀ q ∈ (path.drop pi).take t, q < b) → (path.drop pi)[t]? = some q → t = 0 := by
          intro t q h2 h3
          cases t with
          | zero => rfl
          | succ t => exact absurd (h2 p (by rw [hd]; simp)) hpb
        split at hs
        · rename_i hfit
          rw [hs]
          refine ⟨Or.inl ⟨_, rfl⟩, fun h' => ⟨fun hc => (by cases hc), fun hc => absurd hc (hQ h')⟩, ?_⟩
          simp only [true_iff]
          exact ⟨0, p, by omega, by simp, by rw [hd]; rfl, by omega, by simpa using hfit⟩
        · rename_i hfit
          refine bad hs _ _ ?_ hQ
          rintro ⟨t, q, h1, h2, h3, h4, h5⟩
          obtain rfl := hPt t q h2 h3
          exact hfit (by simpa using h5)

theorem stepCount_lt {b n : Nat} (hb : 2 ≤ b) (hn : 2 ≤ n) : stepCount b n < n := by
  by_contra hc
  have h := (lt_stepCount (n := n) (t := n - 2) hb).1 (by omega)
  have : (n - 2) * 1 ≤ (n - 2) * (b - 1) := Nat.mul_le_mul_left _ (by omega)
  omega

variable [DecidableEq E]

/-- Validation of a base proof with a lemma of any length. -/
theorem validateBase_any {A : Alg E} (hA : A.LawfulReset) {b : Nat} (hb : 2 ≤ b) (x : E) (rest : List E)
    (hr : rest ≠ []) (path : List Nat) :
    (Proof.validate A b (.base 0 0 (x :: rest) path)).OkOrPanic ∧
    (Proof.validate A b (.base 0 0 (x :: rest) path) = .ok true ↔
      Complete b (rest.length + 1) path ∧ rest.getLast? = some (climb A.nodeHash (fun j => j * (b - 1)) 0 x
        (steps b (path.take (stepCount b (rest.length + 1))) rest))) ∧
    (Proof.validate A b (.base 0 0 (x :: rest) path) = .ok false ↔
      (Complete b (rest.length + 1) path ∧ rest.getLast? ≠ some (climb A.nodeHash (fun j => j * (b - 1)) 0 x
        (steps b (path.take (stepCount b (rest.length + 1))) rest))) ∨
      Rejected b (rest.length + 1) path) := by
  have h2 : 2 ≤ (x :: rest).length := by
    have := List.length_pos_iff.2 hr
    simp only [List.length_cons]; omega
  have hz : 0 < (x :: rest).length := by omega
  obtain ⟨h1, hs, hn⟩ := validateLoop_any A hA hb (x :: rest) path (stepCount b (x :: rest).length) (x :: rest).length 0
    A.init x (by omega) (stepCount_lt hb h2) (.inr h2)
  simp only [Nat.zero_mul, Nat.add_zero, Nat.zero_add, List.drop_zero, List.drop_succ_cons] at h1 hs hn
  obtain ⟨z, hlast⟩ : ∃ z, rest.getLast? = some z := by
    cases hc : rest.getLast? with
    | none => exact absurd (List.getLast?_eq_none_iff.1 hc) hr
    | some z => exact ⟨z, rfl⟩
  have hroot : (Proof.base 0 0 (x :: rest) path).root = .ok z := by
    rw [Proof.root, Proof.lem, List.getLast?_cons, hlast]; rfl
  have hval : Proof.validate A b (.base 0 0 (x :: rest) path) = (do
      match ← Proof.validateLoop A b (x :: rest) path (x :: rest).length 1 0 A.init x with
      | none => .ok false
      | some h => .ok (decide (h = z))) := by
    simp only [Proof.validate, Nat.lt_irrefl, gt_iff_lt, ↓reduceIte]
    unfold Proof.validateBase
    rw [if_neg (by simpa [Proof.lem] using h2), subP, if_pos (by omega)]
    simp only [Proof.item, Proof.lem, List.head?_cons, Res.ok_bind, Proof.path]
    rw [if_neg (by omega), hroot]
    congr 1
  rw [hval, hlast]
  have hcomp : ∀ h', Proof.validateLoop A b (x :: rest) path (x :: rest).length 1 0 A.init x = .ok (some h') ↔
      Complete b (rest.length + 1) path ∧ h' = climb A.nodeHash (fun j => j * (b - 1)) 0 x
        (steps b (path.take (stepCount b (rest.length + 1))) rest) := by
    intro h'
    rw [hs]
    unfold Complete
    simp only [List.length_cons]
    constructor
    · rintro ⟨a1, a2, a3, a4⟩
      refine ⟨⟨?_, a2, ?_⟩, a4⟩
      · omega
      · rcases a3 with a3 | a3
        · exact a3
        · rw [a3]; omega
    · rintro ⟨⟨a1, a2, a3⟩, a4⟩
      exact ⟨.inl a1, a2, .inl a3, a4⟩
  have hrej : Proof.validateLoop A b (x :: rest) path (x :: rest).length 1 0 A.init x = .ok none ↔
      Rejected b (rest.length + 1) path := hn
  rcases h1 with ⟨o, ho⟩ | ⟨m, hm⟩
  · rw [ho] at hcomp hrej ⊢
    cases o with
    | none =>
      have hR := hrej.1 rfl
      have hC : ¬ Complete b (rest.length + 1) path := fun hc => by
        have := (hcomp _).2 ⟨hc, rfl⟩
        cases this
      refine ⟨.inl ⟨_, rfl⟩, ?_, ?_⟩ <;> simp [hC, hR]
    | some h' =>
      have hR : ¬ Rejected b (rest.length + 1) path := fun hc => by
        have := hrej.2 hc
        cases this
      obtain ⟨hC, rfl⟩ := (hcomp h').1 rfl
      refine ⟨.inl ⟨_, rfl⟩, ?_, ?_⟩ <;> simp [hC, hR, eq_comm]
  · rw [hm] at hcomp hrej ⊢
    have hC : ¬ Complete b (rest.length + 1) path := fun hc => by
      have := (hcomp _).2 ⟨hc, rfl⟩
      cases this
    have hR : ¬ Rejected b (rest.length + 1) path := fun hc => by
      have := hrej.2 hc
      cases this
    refine ⟨.inr ⟨m, rfl⟩, ?_, ?_⟩ <;> simp [hC, hR]

/-- A valid proof, of whatever origin, as a list of steps from the root down. -/
theorem valid_steps_any {A : Alg E} (hA : A.LawfulReset) (hI : A.IgnoresHeight) {b : Nat} (hb : 2 ≤ b) :
    ∀ {p : Proof E}, p.validate A b = .ok true →
    ∃ x st, (innermost p).item = .ok x ∧ p.lem.getLast? = some (down (fun ns => A.nodeHash ns 0) x st) ∧
      st.map (·.1) = proofPath (trim b p) ∧ st.map (fun q => q.2.length + 1) = proofArities b (trim b p) ∧
      (∀ q ∈ st, q.1 ≤ q.2.length) ∧
      ∀ y, DownHashed (fun ns => A.nodeHash ns 0) x st y →
        ∃ h, (y, h) ∈ proofTranscript A.nodeHash b (trim b p)
  | .base top subn l path, vp => by
    obtain ⟨rfl, rfl⟩ := validate_base_arity vp
    match l, vp with
    | [], vp => cases vp
    | [_], vp => cases vp
    | x :: y :: rest, vp =>
      obtain ⟨⟨c1, c2, c3⟩, v2⟩ := (validateBase_any hA hb x (y :: rest) (by simp) path).2.1.1 vp
      have har := steps_arities (b := b) (by omega) (path.take (stepCount b ((y :: rest).length + 1))) (y :: rest)
        (by rw [List.length_take, Nat.min_eq_left c1]; omega)
      refine ⟨x, (steps b (path.take (stepCount b ((y :: rest).length + 1))) (y :: rest)).reverse, rfl, ?_, ?_, ?_, ?_, ?_⟩
      · rw [← climb_eq_down hI, ← v2, Proof.lem, List.getLast?_cons_cons]
      · rw [List.map_reverse, steps_map_fst]; rfl
      · rw [List.map_reverse]
        show _ = List.replicate (path.take (stepCount b ((y :: rest).length + 1))).length b
        rw [List.eq_replicate_iff]
        refine ⟨by simp [steps_length], fun a ha => ?_⟩
        rw [List.mem_reverse, List.mem_map] at ha
        obtain ⟨q, hq, rfl⟩ := ha
        exact har q hq
      · intro q hq
        have hq := List.mem_reverse.1 hq
        have h1 := har q hq
        have h2 : q.1 ∈ path.take (stepCount b ((y :: rest).length + 1)) := by
          rw [← steps_map_fst b (path.take (stepCount b ((y :: rest).length + 1))) (y :: rest)]
          exact List.mem_map_of_mem hq
        have := c2 _ h2
        omega
      · intro z hz
        obtain ⟨h, hh⟩ := downHashed_transcript hI (fun j => j * (b - 1)) _ 0 _ hz
        exact ⟨h, hh⟩
  | .nested s top subn l path, vp => by
    obtain ⟨v1, har, t1⟩ := validate_nested_true vp
    obtain ⟨p0, r, e1, e2, e3, e4, e5⟩ := validateTopLayer_true A hA _ har _ _ t1
    obtain ⟨x, st, i1, i2, i3, i4, i5, i6⟩ := valid_steps_any hA hI hb v1
    simp only [Proof.path, Proof.lem] at e1 e4 e5
    have e2' : (trim b s).lem.getLast? = some r := by
      cases s <;> exact e2
    rw [e2] at i2
    obtain rfl := Option.some.inj i2
    refine ⟨x, (p0, l.take (layerArity top subn - 1)) :: st, i1, ?_, ?_, ?_, ?_, ?_⟩
    · simp only [Proof.lem, e5, down]
    · simp only [List.map_cons, i3, trim, proofPath, List.headD_eq_head?_getD, e1, Option.getD_some]
    · simp only [List.map_cons, i4, trim, proofArities]
      congr 1
      omega
    · intro q hq
      rcases List.mem_cons.1 hq with rfl | hq
      · show p0 ≤ (l.take (layerArity top subn - 1)).length
        omega
      · exact i5 q hq
    · intro y hy
      simp only [trim, proofTranscript, e2', e1]
      rcases hy with rfl | hy
      · exact ⟨0, List.mem_append_right _ List.mem_cons_self⟩
      · obtain ⟨h, hh⟩ := i6 y hy
        exact ⟨h, List.mem_append_left _ hh⟩

/-- Nothing is trimmed from a valid proof that `Proof::new` made. -/
theorem trim_made {A : Alg E} {b : Nat} {p : Proof E} (mp : Made b p) (hv : p.validate A b = .ok true) :
    2 ≤ b ∧ trim b p = p := by
  induction mp with
  | @base top subn l path p hp =>
    have hpe := Proof.new_none_ok hp
    subst hpe
    obtain ⟨rfl, rfl⟩ := validate_base_arity hv
    obtain ⟨hb, _, e1, -⟩ := Proof.new_base_ok hp
    obtain ⟨x, m, r, rfl, hm⟩ := lemma_split e1
    refine ⟨hb, ?_⟩
    rw [trim, show (x :: m ++ [r]).length = 2 + (b - 1) * path.length by
      simp only [List.length_append, List.length_cons, List.length_nil, hm]; rw [Nat.mul_comm]; omega,
      stepCount_exact hb, List.take_length]
  | @nested s top subn l path p ms hp ih =>
    have hpe := Proof.new_nested_ok hp
    subst hpe
    obtain ⟨v1, -, -⟩ := validate_nested_true hv
    obtain ⟨h1, h2⟩ := ih v1
    exact ⟨h1, by rw [trim, h2]⟩

theorem trim_lem (b : Nat) (p : Proof E) : (trim b p).lem = p.lem := by
  cases p <;> rfl

theorem trim_transcript_length {A : Alg E} (hA : A.LawfulReset) {b : Nat} (hb : 2 ≤ b) : ∀ {p : Proof E},
    p.validate A b = .ok true →
    (proofTranscript A.nodeHash b (trim b p)).length = (proofArities b (trim b p)).length
  | .base top subn l path, vp => by
    obtain ⟨rfl, rfl⟩ := validate_base_arity vp
    cases l with
    | nil => cases vp
    | cons x rest => simp [trim, proofTranscript, baseTranscript, proofArities, transcript_length, steps_length]
  | .nested s top subn l path, vp => by
    obtain ⟨v1, har, t1⟩ := validate_nested_true vp
    obtain ⟨p0, r, e1, e2, -⟩ := validateTopLayer_true A hA _ har _ _ t1
    simp only [Proof.path] at e1
    simp [trim, proofTranscript, proofArities, trim_lem, e1, e2, trim_transcript_length hA hb v1]

theorem SameShape.arities {b : Nat} : ∀ {p q : Proof E}, SameShape p q → proofArities b p = proofArities b q
  | .base .., .base .., h => by obtain ⟨-, -, rfl⟩ := h; rfl
  | .nested .., .nested .., h => by
    obtain ⟨h, rfl, rfl, -⟩ := h
    simp only [proofArities, SameShape.arities h]
  | .base .., .nested .., h => h.elim
  | .nested .., .base .., h => h.elim

theorem steps_take {b : Nat} : ∀ (ps : List Nat) (s : List E) (n : Nat), ps.length * (b - 1) ≤ n →
    steps b ps (s.take n) = steps b ps s
  | [], _, _, _ => rfl
  | p :: ps, s, n, hn => by
    have : (p :: ps).length * (b - 1) = ps.length * (b - 1) + (b - 1) := by simp [Nat.add_mul]
    rw [this] at hn
    rw [steps, steps, List.take_take, Nat.min_eq_left (by omega), List.drop_take,
      steps_take ps _ _ (by omega)]

theorem trim_binding {A : Alg E} (hA : A.LawfulReset) {b : Nat} (hb : 2 ≤ b) : ∀ {p q : Proof E},
    SameShape (trim b p) (trim b q) → p.validate A b = .ok true → q.validate A b = .ok true → p.root = q.root →
    SameRead b (trim b p) (trim b q) ∨
      Collision A.nodeHash (proofTranscript A.nodeHash b (trim b p)) (proofTranscript A.nodeHash b (trim b q))
  | .base top subn l path, .base top' subn' l' path', hs, vp, vq, hr => by
    obtain ⟨rfl, rfl⟩ := validate_base_arity vp
    obtain ⟨rfl, rfl⟩ := validate_base_arity vq
    obtain ⟨-, -, hpath⟩ := hs
    match l, vp, l', vq with
    | [], vp, _, _ => cases vp
    | [_], vp, _, _ => cases vp
    | _ :: _ :: _, _, [], vq => cases vq
    | _ :: _ :: _, _, [_], vq => cases vq
    | x :: x2 :: xs, vp, y :: y2 :: ys, vq =>
      obtain ⟨⟨c1, c2, c3⟩, v⟩ := (validateBase_any hA hb x (x2 :: xs) (by simp) path).2.1.1 vp
      obtain ⟨⟨d1, d2, d3⟩, w⟩ := (validateBase_any hA hb y (y2 :: ys) (by simp) path').2.1.1 vq
      have hlast : (x2 :: xs).getLast? = (y2 :: ys).getLast? := by
        rw [v, w]
        simp only [Proof.root, Proof.lem, List.getLast?_cons_cons] at hr
        rw [v, w] at hr
        simpa using hr
      have hlen : stepCount b ((y2 :: ys).length + 1) = stepCount b ((x2 :: xs).length + 1) := by
        have := congrArg List.length hpath
        rw [List.length_take, List.length_take] at this
        simp only [List.length_cons] at this c1 d1 ⊢
        omega
      have hpath : path.take (stepCount b ((x2 :: xs).length + 1)) = path'.take (stepCount b ((y2 :: ys).length + 1)) :=
        hpath
      rw [← hpath] at w d2
      rw [hlen] at d1 d3
      generalize hn : stepCount b ((x2 :: xs).length + 1) = n at *
      have hpl : (path.take n).length = n := by rw [List.length_take, Nat.min_eq_left c1]
      have hcl := v.symm.trans (hlast.trans w)
      have hcl := Option.some.inj hcl
      have e1 := steps_take (b := b) (path.take n) (x2 :: xs) (n * (b - 1)) (by rw [hpl])
      have e2 := steps_take (b := b) (path.take n) (y2 :: ys) (n * (b - 1)) (by rw [hpl])
      rw [← e1, ← e2] at hcl
      have htr : ∀ (z z2 : E) (zs : List E) pth, stepCount b ((z2 :: zs).length + 1) = n → pth.take n = path.take n →
          proofTranscript A.nodeHash b (trim b (.base 0 0 (z :: z2 :: zs) pth))
          = transcript A.nodeHash (fun j => j * (b - 1)) 0 z (steps b (path.take n) (z2 :: zs)) := by
        intro z z2 zs pth h1 h2
        rw [← h2, ← h1]
        rfl
      rw [htr x x2 xs path hn rfl, htr y y2 ys path' hlen (by rw [hpath, hlen])]
      rcases climb_inj A.nodeHash (fun j => j * (b - 1)) (path.take n) 0 x y _ _ c2
        (by rw [hpl, List.length_take, Nat.min_eq_left (by omega)])
        (by rw [hpl, List.length_take, Nat.min_eq_left (by omega)]) hcl with ⟨h1, h2⟩ | h
      · left
        subst h1
        refine ⟨?_, ?_⟩
        · have hpl' : (path.take (stepCount b (x :: x2 :: xs).length)).length = n := by
            rw [List.length_cons, hn, hpl]
          rw [hpl', Nat.add_comm 1, List.take_succ_cons, List.take_succ_cons, h2]
        · rw [List.getLast?_cons_cons, List.getLast?_cons_cons, hlast]
      · right
        rw [e1, e2] at h
        exact h
  | .nested s top subn l path, .nested s' top' subn' l' path', hs, vp, vq, hr => by
    obtain ⟨hss, rfl, rfl, rfl⟩ := hs
    obtain ⟨v1, har, t1⟩ := validate_nested_true vp
    obtain ⟨v2, _, t2⟩ := validate_nested_true vq
    obtain ⟨p0, r, e1, e2, e3, e4, e5⟩ := validateTopLayer_true A hA _ har _ _ t1
    obtain ⟨p0', r', f1, f2, f3, f4, f5⟩ := validateTopLayer_true A hA _ har _ _ t2
    simp only [Proof.path, Proof.lem] at e1 f1 e4 f4 e5 f5
    rw [e1] at f1
    obtain rfl := Option.some.inj f1
    have hhash : A.nodeHash (insertAt p0 r (l.take (layerArity top subn - 1))) 0
        = A.nodeHash (insertAt p0 r' (l'.take (layerArity top subn - 1))) 0 := by
      simp only [Proof.root, Proof.lem, e5, f5, Except.ok.injEq] at hr
      exact hr
    have tP : proofTranscript A.nodeHash b (trim b (.nested s top subn l path)) =
        proofTranscript A.nodeHash b (trim b s) ++
          [(insertAt p0 r (l.take (layerArity top subn - 1)), 0)] := by
      simp [trim, trim_lem, proofTranscript, e1, e2]
    have tQ : proofTranscript A.nodeHash b (trim b (.nested s' top subn l' path)) =
        proofTranscript A.nodeHash b (trim b s') ++
          [(insertAt p0 r' (l'.take (layerArity top subn - 1)), 0)] := by
      simp [trim, trim_lem, proofTranscript, e1, f2]
    have lenEq : (proofTranscript A.nodeHash b (trim b s)).length
        = (proofTranscript A.nodeHash b (trim b s')).length := by
      rw [trim_transcript_length hA hb v1, trim_transcript_length hA hb v2, SameShape.arities hss]
    rw [tP, tQ]
    by_cases hi : insertAt p0 r (l.take (layerArity top subn - 1))
        = insertAt p0 r' (l'.take (layerArity top subn - 1))
    · obtain ⟨hrr, hsib⟩ := insertAt_inj (by rw [e4, f4]) hi
      subst hrr
      have hroot : s.root = s'.root := by simp only [Proof.root, e2, f2]
      rcases trim_binding hA hb hss v1 v2 hroot with h | h
      · exact Or.inl ⟨h, hsib, by rw [e5, f5, hhash]⟩
      · exact Or.inr (Collision.left h)
    · right
      exact Collision.right lenEq ⟨0, _, _, 0, rfl, rfl, hi, hhash⟩
  | .base .., .nested .., hs, _, _, _ => hs.elim
  | .nested .., .base .., hs, _, _, _ => hs.elim

end
end Verif
