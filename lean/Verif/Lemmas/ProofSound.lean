import Verif.Lemmas.Proof
import Verif.Spec.ProofTranscript
/-! Helper lemmas for the soundness of `Proof.validate`. -/
namespace Verif
open Spec
variable {E : Type}

theorem Proof.new_base_ok {b : Nat} {l : List E} {path : List Nat} {s : Option (Proof E)}
    {pr : Proof E} (h : Proof.new b 0 0 s l path = .ok pr) :
    2 ≤ b ∧ 1 ≤ path.length ∧ l.length = 2 + (b - 1) * path.length ∧
      pr = Proof.mk s 0 0 l path := by
  unfold Proof.new at h
  simp only [and_self, ↓reduceIte, bind_ok_iff, ensure_ok_iff, exists_const, Except.ok.injEq] at h
  obtain ⟨h1, n, h2, h3⟩ := h
  unfold merkleProofLemmaLen at h2
  simp only [bind_ok_iff] at h2
  obtain ⟨x, hx, y, hy, hn⟩ := h2
  unfold subP at hx hy
  split at hx <;> simp only [Except.ok.injEq, reduceCtorEq] at hx
  split at hy <;> simp only [Except.ok.injEq, reduceCtorEq] at hy
  simp only [Except.ok.injEq] at hn
  subst hx hy hn
  have h4 := h3.1
  simp only [Nat.add_sub_cancel] at h4
  have hb : 2 ≤ b := by
    by_contra hc
    have : b - 1 = 0 := by omega
    rw [this] at h4; simp at h4; omega
  refine ⟨hb, ?_, h4, by simpa using h3.2.symm⟩
  by_contra hc
  have : path.length = 0 := by omega
  rw [this] at h4; simp at h4; omega

/-- The result of validating a base proof whose lemma has the right length. -/
theorem validateBase_spec [DecidableEq E] (A : Alg E) (hA : A.LawfulReset) {b : Nat} (hb : 2 ≤ b)
    (x r : E) (mid : List E) (path : List Nat) (hm : mid.length = path.length * (b - 1)) :
    Proof.validate A b (.base 0 0 (x :: mid ++ [r]) path)
      = .ok (decide ((∀ p ∈ path, p < b) ∧
          climb A.nodeHash (fun j => j * (b - 1)) 0 x (steps b path mid) = r)) := by
  have hlen : (x :: mid ++ [r]).length = mid.length + 2 := by simp
  have h2 : ¬ ((x :: mid ++ [r]).length < 2) := by omega
  have hpl : path.length ≤ mid.length := by
    rw [hm]; exact Nat.le_mul_of_pos_right _ (by omega)
  have hlp := validateLoop_spec A hA hb (x :: mid ++ [r]) path path
    (x :: mid ++ [r]).length 0 0 A.init x rfl (by omega) (by omega)
  have hsteps : ∀ (ps : List Nat) (m : List E), m.length = ps.length * (b - 1) →
      steps b ps (m ++ [r]) = steps b ps m := by
    intro ps
    induction ps with
    | nil => intros; rfl
    | cons p ps ih =>
      intro m hm
      have : (p :: ps).length * (b - 1) = ps.length * (b - 1) + (b - 1) := by simp [Nat.add_mul]
      rw [this] at hm
      simp only [steps]
      rw [List.take_append_of_le_length (by omega), List.drop_append_of_le_length (by omega), ih]
      simp; omega
  simp only [Proof.validate, Nat.lt_irrefl, gt_iff_lt, ↓reduceIte]
  unfold Proof.validateBase
  simp only [Proof.lem, Proof.path, h2, ↓reduceIte, Proof.item, Proof.root]
  have hs : b - 1 ≠ 0 := by omega
  rw [subP_ok (by omega)]
  simp only [List.cons_append, List.head?_cons, Res.ok_bind, hs, ↓reduceIte]
  rw [Nat.zero_mul, Nat.add_zero, List.cons_append] at hlp
  rw [hlp]
  simp only [Res.ok_bind, List.drop_one, List.tail_cons]
  rw [hsteps path mid hm]
  by_cases hall : ∀ p ∈ path, p < b
  · have hl : (x :: (mid ++ [r])).getLast? = some r := by
      rw [← List.cons_append, List.getLast?_append]; simp
    rw [if_pos hall, hl]
    simp only [Res.ok_bind, Except.ok.injEq, decide_eq_decide]
    exact ⟨fun h => ⟨hall, h⟩, fun h => h.2⟩
  · rw [if_neg hall]
    simp [hall]

theorem insertAt_inj {p : Nat} {x y : E} {s t : List E} (hl : s.length = t.length) (h : insertAt p x s = insertAt p y t) : x = y ∧ s = t := by
  unfold insertAt at h
  have hlen : (s.take p).length = (t.take p).length := by simp [hl]
  obtain ⟨h1, h2⟩ := List.append_inj h hlen
  obtain ⟨h3, h4⟩ := List.cons.inj h2
  refine ⟨h3, ?_⟩
  rw [← List.take_append_drop p s, ← List.take_append_drop p t, h1, h4]

/-- Two climbs along the same path that meet start at the same item with the same siblings, or their
transcripts collide. -/
theorem climb_inj (H : List E → Nat → E) (hgt : Nat → Nat) {b : Nat} :
    ∀ (ps : List Nat) (l : Nat) (x y : E) (s t : List E), (∀ p ∈ ps, p < b) →
      s.length = ps.length * (b - 1) → t.length = ps.length * (b - 1) →
      climb H hgt l x (steps b ps s) = climb H hgt l y (steps b ps t) →
      (x = y ∧ s = t) ∨
        Collision H (transcript H hgt l x (steps b ps s)) (transcript H hgt l y (steps b ps t)) := by
  intro ps
  induction ps with
  | nil =>
    intro l x y s t _ hs ht h
    simp at hs ht
    subst hs ht
    exact Or.inl ⟨h, rfl⟩
  | cons p ps ih =>
    intro l x y s t hp hs ht h
    have hlen : (p :: ps).length * (b - 1) = ps.length * (b - 1) + (b - 1) := by
      simp [Nat.add_mul]
    rw [hlen] at hs ht
    have hpb : p < b := hp p (by simp)
    simp only [steps, climb] at h
    rcases ih (l + 1) _ _ (s.drop (b - 1)) (t.drop (b - 1)) (fun q hq => hp q (by simp [hq]))
      (by simp; omega) (by simp; omega) h with ⟨h1, h2⟩ | ⟨j, u, v, hh, h1, h2, h3⟩
    · by_cases hi : insertAt p x (s.take (b - 1)) = insertAt p y (t.take (b - 1))
      · left
        obtain ⟨e1, e2⟩ := insertAt_inj (by simp; omega) hi
        refine ⟨e1, ?_⟩
        rw [← List.take_append_drop (b - 1) s, ← List.take_append_drop (b - 1) t, e2, h2]
      · right
        exact ⟨0, _, _, hgt l, rfl, rfl, hi, h1⟩
    · right
      exact ⟨j + 1, u, v, hh, by simpa [steps, transcript] using h1,
        by simpa [steps, transcript] using h2, h3⟩

/-- A lemma of the right length splits into item, siblings and root. -/
theorem lemma_split {b : Nat} {l : List E} {n : Nat} (h : l.length = 2 + (b - 1) * n) :
    ∃ x mid r, l = x :: mid ++ [r] ∧ mid.length = n * (b - 1) := by
  obtain ⟨x, l', rfl⟩ : ∃ x l', l = x :: l' := by
    cases l with
    | nil => simp at h; omega
    | cons x l' => exact ⟨x, l', rfl⟩
  have hne : l' ≠ [] := by
    intro hc; subst hc; simp at h; omega
  refine ⟨x, l'.dropLast, l'.getLast hne, ?_, ?_⟩
  · rw [List.cons_append, List.dropLast_concat_getLast hne]
  · simp at h ⊢; rw [Nat.mul_comm n]; omega

theorem steps_append {b : Nat} (r : List E) : ∀ (ps : List Nat) (m : List E),
    m.length = ps.length * (b - 1) → steps b ps (m ++ r) = steps b ps m := by
  intro ps
  induction ps with
  | nil => intros; rfl
  | cons p ps ih =>
    intro m hm
    have : (p :: ps).length * (b - 1) = ps.length * (b - 1) + (b - 1) := by simp [Nat.add_mul]
    rw [this] at hm
    simp only [steps]
    rw [List.take_append_of_le_length (by omega), List.drop_append_of_le_length (by omega), ih]
    simp; omega

theorem Proof.root_split (t n : Nat) (x r : E) (m : List E) (path : List Nat) :
    (Proof.base t n (x :: m ++ [r]) path).root = .ok r := by
  have hl : (x :: m ++ [r]).getLast? = some r := by rw [List.getLast?_append]; simp
  simp only [Proof.root, Proof.lem, hl]

theorem C16_aux [DecidableEq E] (A : Alg E) (hA : A.LawfulReset) (b : Nat)
    (l₁ l₂ : List E) (path : List Nat) (p q : Proof E)
    (hp : Proof.new b 0 0 none l₁ path = .ok p) (hq : Proof.new b 0 0 none l₂ path = .ok q)
    (vp : p.validate A b = .ok true) (vq : q.validate A b = .ok true) (hr : p.root = q.root) :
    (l₁ = l₂ ∧ p.item = q.item) ∨
      Collision A.nodeHash (baseTranscript A.nodeHash b l₁ path)
        (baseTranscript A.nodeHash b l₂ path) := by
  obtain ⟨hb, _, e1, rfl⟩ := Proof.new_base_ok hp
  obtain ⟨_, _, e2, rfl⟩ := Proof.new_base_ok hq
  obtain ⟨x, m, r, rfl, hm⟩ := lemma_split e1
  obtain ⟨y, n, r', rfl, hn⟩ := lemma_split e2
  simp only [Proof.mk] at *
  rw [validateBase_spec A hA hb x r m path hm] at vp
  rw [validateBase_spec A hA hb y r' n path hn] at vq
  simp only [Except.ok.injEq, decide_eq_true_eq] at vp vq
  have hrr : r = r' := by
    rw [Proof.root_split, Proof.root_split] at hr
    exact Except.ok.inj hr
  subst hrr
  rcases climb_inj A.nodeHash (fun j => j * (b - 1)) path 0 x y m n vp.1 hm hn
    (vp.2.trans vq.2.symm) with ⟨h1, h2⟩ | h
  · left; subst h1 h2; exact ⟨rfl, rfl⟩
  · right
    simpa [baseTranscript, steps_append _ _ _ hm, steps_append _ _ _ hn] using h

/-- The validation loop returns for any algorithm, lawful or not. -/
theorem validateLoop_returns (A : Alg E) {b : Nat} (hb : 2 ≤ b) (l : List E)
    (path : List Nat) : ∀ (ps : List Nat) (f pi k : Nat) (a : A.σ) (h : E),
      path.drop pi = ps → ps.length < f → 1 + k * (b - 1) + ps.length * (b - 1) + 1 = l.length →
      ∃ o, Proof.validateLoop A b l path f (1 + k * (b - 1)) pi a h = .ok o ∧
        ((∃ p ∈ ps, b ≤ p) → o = none) := by
  intro ps
  induction ps with
  | nil =>
    intro f pi k a h _ hf hl
    obtain ⟨f, rfl⟩ : ∃ g, f = g + 1 := ⟨f - 1, by simp at hf; omega⟩
    have : ¬ (1 + k * (b - 1) < l.length - 1) := by simp at hl; omega
    rw [Proof.validateLoop, if_neg this]
    exact ⟨_, rfl, by simp⟩
  | cons p ps ih =>
    intro f pi k a h hd hf hl
    obtain ⟨f, rfl⟩ : ∃ g, f = g + 1 := ⟨f - 1, by simp at hf; omega⟩
    have hlen : (p :: ps).length * (b - 1) = ps.length * (b - 1) + (b - 1) := by
      simp [Nat.add_mul]
    rw [hlen] at hl
    have hi : 1 + k * (b - 1) < l.length - 1 := by omega
    have hpi : pi < path.length := by
      by_contra hc
      rw [List.drop_eq_nil_of_le (by omega)] at hd
      cases hd
    have hd' := hd
    rw [List.drop_eq_getElem_cons hpi] at hd'
    obtain ⟨hp, hd2⟩ := List.cons.inj hd'
    rw [Proof.validateLoop, if_pos hi]
    simp only [idxP_eq hpi, Res.ok_bind, hp]
    by_cases hpb : p < b
    · rw [gather_hit h p l _ b 0 0 (by omega) (by omega) (by omega), Res.ok_bind]
      have hcur : ¬ (0 + (b - 1) ≠ b - 1) := by omega
      simp only [hcur, ↓reduceIte]
      have hstep : 1 + k * (b - 1) + (b - 1) = 1 + (k + 1) * (b - 1) := by ring
      rw [hstep]
      obtain ⟨o, h1, h2⟩ := ih f (pi + 1) (k + 1)
        (A.multiNode (A.reset a) (insertAt (p - 0) h (List.take (b - 1)
          (List.drop (1 + k * (b - 1) + 0) l))) (1 + k * (b - 1) - 1)).2
        (A.multiNode (A.reset a) (insertAt (p - 0) h (List.take (b - 1)
          (List.drop (1 + k * (b - 1) + 0) l))) (1 + k * (b - 1) - 1)).1
        hd2 (by simp at hf; omega) (by rw [← hstep]; omega)
      refine ⟨o, h1, fun ⟨q, hq, hqb⟩ => h2 ?_⟩
      rcases List.mem_cons.1 hq with rfl | hq
      · omega
      · exact ⟨q, hq, hqb⟩
    · rw [gather_miss _ p l _ b 0 0 (by omega) (by omega), Res.ok_bind]
      have hcur : (0 + b ≠ b - 1) := by omega
      simp only [hcur, ↓reduceIte, ne_eq, not_false_eq_true]
      exact ⟨_, rfl, fun _ => rfl⟩

end Verif
