import Verif.Spec.Deque
import Verif.Lemmas.Res
/-! The parallel iterators. -/
namespace Verif
open Spec
variable {E : Type}

theorem segment_nil (f : Nat → E) (a b : Nat) (h : b ≤ a) : segment f a b = [] := by
  simp [segment, show b - a = 0 by omega]

theorem segment_cons (f : Nat → E) {a b : Nat} (h : a < b) :
    segment f a b = f a :: segment f (a + 1) b := by
  unfold segment
  rw [show b - a = (b - (a + 1)) + 1 by omega, List.range_succ_eq_map, List.map_cons, List.map_map]
  congr 1
  apply List.map_congr_left
  intro i _
  show f (a + (i + 1)) = _
  congr 1; omega

theorem segment_snoc (f : Nat → E) {a b : Nat} (h : a < b) :
    segment f a b = segment f a (b - 1) ++ [f (b - 1)] := by
  unfold segment
  rw [show b - a = (b - 1 - a) + 1 by omega, List.range_succ, List.map_append]
  congr 1
  simp only [List.map_cons, List.map_nil]
  congr 2; omega

theorem segment_append (f : Nat → E) {a b c : Nat} (h1 : a ≤ b) (h2 : b ≤ c) :
    segment f a b ++ segment f b c = segment f a c := by
  induction h2 with
  | refl => rw [segment_nil f b b (Nat.le_refl _), List.append_nil]
  | @step c hc ih =>
    have hbc : b ≤ c := hc
    rw [Nat.succ_eq_add_one, segment_snoc f (show b < c + 1 by omega),
      segment_snoc f (show a < c + 1 by omega), ← List.append_assoc, Nat.add_sub_cancel, ih]

theorem segment_zero (f : Nat → E) (n : Nat) : segment f 0 n = (List.range n).map f := by
  simp [segment]

namespace ParIter

theorem isDone_eq {a b : Nat} (h : a ≤ b) : (⟨a, b, false⟩ : ParIter).isDone = .ok (decide (b ≤ a)) := by
  unfold isDone len
  simp only [Bool.false_eq_true, ↓reduceIte]
  rw [subP_ok h, Res.ok_bind]
  congr 1
  rw [Bool.eq_iff_iff]
  simp only [beq_iff_eq, decide_eq_true_eq]
  omega

section
variable {rd : Nat → Res E} {f : Nat → E} {a b : Nat}

theorem next_done (rd : Nat → Res E) (a : Nat) :
    next rd ⟨a, a, false⟩ = .ok (none, ⟨a, a, false⟩) := by
  unfold next
  rw [isDone_eq (Nat.le_refl _), Res.ok_bind]
  simp

theorem next_ok (h : a < b) (hr : rd a = .ok (f a)) :
    next rd ⟨a, b, false⟩ = .ok (some (f a), ⟨a + 1, b, false⟩) := by
  unfold next
  rw [isDone_eq (Nat.le_of_lt h), Res.ok_bind]
  simp only [decide_eq_true_eq, show ¬ b ≤ a by omega, ↓reduceIte, hr]
  rfl

theorem nextBack_done (rd : Nat → Res E) (a : Nat) :
    nextBack rd ⟨a, a, false⟩ = .ok (none, ⟨a, a, false⟩) := by
  unfold nextBack
  rw [isDone_eq (Nat.le_refl _), Res.ok_bind]
  simp

theorem nextBack_ok (h : a < b) (hr : rd (b - 1) = .ok (f (b - 1))) :
    nextBack rd ⟨a, b, false⟩ = .ok (some (f (b - 1)), ⟨a, b - 1, false⟩) := by
  unfold nextBack
  rw [isDone_eq (Nat.le_of_lt h), Res.ok_bind]
  simp only [decide_eq_true_eq, show ¬ b ≤ a by omega, ↓reduceIte]
  rw [subP_ok (by omega), Res.ok_bind, hr]
  rfl

/-- Any sequence of `next` and `next_back` does what it does on the list of the elements. -/
theorem run_eq (ws : List End) : ∀ {a b : Nat}, a ≤ b → (∀ i, a ≤ i → i < b → rd i = .ok (f i)) →
    ∃ a' b', a ≤ a' ∧ a' ≤ b' ∧ b' ≤ b ∧
      run rd ws ⟨a, b, false⟩ = .ok (deque ws (segment f a b), ⟨a', b', false⟩) ∧
      dequeRest ws (segment f a b) = segment f a' b' := by
  induction ws with
  | nil => exact fun {a b} h _ => ⟨a, b, Nat.le_refl _, h, Nat.le_refl _, rfl, rfl⟩
  | cons w ws ih =>
    intro a b h hr
    rcases Nat.eq_or_lt_of_le h with rfl | hlt
    · obtain ⟨a', b', h1, h2, h3, h4, h5⟩ := ih h hr
      refine ⟨a', b', h1, h2, h3, ?_, ?_⟩
      · unfold run
        cases w
        · show (next rd _ >>= _) = _
          rw [next_done, Res.ok_bind]
          dsimp only
          rw [h4, Res.ok_bind]
          simp [deque, segment_nil f a a (Nat.le_refl _)]
        · show (nextBack rd _ >>= _) = _
          rw [nextBack_done, Res.ok_bind]
          dsimp only
          rw [h4, Res.ok_bind]
          simp [deque, segment_nil f a a (Nat.le_refl _)]
      · cases w <;> simpa [dequeRest, segment_nil f a a (Nat.le_refl _)] using h5
    · cases w
      · obtain ⟨a', b', h1, h2, h3, h4, h5⟩ := ih (a := a + 1) (b := b) hlt (fun i h1 h2 =>
          hr i (by omega) h2)
        refine ⟨a', b', by omega, h2, h3, ?_, ?_⟩
        · unfold run
          show (next rd _ >>= _) = _
          rw [next_ok hlt (hr a (Nat.le_refl _) hlt), Res.ok_bind]
          dsimp only
          rw [h4, Res.ok_bind, segment_cons f hlt]
          rfl
        · rw [segment_cons f hlt]; exact h5
      · obtain ⟨a', b', h1, h2, h3, h4, h5⟩ := ih (a := a) (b := b - 1) (by omega) (fun i h1 h2 =>
          hr i h1 (by omega))
        refine ⟨a', b', h1, h2, by omega, ?_, ?_⟩
        · unfold run
          show (nextBack rd _ >>= _) = _
          rw [nextBack_ok hlt (hr (b - 1) (by omega) (by omega)), Res.ok_bind]
          dsimp only
          rw [h4, Res.ok_bind, segment_snoc f hlt]
          simp [deque]
        · rw [segment_snoc f hlt]
          simpa [dequeRest] using h5

theorem collect_eq : ∀ (n : Nat) {a b : Nat}, a ≤ b → b - a < n →
    (∀ i, a ≤ i → i < b → rd i = .ok (f i)) →
    collect rd n ⟨a, b, false⟩ = .ok (segment f a b)
  | 0, _, _, _, h, _ => by omega
  | n + 1, a, b, h, hn, hr => by
    unfold collect
    rcases Nat.eq_or_lt_of_le h with rfl | hlt
    · rw [next_done, Res.ok_bind, segment_nil f a a (Nat.le_refl _)]
    · rw [next_ok hlt (hr a (Nat.le_refl _) hlt), Res.ok_bind]
      dsimp only
      rw [collect_eq n hlt (by omega) (fun i h1 h2 => hr i (by omega) h2), Res.ok_bind, segment_cons f hlt]

/-- A read error ends the iteration. -/
theorem collect_err {j : Nat} (hj : Res.IsErr (rd j)) : ∀ (n : Nat) {a b : Nat}, a ≤ j → j < b →
    j - a < n → (∀ i, a ≤ i → i < j → rd i = .ok (f i)) →
    collect rd n ⟨a, b, false⟩ = .ok (segment f a j)
  | 0, _, _, _, _, h, _ => by omega
  | n + 1, a, b, h, hb, hn, hr => by
    unfold collect
    rcases Nat.eq_or_lt_of_le h with rfl | hlt
    · obtain ⟨m, hm⟩ := hj
      have : next rd ⟨a, b, false⟩ = .ok (none, ⟨a, b, true⟩) := by
        unfold next
        rw [isDone_eq (Nat.le_of_lt hb), Res.ok_bind]
        simp only [decide_eq_true_eq, show ¬ b ≤ a by omega, ↓reduceIte, hm]
        rfl
      rw [this, Res.ok_bind, segment_nil f a a (Nat.le_refl _)]
    · rw [next_ok (by omega) (hr a (Nat.le_refl _) hlt), Res.ok_bind]
      dsimp only
      rw [collect_err hj n (by omega) hb (by omega) (fun i h1 h2 => hr i (by omega) h2), Res.ok_bind,
        segment_cons f hlt]

end
end ParIter

/-- The pieces of a producer cover it, in order. -/
theorem SplitTree.pieces_ok (f : Nat → E) (t : SplitTree) : ∀ {a b : Nat}, a ≤ b →
    ∃ ps, t.pieces ⟨a, b⟩ = .ok ps ∧ (∀ p ∈ ps, p.current ≤ p.stop ∧
        (p.current < p.stop → a ≤ p.current ∧ p.stop ≤ b)) ∧
      ps.flatMap (fun p => segment f p.current p.stop) = segment f a b := by
  induction t with
  | leaf =>
    intro a b h
    exact ⟨[⟨a, b⟩], rfl, by simp [h], by simp⟩
  | node i l r ihl ihr =>
    intro a b h
    rcases Nat.eq_or_lt_of_le h with rfl | hlt
    · obtain ⟨ps, h1, h2, h3⟩ := ihl (Nat.le_refl 0)
      obtain ⟨qs, g1, g2, g3⟩ := ihr (Nat.le_refl 0)
      refine ⟨ps ++ qs, ?_, ?_, ?_⟩
      · unfold pieces ParProducer.splitAt ParProducer.len
        rw [subP_ok h, Res.ok_bind, Nat.sub_self, if_pos rfl, Res.ok_bind]
        dsimp only
        rw [h1, Res.ok_bind, g1, Res.ok_bind]
      · intro p hp
        rcases List.mem_append.1 hp with hp | hp
        · exact ⟨(h2 p hp).1, fun hl => by have := (h2 p hp).2 hl; omega⟩
        · exact ⟨(g2 p hp).1, fun hl => by have := (g2 p hp).2 hl; omega⟩
      · rw [List.flatMap_append, h3, g3, segment_nil f 0 0 (Nat.le_refl _),
          segment_nil f a a (Nat.le_refl _)]
        rfl
    · have hm : a + min (b - a) i ≤ b := by omega
      obtain ⟨ps, h1, h2, h3⟩ := ihl (show a ≤ a + min (b - a) i by omega)
      obtain ⟨qs, g1, g2, g3⟩ := ihr hm
      refine ⟨ps ++ qs, ?_, ?_, ?_⟩
      · unfold pieces ParProducer.splitAt ParProducer.len
        rw [subP_ok h, Res.ok_bind, if_neg (by omega)]
        dsimp only
        rw [Res.ok_bind]
        dsimp only
        rw [h1, Res.ok_bind, show a + (b - a) = b by omega, g1, Res.ok_bind]
      · intro p hp
        rcases List.mem_append.1 hp with hp | hp
        · exact ⟨(h2 p hp).1, fun hl => by have := (h2 p hp).2 hl; omega⟩
        · exact ⟨(g2 p hp).1, fun hl => by have := (g2 p hp).2 hl; omega⟩
      · rw [List.flatMap_append, h3, g3, segment_append f (by omega) hm]

theorem ParProducer.splitAt_ok {a b i : Nat} (h : a ≤ b) (hi : i ≤ b - a) :
    ∃ p q : ParProducer, ParProducer.splitAt ⟨a, b⟩ i = .ok (p, q) ∧ p.current ≤ p.stop ∧ q.current ≤ q.stop ∧
      p.stop = p.current + i ∧ q.stop = q.current + (b - a - i) ∧
      ((p = ⟨0, 0⟩ ∧ q = ⟨0, 0⟩ ∧ a = b) ∨ (p.current = a ∧ p.stop = a + i ∧ q.current = a + i ∧ q.stop = b)) := by
  unfold splitAt len
  rw [subP_ok h, Res.ok_bind]
  by_cases h0 : b - a = 0
  · rw [if_pos h0]
    exact ⟨_, _, rfl, Nat.le_refl _, Nat.le_refl _, by dsimp only; omega, by dsimp only; omega, .inl ⟨rfl, rfl, by omega⟩⟩
  · rw [if_neg h0]
    refine ⟨_, _, rfl, ?_, ?_, ?_, ?_, .inr ⟨?_, ?_, ?_, ?_⟩⟩ <;> dsimp only <;> omega

/-- The pieces of a producer are where rayon counts them to be. -/
theorem SplitTree.pieces_offsets (f : Nat → E) (t : SplitTree) : ∀ {a b : Nat}, a ≤ b → t.Fits (b - a) →
    ∃ ps, t.pieces ⟨a, b⟩ = .ok ps ∧ ps.length = (t.offsets 0).length ∧
      ∀ o, ((t.offsets o).zip (ps.map fun p => segment f p.current p.stop)).flatMap (fun x => x.2.zipIdx x.1)
        = (segment f a b).zipIdx o := by
  have hoff : ∀ (t : SplitTree) o o', (t.offsets o).length = (t.offsets o').length := by
    intro t
    induction t with
    | leaf => intro _ _; rfl
    | node i l r ihl ihr => intro o o'; simp only [offsets, List.length_append, ihl o o', ihr (o + i) (o' + i)]
  induction t with
  | leaf =>
    intro a b _ _
    exact ⟨[⟨a, b⟩], rfl, rfl, fun o => by simp [offsets]⟩
  | node i l r ihl ihr =>
    intro a b h hf
    obtain ⟨hi, hl, hr⟩ := hf
    obtain ⟨p, q, e, p1, q1, p2, q2, hpq⟩ := ParProducer.splitAt_ok h hi
    obtain ⟨ps, h1, h2, h3⟩ := ihl p1 (by rw [show p.stop - p.current = i by omega]; exact hl)
    obtain ⟨qs, g1, g2, g3⟩ := ihr q1 (by rw [show q.stop - q.current = b - a - i by omega]; exact hr)
    refine ⟨ps ++ qs, ?_, ?_, fun o => ?_⟩
    · unfold pieces
      rw [e, Res.ok_bind]
      dsimp only
      rw [show l.pieces p = .ok ps from h1, Res.ok_bind, show r.pieces q = .ok qs from g1, Res.ok_bind]
    · rw [List.length_append, h2, g2, offsets, List.length_append, hoff r 0 (0 + i)]
    · rw [offsets, List.map_append, List.zip_append (by rw [List.length_map, h2, hoff]), List.flatMap_append, h3, g3]
      rcases hpq with ⟨rfl, rfl, rfl⟩ | ⟨w1, w2, w3, w4⟩
      · simp [segment_nil]
      · rw [w1, w2, w3, w4, ← segment_append f (show a ≤ a + i by omega) (show a + i ≤ b by omega), List.zipIdx_append]
        congr 2
        simp [segment]

/-! ### Lists consumed from both ends -/

theorem takenFrom_cons (w : ParIter.End) (v : ParIter.End) (ws : List ParIter.End) (o : Option E)
    (os : List (Option E)) :
    takenFrom w (v :: ws) (o :: os) = (if v = w then o.toList else []) ++ takenFrom w ws os := by
  unfold takenFrom
  rw [List.zip_cons_cons, List.filterMap_cons]
  by_cases h : v = w
  · simp only [h, if_true]
    cases o <;> rfl
  · simp [h]

/-- What was taken from the front, what is left, and what was taken from the back make up the list. -/
theorem deque_parts (ws : List ParIter.End) : ∀ xs : List E,
    takenFrom .front ws (deque ws xs) ++ dequeRest ws xs ++ (takenFrom .back ws (deque ws xs)).reverse
      = xs := by
  induction ws with
  | nil => intro xs; simp [takenFrom, deque, dequeRest]
  | cons w ws ih =>
    intro xs
    cases w
    · rw [deque, dequeRest, takenFrom_cons, takenFrom_cons]
      simp only [↓reduceIte, reduceCtorEq, List.nil_append]
      rw [List.append_assoc, List.append_assoc, ← List.append_assoc (takenFrom _ _ _), ih]
      cases xs <;> rfl
    · rw [deque, dequeRest, takenFrom_cons, takenFrom_cons]
      simp only [↓reduceIte, reduceCtorEq, List.nil_append, List.reverse_append]
      rw [← List.append_assoc, ih]
      rcases List.eq_nil_or_concat xs with rfl | ⟨ys, y, rfl⟩ <;> simp

theorem dequeRest_length (ws : List ParIter.End) : ∀ xs : List E,
    (dequeRest ws xs).length = xs.length - ws.length := by
  induction ws with
  | nil => intro xs; rfl
  | cons w ws ih =>
    intro xs
    cases w <;> rw [dequeRest, ih] <;> simp <;> omega

end Verif
