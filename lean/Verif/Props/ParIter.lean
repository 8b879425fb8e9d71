import Verif.Lemmas.ParIter
import Verif.Lemmas.StoreArray
import Verif.Spec.Source
import Verif.Spec.Toy
/-! Property C41: the parallel iterators of `VecStore` and `DiskStore`. -/
namespace Verif
open Spec StoreOps
open ParIter (End)

section
variable {S E : Type} [StoreOps S E] {fs : FS} {s : S} {f : Nat → E}

/-- **C41.** However rayon splits the parallel iterator of a store whose elements can be read,
iterating over the pieces one after the other gives the store's elements in order. -/
theorem C41_split (hr : ∀ i, i < len (E := E) s → readAt fs s i = .ok (f i)) (t : SplitTree)
    {fuel : Nat} (hf : len (E := E) s < fuel) :
    ∃ ps ess, t.pieces (.ofStore s) = .ok ps ∧
      ps.mapM (fun p => p.intoIter.collect (readAt fs s) fuel) = .ok ess ∧
      ess.flatten = (List.range (len (E := E) s)).map f := by
  obtain ⟨ps, h1, h2, h3⟩ := t.pieces_ok f (Nat.zero_le (len (E := E) s))
  refine ⟨ps, ps.map fun p => segment f p.current p.stop, h1, ?_, ?_⟩
  · refine mapM_ok _ _ _ fun p hp => ?_
    obtain ⟨g1, g2⟩ := h2 p hp
    by_cases hlt : p.current < p.stop
    · exact ParIter.collect_eq fuel g1 (by have := g2 hlt; omega) fun i _ hi => hr i (by have := g2 hlt; omega)
    · exact ParIter.collect_eq fuel g1 (by omega) fun i _ hi => by omega
  · rw [← List.flatMap_def, h3, segment_zero]

/-- **C41.** Each piece may be consumed from both ends, in any order `w p` of `next` and `next_back`: the
calls return what taking elements from the two ends of a list returns.  If there are enough calls,
then what came from the front, followed by what came from the back in reverse, is the piece; and
over all the pieces these are the store's elements in order. -/
theorem C41_both_ends (hr : ∀ i, i < len (E := E) s → readAt fs s i = .ok (f i)) (t : SplitTree)
    (w : ParProducer → List End) :
    ∃ ps, t.pieces (.ofStore s) = .ok ps ∧
      (∀ p ∈ ps, ∃ it, p.intoIter.run (readAt fs s) (w p)
        = .ok (deque (w p) (segment f p.current p.stop), it)) ∧
      ((∀ p ∈ ps, p.stop - p.current ≤ (w p).length) →
        ∃ oss : List (List (Option E) × ParIter),
          ps.mapM (fun p => p.intoIter.run (readAt fs s) (w p)) = .ok oss ∧
          ((ps.zip oss).flatMap fun x => takenFrom .front (w x.1) x.2.1
            ++ (takenFrom .back (w x.1) x.2.1).reverse) = (List.range (len (E := E) s)).map f) := by
  obtain ⟨ps, h1, h2, h3⟩ := t.pieces_ok f (Nat.zero_le (len (E := E) s))
  have hrun : ∀ p ∈ ps, ∃ it, p.intoIter.run (readAt fs s) (w p)
      = .ok (deque (w p) (segment f p.current p.stop), it) := by
    intro p hp
    obtain ⟨g1, g2⟩ := h2 p hp
    obtain ⟨a', b', _, _, _, h, _⟩ := ParIter.run_eq (rd := readAt fs s) (f := f) (w p) g1 (by
      intro i hi1 hi2
      exact hr i (by have := g2 (by omega); omega))
    exact ⟨_, h⟩
  refine ⟨ps, h1, hrun, fun hw => ?_⟩
  rw [← segment_zero, ← h3]
  clear h1 h2 h3
  induction ps with
  | nil => exact ⟨[], rfl, rfl⟩
  | cons p ps ih =>
    obtain ⟨oss, g1, g2⟩ := ih (fun q hq => hrun q (List.mem_cons_of_mem _ hq))
      (fun q hq => hw q (List.mem_cons_of_mem _ hq))
    obtain ⟨it, hit⟩ := hrun p List.mem_cons_self
    refine ⟨(deque (w p) (segment f p.current p.stop), it) :: oss, ?_, ?_⟩
    · rw [List.mapM_cons, hit, Res.ok_bind, g1, Res.ok_bind]
      rfl
    · rw [List.zip_cons_cons, List.flatMap_cons, g2, List.flatMap_cons]
      congr 1
      dsimp only
      have hd := deque_parts (w p) (segment f p.current p.stop)
      rw [show dequeRest (w p) (segment f p.current p.stop) = [] by
        apply List.eq_nil_of_length_eq_zero
        rw [dequeRest_length]
        have := hw p List.mem_cons_self
        simp [segment]; omega, List.append_nil] at hd
      exact hd

/-- **C41**, the contract of `split_at` that rayon goes by: the left producer has exactly the first `i` elements, the
right one the others, and both know how many that is. -/
theorem C41_split_at {rd : Nat → Res E} {p : ParProducer} (hp : p.current ≤ p.stop) {i : Nat}
    (hi : i ≤ p.stop - p.current) (hr : ∀ j, p.current ≤ j → j < p.stop → rd j = .ok (f j))
    {fuel : Nat} (hf : p.stop - p.current < fuel) :
    ∃ q r es, p.splitAt i = .ok (q, r) ∧ q.len = .ok i ∧ r.len = .ok (p.stop - p.current - i) ∧
      p.intoIter.collect rd fuel = .ok es ∧ q.intoIter.collect rd fuel = .ok (es.take i) ∧
      r.intoIter.collect rd fuel = .ok (es.drop i) := by
  obtain ⟨a, b⟩ := p
  dsimp only at hp hi hr hf
  obtain ⟨q, r, e, q1, r1, q2, r2, h⟩ := ParProducer.splitAt_ok hp hi
  refine ⟨q, r, segment f a b, e, ?_, ?_, ParIter.collect_eq fuel hp hf hr, ?_, ?_⟩
  · rw [ParProducer.len, subP_ok q1]
    congr 1; omega
  · rw [ParProducer.len, subP_ok r1]
    congr 1
    show r.stop - r.current = b - a - i
    omega
  · have hs : segment f q.current q.stop = (segment f a b).take i := by
      rcases h with ⟨rfl, rfl, rfl⟩ | ⟨w1, w2, -, -⟩
      · simp [segment]
      · rw [w1, w2, ← segment_append f (show a ≤ a + i by omega) (show a + i ≤ b by omega), List.take_left']
        simp [segment]
    rw [← hs]
    refine ParIter.collect_eq fuel q1 (by omega) fun j h1 h2 => ?_
    rcases h with ⟨rfl, rfl, rfl⟩ | ⟨w1, w2, -, -⟩
    · simp at h2
    · exact hr j (by omega) (by omega)
  · have hs : segment f r.current r.stop = (segment f a b).drop i := by
      rcases h with ⟨rfl, rfl, rfl⟩ | ⟨-, -, w1, w2⟩
      · simp [segment]
      · rw [w1, w2, ← segment_append f (show a ≤ a + i by omega) (show a + i ≤ b by omega), List.drop_left']
        simp [segment]
    rw [← hs]
    refine ParIter.collect_eq fuel r1 (by omega) fun j h1 h2 => ?_
    rcases h with ⟨rfl, rfl, rfl⟩ | ⟨-, -, w1, w2⟩
    · simp at h2
    · exact hr j (by omega) (by omega)

/-- **C41**, positions.  However rayon splits the iterator of a store (at indices within the pieces), every piece holds
the elements from the index on that rayon takes it to begin at, so `enumerate`, `chunks`, `zip` and `collect` give every
element its index in the store. -/
theorem C41_indexed (hr : ∀ i, i < len (E := E) s → readAt fs s i = .ok (f i)) {t : SplitTree}
    (ht : t.Fits (len (E := E) s)) {fuel : Nat} (hf : len (E := E) s < fuel) :
    ∃ ps ess, t.pieces (.ofStore s) = .ok ps ∧ ps.length = (t.offsets 0).length ∧
      ps.mapM (fun p => p.intoIter.collect (readAt fs s) fuel) = .ok ess ∧
      ((t.offsets 0).zip ess).flatMap (fun x => x.2.zipIdx x.1)
        = (List.range (len (E := E) s)).map fun i => (f i, i) := by
  obtain ⟨ps, h1, h2, -⟩ := t.pieces_ok f (Nat.zero_le (len (E := E) s))
  obtain ⟨qs, g1, g2, g3⟩ := t.pieces_offsets f (Nat.zero_le (len (E := E) s)) (by simpa using ht)
  obtain rfl : ps = qs := by rw [h1] at g1; exact Except.ok.inj g1
  refine ⟨ps, ps.map fun p => segment f p.current p.stop, h1, g2, ?_, ?_⟩
  · refine mapM_ok _ _ _ fun p hp => ?_
    obtain ⟨g1, g2⟩ := h2 p hp
    by_cases hlt : p.current < p.stop
    · exact ParIter.collect_eq fuel g1 (by have := g2 hlt; omega) fun i _ hi => hr i (by have := g2 hlt; omega)
    · exact ParIter.collect_eq fuel g1 (by omega) fun i _ hi => by omega
  · rw [g3 0, segment_zero]
    apply List.ext_getElem
    · simp
    · intro i _ _
      simp

/-- **C41**, `ExactSizeIterator`: at any time `len` of the iterator of a piece is the number of elements it still
gives. -/
theorem C41_exact_size {rd : Nat → Res E} {p : ParProducer} (hp : p.current ≤ p.stop)
    (hr : ∀ j, p.current ≤ j → j < p.stop → rd j = .ok (f j)) (w : List End) :
    ∃ it, p.intoIter.run rd w = .ok (deque w (segment f p.current p.stop), it) ∧
      it.len = .ok (p.stop - p.current - w.length) := by
  obtain ⟨a', b', h1, h2, h3, h4, h5⟩ := ParIter.run_eq (rd := rd) (f := f) w hp hr
  refine ⟨_, h4, ?_⟩
  have hl := congrArg List.length h5
  rw [dequeRest_length] at hl
  simp only [segment, List.length_map, List.length_range] at hl
  rw [ParIter.len, subP_ok h2]
  congr 1
  omega

/-- What the iterator does with a read error: the elements from there on are left out, and nothing
reports it (C41 is about stores that can be read). -/
theorem C41_read_error {j : Nat} (hj : Res.IsErr (readAt (E := E) fs s j))
    (hr : ∀ i, i < j → readAt fs s i = .ok (f i)) (h : j < len (E := E) s) {fuel : Nat} (hf : j < fuel) :
    (ParProducer.ofStore (E := E) s).intoIter.collect (readAt fs s) fuel = .ok ((List.range j).map f) := by
  rw [← segment_zero]
  exact ParIter.collect_err (f := f) hj fuel (Nat.zero_le _) h (by omega) fun i _ hi => hr i hi

end

section
variable {E : Type} [Element E]

/-- **C41** for `VecStore`, whatever it holds. -/
theorem C41_vec [FloatRows] (fs : FS) (s : VecStore E) (t : SplitTree) {fuel : Nat}
    (hf : s.els.length < fuel) :
    ∃ ps ess, t.pieces (.ofStore s) = .ok ps ∧
      ps.mapM (fun p => p.intoIter.collect (readAt fs s) fuel) = .ok ess ∧ ess.flatten = s.els := by
  obtain ⟨ps, ess, h1, h2, h3⟩ := C41_split (s := s) (fs := fs)
    (f := fun i => s.els.getD i Element.default) (fun i hi => by
      show idxP s.els i = _
      have hi : i < s.els.length := hi
      unfold idxP
      rw [List.getElem?_eq_getElem hi]
      simp [hi]) t hf
  exact ⟨ps, ess, h1, h2, h3.trans (list_eq_map_range s.els Element.default).symm⟩

omit [Element E] in
/-- **C41** for the store of a finished tree (in the crate: over `VecStore` or `DiskStore`): the pieces
together give the nodes of the tree, first all leaves. -/
theorem C41_tree {S : Type} [StoreOps S E] {A : Alg E} {b k : Nat} {leaves : List E} {fs : FS}
    {t : BaseTree S E} (ht : t.IsTreeOf A b k leaves fs) (sp : SplitTree) {fuel : Nat}
    (hf : nodes b k < fuel) :
    ∃ ps ess, sp.pieces (.ofStore t.store) = .ok ps ∧
      ps.mapM (fun p => p.intoIter.collect (readAt fs t.store) fuel) = .ok ess ∧
      ∃ f, IsLayout A.nodeHash b k leaves f ∧ ess.flatten = (List.range (nodes b k)).map f := by
  obtain ⟨f, h1, h2, _⟩ := ht.nodes
  have hl : len (E := E) t.store = nodes b k := ht.len
  obtain ⟨ps, ess, g1, g2, g3⟩ := C41_split (s := t.store) (fs := fs) (f := f)
    (fun i hi => h2 i (by rw [← hl]; exact hi)) sp (by rw [hl]; exact hf)
  exact ⟨ps, ess, g1, g2, f, h1, by rw [g3, hl]⟩

end

-- C41_indexed: splitting off three, and one of these
example : (SplitTree.node 3 (.node 1 .leaf .leaf) .leaf).Fits 4 ∧
    (SplitTree.node 3 (.node 1 .leaf .leaf) .leaf).offsets 0 = [0, 1, 3] :=
  ⟨⟨by decide, ⟨by decide, trivial, trivial⟩, trivial⟩, rfl⟩

/-! Concrete instances: an array of four elements, split at 3 and then at 1. -/
section

def parReads : Nat → Res Nat := fun i => if i < 4 then .ok (10 * i) else .error (.err "past the end")
example : (SplitTree.node 3 (.node 1 .leaf .leaf) .leaf).pieces ⟨0, 4⟩
    = .ok [⟨0, 1⟩, ⟨1, 3⟩, ⟨3, 4⟩] := by decide
example : (⟨0, 4, false⟩ : ParIter).run parReads [.back, .front, .front, .back, .front, .back]
    = .ok ([some 30, some 0, some 10, some 20, none, none], ⟨2, 2, false⟩) := by decide
example : (⟨0, 4, false⟩ : ParIter).collect parReads 5 = .ok [0, 10, 20, 30] := by decide

/-- Beside C41: if one read of the piece `0, 1` fails and later ones succeed (a passing I/O error), the
iterator forgets its end.  It goes on into the elements of the next piece, and asking for its length
panics. -/
theorem C41_passing_error_refuted :
    (⟨0, 2, false⟩ : ParIter).nextBack (fun _ => (.error (.err "I/O error") : Res Nat))
      = .ok (none, ⟨0, 2, true⟩) ∧
    (⟨0, 2, true⟩ : ParIter).run parReads [.front, .front, .front, .front]
      = .ok ([some 0, some 10, some 20, some 30], ⟨4, 2, true⟩) ∧
    (⟨4, 2, true⟩ : ParIter).len = .error (.panic "attempt to subtract with overflow") := by decide

end
end Verif
