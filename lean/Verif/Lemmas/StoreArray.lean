import Verif.Spec.Array
import Verif.Lemmas.Construct
import Mathlib.Data.List.Forall2
/-! Stores against the plain array; range reads against single reads. -/
set_option linter.unusedSectionVars false
namespace Verif
open Spec StoreOps

theorem mapM_some_iff {α β : Type} {f : α → Option β} : ∀ {xs : List α} {ys : List β},
    xs.mapM f = some ys ↔ List.Forall₂ (fun x y => f x = some y) xs ys
  | [], ys => by
    rw [List.mapM_nil]
    constructor
    · intro h; cases h; exact .nil
    · intro h; cases h; rfl
  | x :: xs, ys => by
    rw [List.mapM_cons]
    simp only [bind, Option.bind_eq_some_iff, pure, Option.some.injEq]
    constructor
    · rintro ⟨y, hy, zs, hz, rfl⟩
      exact .cons hy (mapM_some_iff.1 hz)
    · intro h
      cases h with
      | cons h1 h2 => exact ⟨_, h1, _, mapM_some_iff.2 h2, rfl⟩

section generic
variable {S E : Type} [Element E] [LawfulElement E] [Store S E] [LawfulStore S E]
open LawfulWrite LawfulRead

/-- Pushing is writing at the end. -/
def PushLaw (S : Type) {E : Type} [Element E] [Store S E] [LawfulStore S E] : Prop :=
  ∀ (fs : FS) (s : S) (cap : Nat) (e : E), LawfulWrite.Inv fs s cap → len (E := E) s < cap →
    push s e fs = writeAt s e (len (E := E) s) fs

/-- The store is in the state of the array. -/
structure Agrees (fs : FS) (s : S) (cap : Nat) (a : Arr E) : Prop where
  inv : Inv fs s cap
  len_eq : len (E := E) s = a.len
  vals : ∀ i e, a.slot i = some e → holds fs s i e

theorem Agrees.copy {fs : FS} {s : S} {cap : Nat} {a : Arr E} (h : Agrees fs s cap a)
    (es : List E) {start : Nat} (hc : start + es.length ≤ cap) :
    ∃ s' fs', copyFromSlice s (encodeAll es) start fs = (.ok s', fs') ∧
      Agrees fs' s' cap (a.put start es) := by
  obtain ⟨s', fs', h1, h2, h3, h4, h5, _⟩ := LawfulWrite.copy es h.inv hc
  refine ⟨s', fs', h1, h2, by rw [h3, h.len_eq]; rfl, ?_⟩
  intro i e he
  simp only [Arr.put] at he
  split at he
  · rename_i hi
    obtain ⟨hl, rfl⟩ := List.getElem?_eq_some_iff.1 he
    have := h4 (i - start) hl
    rwa [show start + (i - start) = i by omega] at this
  · exact h5 i e (by omega) (h.vals i e he)

theorem Agrees.write {fs : FS} {s : S} {cap : Nat} {a : Arr E} (h : Agrees fs s cap a)
    (e : E) {i : Nat} (hc : i < cap) :
    ∃ s' fs', writeAt s e i fs = (.ok s', fs') ∧ Agrees fs' s' cap (a.put i [e]) := by
  obtain ⟨s', fs', h1, h2, h3, h4, h5, _⟩ := LawfulWrite.write e h.inv hc
  refine ⟨s', fs', h1, h2, by rw [h3, h.len_eq]; rfl, ?_⟩
  intro j e' he
  simp only [Arr.put, List.length_singleton] at he
  split at he
  · rename_i hi
    have : j = i := by omega
    subst this
    simp at he
    exact he ▸ h4
  · exact h5 j e' (by omega) (h.vals j e' he)

theorem Agrees.step (hp : PushLaw S (E := E)) {fs : FS} {s : S} {cap : Nat} {a a' : Arr E}
    (h : Agrees fs s cap a) (op : StoreOp E) {o : StoreObs E} (ho : a.step cap op = some (o, a')) :
    ∃ s' fs', op.run s fs = (.ok (o, s'), fs') ∧ Agrees fs' s' cap a' := by
  cases op with
  | write e i =>
    simp only [Arr.step] at ho
    split at ho
    · rename_i hc
      cases ho
      obtain ⟨s', fs', h1, h2⟩ := h.write e hc
      exact ⟨s', fs', M.bind_ok h1, h2⟩
    · cases ho
  | copy es start =>
    simp only [Arr.step] at ho
    split at ho
    · rename_i hc
      cases ho
      obtain ⟨s', fs', h1, h2⟩ := h.copy es hc
      exact ⟨s', fs', M.bind_ok h1, h2⟩
    · cases ho
  | push e =>
    simp only [Arr.step] at ho
    split at ho
    · rename_i hc
      cases ho
      obtain ⟨s', fs', h1, h2⟩ := h.write e hc
      refine ⟨s', fs', M.bind_ok (Eq.trans (hp fs s cap e h.inv (by rw [h.len_eq]; exact hc)) ?_), h2⟩
      rw [h.len_eq]; exact h1
    · cases ho
  | read i =>
    simp only [Arr.step] at ho
    split at ho
    · rename_i hc
      cases hs : a.slot i with
      | none => rw [hs] at ho; cases ho
      | some e =>
        rw [hs] at ho; cases ho
        refine ⟨s, fs, M.bind_ok (a := e) (fs' := fs) ?_, h⟩
        exact congrArg (·, fs) (readAt_ok h.inv (by rw [h.len_eq]; exact hc) (h.vals i e hs))
    · cases ho
  | range x y =>
    simp only [Arr.step] at ho
    split at ho
    · rename_i hc
      rw [Option.map_eq_some_iff] at ho
      obtain ⟨es, hes, ho⟩ := ho
      cases ho
      rw [mapM_some_iff] at hes
      have hlen : es.length = y - x := by
        have := hes.length_eq; simpa using this.symm
      have hslot : ∀ c (hc : c < es.length), a.slot (x + c) = some es[c] := by
        intro c hc
        have := List.Forall₂.get hes (i := c) (by simp; omega) hc
        simpa using this
      refine ⟨s, fs, M.bind_ok (a := es) (fs' := fs) ?_, h⟩
      have hne : es ≠ [] := by intro h0; simp [h0] at hlen; omega
      have := readRange_ok (a := x) (m := y - x) (g := fun i => es.getD (i - x) es[0]) h.inv
        (by omega) (by rw [h.len_eq]; omega) (by
          intro i h1 h2
          have hi : i - x < es.length := by omega
          have := h.vals _ _ (hslot (i - x) hi)
          rw [show x + (i - x) = i by omega] at this
          rwa [getD_of_lt hi])
      rw [show x + (y - x) = y by omega] at this
      refine congrArg (·, fs) (this.trans (congrArg _ ?_))
      apply List.ext_getElem
      · simp [hlen]
      · intro i h1 h2
        simp [h2]
    · cases ho
  | len =>
    simp only [Arr.step, Option.some.injEq, Prod.mk.injEq] at ho
    obtain ⟨rfl, rfl⟩ := ho
    exact ⟨s, fs, by rw [← h.len_eq]; rfl, h⟩

theorem Agrees.runAll (hp : PushLaw S (E := E)) : ∀ (ops : List (StoreOp E)) {fs : FS} {s : S}
    {cap : Nat} {a a' : Arr E} {os : List (StoreObs E)}, Agrees fs s cap a →
    a.run cap ops = some (os, a') →
    ∃ s' fs', StoreOp.runAll s ops fs = (.ok (os, s'), fs') ∧ Agrees fs' s' cap a'
  | [], fs, s, cap, a, a', os, h, ho => by
    cases ho; exact ⟨s, fs, rfl, h⟩
  | op :: ops, fs, s, cap, a, a', os, h, ho => by
    simp only [Arr.run, bind, Option.bind_eq_some_iff] at ho
    obtain ⟨⟨o, a1⟩, h1, ⟨os1, a2⟩, h2, ho⟩ := ho
    cases ho
    obtain ⟨s1, fs1, g1, g2⟩ := h.step hp op h1
    obtain ⟨s2, fs2, k1, k2⟩ := Agrees.runAll hp ops g2 h2
    refine ⟨s2, fs2, ?_, k2⟩
    rw [StoreOp.runAll, M.bind_ok g1]
    dsimp only
    rw [M.bind_ok k1]
    rfl

theorem Agrees.new {cap : Nat} (fs : FS) : ∃ s fs', Store.new (S := S) cap fs = (.ok s, fs') ∧
    Agrees fs' s cap (Arr.empty : Arr E) := by
  obtain ⟨s, fs', h1, h2, h3, _⟩ := LawfulStore.new_ok (S := S) fs cap
  exact ⟨s, fs', h1, h2, h3, fun i e h => by cases h⟩

end generic

section instances
variable {E : Type} [Element E] [LawfulElement E] [FloatRows]

theorem VecStore.pushLaw : PushLaw (VecStore E) := by
  intro fs s cap e _ _
  show (_, fs) = VecStore.writeAt s e s.els.length fs
  unfold VecStore.writeAt
  rw [if_pos (Nat.le_refl _)]
  have h : (resize s.els (s.els.length + 1) Element.default).set s.els.length e = s.els ++ [e] := by
    simp [resize, List.take_of_length_le]
  rw [h]
  rfl

theorem DiskStore.pushLaw : PushLaw (DiskStore E) := by
  rintro fs s cap e ⟨bs, h1, h2, h3⟩ hc
  have hc : s.len < cap := hc
  show DiskStore.push s e fs = DiskStore.writeAt s e s.len fs
  unfold DiskStore.push
  rw [M.bind_ok (mEnsure_true ((Nat.mul_le_mul_right _ hc).trans h3.ge) _ _)]

theorem MmapStore.pushLaw : PushLaw (MmapStore E) := by
  rintro fs s cap e ⟨bs, h1, h2, h3⟩ hc
  have hc : s.len < cap := hc
  show MmapStore.push s e fs = MmapStore.writeAt s e s.len fs
  unfold MmapStore.push
  rw [M.bind_ok (a := s) (fs' := fs) (by unfold MmapStore.ensureMap; rw [h2]; rfl),
    M.bind_ok (mEnsure_true (by rw [h2]; exact (Nat.mul_le_mul_right _ hc).trans h3.ge) _ _)]

end instances
end Verif
