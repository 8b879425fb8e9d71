import Verif.Lemmas.M
import Verif.Model.Merkle
/-! Computations that neither read nor change the file system; cached proofs depend on it only through
the reads of the store. -/
set_option linter.unusedSectionVars false
namespace Verif

/-- `x` returns the same whatever the files are, and leaves them alone. -/
def M.Steady {α : Type} (x : M α) : Prop := ∃ r, ∀ fs, x fs = (r, fs)

namespace M.Steady
variable {α β : Type}

theorem pure (a : α) : M.Steady (Pure.pure a : M α) := ⟨_, fun _ => rfl⟩
theorem ofRes (r : Res α) : M.Steady (M.ofRes r) := ⟨r, fun _ => rfl⟩
theorem get {f : FS → Res α} {r : Res α} (h : ∀ fs, f fs = r) : M.Steady (M.get f) :=
  ⟨r, fun fs => by rw [M.get_run, h]⟩
theorem throw (e : Fault) : M.Steady (M.throw e : M α) := ⟨_, fun _ => rfl⟩
theorem mEnsure (c : Prop) [Decidable c] (m : String) : M.Steady (Verif.mEnsure c m) := ⟨_, fun _ => rfl⟩

theorem bind {x : M α} {f : α → M β} (hx : M.Steady x) (hf : ∀ a, M.Steady (f a)) : M.Steady (x >>= f) := by
  obtain ⟨r, hr⟩ := hx
  cases r with
  | error e => exact ⟨.error e, fun fs => by rw [M.bind_run, hr]⟩
  | ok a =>
    obtain ⟨q, hq⟩ := hf a
    exact ⟨q, fun fs => by rw [M.bind_run, hr]; exact hq fs⟩

end M.Steady

section
variable {E : Type} [Element E]

theorem VecStore.copyFromSlice_steady (s : VecStore E) (d : Bytes) (i : Nat) :
    M.Steady (VecStore.copyFromSlice s d i) :=
  .bind (.ofRes _) fun _ => .bind (.mEnsure _ _) fun _ => .bind (.ofRes _) fun _ => .pure _

theorem runSteps_steady {S : Type} {rd : Nat → S → FS → Res Bytes} {wr : Nat → Bytes → S → M S}
    (hr : ∀ t s fs fs', rd t s fs = rd t s fs') (h : ∀ t bs s, M.Steady (wr t bs s)) :
    ∀ (ts : List Nat) (pend : Nat → Option Bytes) (s : S), M.Steady (runSteps rd wr ts pend s)
  | [], _, _ => .pure _
  | t :: ts, pend, s => by
    rw [runSteps]
    split
    · exact .bind (.get fun fs => hr t s fs FS.empty) fun bs => runSteps_steady hr h ts _ _
    · exact .bind (h _ _ _) fun s => runSteps_steady hr h ts _ _

namespace VecStore

theorem writeLayer_steady (w : Nat) : ∀ (es : List E) (i : Nat) (s : VecStore E),
    M.Steady (writeLayer w es i s)
  | [], _, _ => .pure _
  | _ :: es, i, _ => .bind (.pure _) fun s => writeLayer_steady w es (i + 1) s

theorem smallTreeLoop_steady (A : Alg E) (b : Nat) : ∀ (f w l i : Nat) (s : VecStore E),
    M.Steady (smallTreeLoop A b f w l i s)
  | 0, _, _, _, _ => .throw _
  | f + 1, w, l, i, s => by
    rw [smallTreeLoop]
    split
    · exact .bind (.get fun _ => rfl) fun ns => .bind (writeLayer_steady _ _ _ _) fun s =>
        smallTreeLoop_steady A b f _ _ _ s
    · exact .pure _

theorem buildLoop_steady (A : Alg E) (b : Nat) (σ : Sched) : ∀ (f w l i : Nat) (s : VecStore E),
    M.Steady (buildLoop A b σ f w l i s)
  | 0, _, _, _, _ => .throw _
  | f + 1, w, l, i, s => by
    rw [buildLoop]
    split
    · exact .bind (.bind (.mEnsure _ _) fun _ => runSteps_steady (fun _ _ _ _ => rfl)
        (fun _ _ _ => copyFromSlice_steady _ _ _) _ _ _) fun s => buildLoop_steady A b σ f _ _ _ s
    · exact .pure _

theorem build_steady (A : Alg E) (b : Nat) (σ : Sched) (s : VecStore E) (n r : Nat)
    (c : Option StoreConfig) : M.Steady (Store.build A b σ s n r c) := by
  show M.Steady (defaultBuild A b σ s n r c)
  unfold defaultBuild
  refine .bind (.mEnsure _ _) fun _ => .bind (.mEnsure _ _) fun _ => .bind (.mEnsure _ _) fun _ => ?_
  split
  · exact .bind (.mEnsure _ _) fun _ => .bind (smallTreeLoop_steady _ _ _ _ _ _ _) fun _ =>
      .bind (.mEnsure _ _) fun _ => .bind (.get fun fs => (rfl : StoreOps.last fs _ = StoreOps.last FS.empty _)) fun _ => .pure _
  · exact .bind (buildLoop_steady _ _ _ _ _ _ _ _) fun _ =>
      .bind (.mEnsure _ _) fun _ => .bind (.get fun fs => (rfl : StoreOps.last fs _ = StoreOps.last FS.empty _)) fun _ => .pure _

end VecStore

theorem BaseTree.buildPartialTree_steady [FloatRows] (A : Alg E) (b : Nat) (σ : Sched) (s : VecStore E) (n r : Nat) :
    M.Steady (BaseTree.buildPartialTree A b σ s n r) :=
  .bind (VecStore.build_steady A b σ s n r none) fun _ => .bind (.ofRes _) fun _ => .bind (.mEnsure _ _) fun _ =>
    .bind (.ofRes _) fun _ => .bind (.mEnsure _ _) fun _ => .pure _

/-- `x` started in `fs` and `y` started in `fs'` return the same, and both leave the files alone. -/
def M.Twin {α : Type} (fs fs' : FS) (x y : M α) : Prop := ∃ r, x fs = (r, fs) ∧ y fs' = (r, fs')

namespace M.Twin
variable {α β : Type} {fs fs' : FS}

theorem steady {x : M α} (h : M.Steady x) : M.Twin fs fs' x x := by
  obtain ⟨r, hr⟩ := h
  exact ⟨r, hr _, hr _⟩
theorem get {f g : FS → Res α} (h : f fs = g fs') : M.Twin fs fs' (M.get f) (M.get g) :=
  ⟨f fs, by rw [M.get_run], by rw [M.get_run, h]⟩
theorem bind {x y : M α} {f g : α → M β} (hx : M.Twin fs fs' x y) (hf : ∀ a, M.Twin fs fs' (f a) (g a)) :
    M.Twin fs fs' (x >>= f) (y >>= g) := by
  obtain ⟨r, h1, h2⟩ := hx
  cases r with
  | error e => exact ⟨.error e, by rw [M.bind_run, h1], by rw [M.bind_run, h2]⟩
  | ok a =>
    obtain ⟨q, hq, hq'⟩ := hf a
    exact ⟨q, by rw [M.bind_run, h1]; exact hq, by rw [M.bind_run, h2]; exact hq'⟩

end M.Twin

/-- A cached proof depends on the files only through what the store reads. -/
theorem BaseTree.genCachedProof_congr {S : Type} [StoreOps S E] [FloatRows] {t t' : BaseTree S E} {fs fs' : FS}
    (hl : t'.leafs = t.leafs) (hr : t'.rowCount = t.rowCount) (hn : t'.length = t.length)
    (ho : t'.root = t.root) (h1 : ∀ i, t'.readAt fs' i = t.readAt fs i)
    (h2 : ∀ a b buf, StoreOps.readRangeInto (E := E) fs' t'.store a b buf
      = StoreOps.readRangeInto (E := E) fs t.store a b buf)
    (A : Alg E) (b sub top : Nat) (σ : Sched) (i : Nat) (rows : Option Nat) :
    M.Twin fs fs' (t.genCachedProof A b sub top σ i rows) (t'.genCachedProof A b sub top σ i rows) := by
  have h1' : t'.readAt fs' = t.readAt fs := funext h1
  obtain ⟨s, l, len, rc, root⟩ := t
  obtain ⟨s', l', len', rc', root'⟩ := t'
  dsimp only at hl hr ho
  subst hl hr ho
  unfold BaseTree.genCachedProof
  dsimp only
  refine .bind (.steady (.mEnsure _ _)) fun _ => .bind (.steady (.mEnsure _ _)) fun _ =>
    .bind (.steady (.ofRes _)) fun _ => .bind (.steady (.ofRes _)) fun _ => .bind (.steady (.mEnsure _ _)) fun _ =>
    .bind (.steady (.ofRes _)) fun _ => .bind (.steady (.mEnsure _ _)) fun _ => .bind (.steady (.ofRes _)) fun _ =>
    .bind (.steady (.ofRes _)) fun _ => .bind (.steady (.ofRes _)) fun _ => .bind (.get (h2 _ _ _).symm) fun _ =>
    .bind (.steady (.ofRes _)) fun _ => .bind (.steady (.mEnsure _ _)) fun _ => .bind (.steady (.ofRes _)) fun _ =>
    .bind (.steady (BaseTree.buildPartialTree_steady _ _ _ _ _ _)) fun pt => .bind (.steady (.mEnsure _ _)) fun _ =>
    .get ?_
  unfold BaseTree.genProofWithPartialTree
  simp only [hn, h1']
  rfl

end
end Verif
