import Verif.Lemmas.LevelCacheTree
/-!
Arity one: no build ever succeeds, whatever the fuel.
-/
set_option linter.unusedSectionVars false
namespace Verif
open Spec StoreOps

theorem log2Pow2_one : log2Pow2 1 = 0 := rfl

section
variable {S E : Type} [Element E] [StoreOps S E]

theorem smallTreeLoop_one {A : Alg E} : ∀ (f w l idx : Nat) (s : S) (fs : FS), 1 < w →
    ∀ r fs', smallTreeLoop A 1 f w l idx s fs ≠ (.ok r, fs')
  | 0, w, l, idx, s, fs, hw, r, fs' => by simp [smallTreeLoop]
  | f + 1, w, l, idx, s, fs, hw, r, fs' => by
    intro h
    unfold smallTreeLoop at h
    simp only [gt_iff_lt, hw, ↓reduceIte, M.bind_ok_iff] at h
    obtain ⟨_, _, _, s1, fs1, _, h⟩ := h
    rw [log2Pow2_one, Nat.shiftRight_zero] at h
    exact smallTreeLoop_one f w _ _ _ _ hw _ _ h

theorem buildLoop_one {A : Alg E} {σ : Sched} : ∀ (f w l idx : Nat) (s : S) (fs : FS), 1 < w →
    ∀ r fs', buildLoop A 1 σ f w l idx s fs ≠ (.ok r, fs')
  | 0, w, l, idx, s, fs, hw, r, fs' => by simp [buildLoop]
  | f + 1, w, l, idx, s, fs, hw, r, fs' => by
    intro h
    unfold buildLoop at h
    simp only [gt_iff_lt, hw, ↓reduceIte, M.bind_ok_iff] at h
    obtain ⟨s1, fs1, _, h⟩ := h
    rw [log2Pow2_one, Nat.shiftRight_zero] at h
    exact buildLoop_one f w _ _ _ _ hw _ _ h

theorem defaultBuild_one {A : Alg E} {σ : Sched} {n rows : Nat} (hn : 1 < n) (s : S)
    (cfg : Option StoreConfig) (fs : FS) (r : E × S) (fs' : FS) :
    defaultBuild A 1 σ s n rows cfg fs ≠ (.ok r, fs') := by
  intro h
  unfold defaultBuild at h
  simp only [M.bind_ok_iff] at h
  obtain ⟨_, _, _, _, _, _, _, _, _, h⟩ := h
  split at h
  · unfold buildSmallTree at h
    simp only [M.bind_ok_iff] at h
    obtain ⟨_, _, _, x, _, h, _⟩ := h
    exact smallTreeLoop_one _ _ _ _ _ _ hn _ _ h
  · simp only [M.bind_ok_iff] at h
    obtain ⟨x, _, h, _⟩ := h
    exact buildLoop_one _ _ _ _ _ _ hn _ _ h

end

/-- Stores on which no tree of arity one can be built. -/
class NoArityOne (S : Type) (E : outParam Type) [Element E] [Store S E] : Prop where
  build_one : ∀ {A : Alg E} {σ : Sched} {n rows : Nat}, 1 < n → ∀ (s : S) (cfg : Option StoreConfig)
    (fs : FS) (r : E × S) (fs' : FS), Store.build A 1 σ s n rows cfg fs ≠ (.ok r, fs')

section
variable {E : Type} [Element E]

instance : NoArityOne (VecStore E) E := ⟨defaultBuild_one⟩
instance : NoArityOne (MmapStore E) E := ⟨defaultBuild_one⟩

theorem DiskStore.buildLoop_one {A : Alg E} {σ : Sched} :
    ∀ (f w l idx : Nat) (s : DiskStore E) (fs : FS), 1 < w →
    ∀ r fs', DiskStore.buildLoop A 1 σ f w l idx s fs ≠ (.ok r, fs')
  | 0, w, l, idx, s, fs, hw, r, fs' => by simp [DiskStore.buildLoop]
  | f + 1, w, l, idx, s, fs, hw, r, fs' => by
    intro h
    unfold DiskStore.buildLoop at h
    simp only [gt_iff_lt, hw, ↓reduceIte, M.bind_ok_iff] at h
    obtain ⟨s1, fs1, _, h⟩ := h
    rw [log2Pow2_one, Nat.shiftRight_zero] at h
    exact DiskStore.buildLoop_one f w _ _ _ _ hw _ _ h

instance [FloatRows] : NoArityOne (DiskStore E) E where
  build_one hn s cfg fs r fs' h := by
    change DiskStore.build _ _ _ _ _ _ _ _ = _ at h
    unfold DiskStore.build at h
    simp only [M.bind_ok_iff] at h
    obtain ⟨_, _, _, _, _, _, _, _, _, x, _, h, _⟩ := h
    exact DiskStore.buildLoop_one _ _ _ _ _ _ hn _ _ h

theorem LevelCacheStore.buildLoop_one {A : Alg E} {σ : Sched} {c : StoreConfig} {d : Nat} :
    ∀ (f w l idx : Nat) (s : LevelCacheStore E) (fs : FS), 1 < w →
    ∀ r fs', LevelCacheStore.buildLoop A 1 σ c d f w l idx s fs ≠ (.ok r, fs')
  | 0, w, l, idx, s, fs, hw, r, fs' => by simp [LevelCacheStore.buildLoop]
  | f + 1, w, l, idx, s, fs, hw, r, fs' => by
    intro h
    unfold LevelCacheStore.buildLoop at h
    simp only [gt_iff_lt, hw, ↓reduceIte, M.bind_ok_iff] at h
    obtain ⟨s1, fs1, _, s2, fs2, _, h⟩ := h
    rw [log2Pow2_one, Nat.shiftRight_zero] at h
    exact LevelCacheStore.buildLoop_one f w _ _ _ _ hw _ _ h

instance [FloatRows] : NoArityOne (LevelCacheStore E) E where
  build_one hn s cfg fs r fs' h := by
    change LevelCacheStore.build _ _ _ _ _ _ _ _ = _ at h
    unfold LevelCacheStore.build at h
    simp only [M.bind_ok_iff] at h
    obtain ⟨_, _, _, _, _, _, _, _, _, h⟩ := h
    cases cfg with
    | none => simp at h
    | some c =>
      simp only [M.bind_ok_iff] at h
      obtain ⟨_, _, _, _, _, _, _, _, _, x, _, h, _⟩ := h
      exact LevelCacheStore.buildLoop_one _ _ _ _ _ _ hn _ _ h

end

/-! ### `VecStore` and arity one: the build loop never ends -/
section
variable {E : Type} [Element E]

theorem VecStore.writeLayer_len {ws : Nat} : ∀ (ns : List E) (i : Nat) (s : VecStore E) (fs : FS),
    s.els.length = ws + i →
    ∃ s' : VecStore E, writeLayer ws ns i s fs = (.ok s', fs) ∧ s'.els.length = ws + i + ns.length
  | [], i, s, fs, h => ⟨s, rfl, by simpa using h⟩
  | n :: ns, i, s, fs, h => by
    obtain ⟨s', h1, h2⟩ := writeLayer_len (ws := ws) ns (i + 1)
      ⟨(resize s.els (ws + i + 1) Element.default).set (ws + i) n⟩ fs (by
        simp [resize_length]; omega)
    refine ⟨s', ?_, by simp; omega⟩
    have : VecStore.writeAt s n (ws + i) fs
        = (.ok ⟨(resize s.els (ws + i + 1) Element.default).set (ws + i) n⟩, fs) := by
      unfold VecStore.writeAt
      rw [if_pos (by omega)]; rfl
    exact (M.bind_ok this).trans h1

theorem VecStore.smallTreeLoop_one {A : Alg E} {w : Nat} (hw : 1 < w) (fs : FS) :
    ∀ (f l idx : Nat) (s : VecStore E), s.els.length = idx + w → (l = 0 → idx = 0) →
    smallTreeLoop A 1 f w l idx s fs = (.error .diverge, fs)
  | 0, l, idx, s, h, h0 => rfl
  | f + 1, l, idx, s, h, h0 => by
    unfold smallTreeLoop
    rw [if_pos hw]
    have hrw : (if l = 0 then (0, len (E := E) s) else (idx, idx + w)) = (idx, idx + w) := by
      split
      · rename_i hl
        rw [h0 hl]
        show (0, s.els.length) = _
        rw [h, h0 hl]
      · rfl
    rw [hrw]
    have hr : StoreOps.readRange fs s idx (idx + w) = .ok ((s.els.drop idx).take w) := by
      show VecStore.readRange s idx (idx + w) = _
      unfold VecStore.readRange
      rw [if_pos (by omega)]; simp
    obtain ⟨s', h1, h2⟩ := VecStore.writeLayer_len (ws := idx + w)
      ((chunks 1 ((s.els.drop idx).take w)).map fun ns => A.nodeHash ns l) 0 s fs (by omega)
    have hg : M.get (fun fs => StoreOps.readRange fs s idx (idx + w)) fs
        = (.ok ((s.els.drop idx).take w), fs) := by rw [M.get_run, hr]
    refine (M.bind_ok hg).trans ((M.bind_ok h1).trans ?_)
    rw [log2Pow2_one, Nat.shiftRight_zero]
    apply VecStore.smallTreeLoop_one hw fs f
    · rw [h2, chunks_eq (by omega) (m := w) (by simp; omega)]
      simp
    · omega

theorem VecStore.new_arity_one [LawfulElement E] [FloatRows] {A : Alg E} (hA : A.LawfulReset) {m : Nat} (hm : 1 ≤ m) (hm' : m ≤ 10)
    (σ : Sched) (items : List E) (hn : items.length = 2 ^ m) (fs : FS) :
    (BaseTree.new (S := VecStore E) A 1 σ items fs).1 = .error .diverge := by
  have h2 : 2 ≤ 2 ^ m := by simpa using Nat.pow_le_pow_right (n := 2) (by omega) hm
  have h1024 : 2 ^ m ≤ smallTreeBuild := by simpa [smallTreeBuild] using Nat.pow_le_pow_right (n := 2) (by omega) hm'
  have hev : 2 ^ m % 2 = 0 := even_pow ⟨1, Nat.le_refl _, rfl⟩ hm
  have hp : nextPow2 (2 ^ m) = 2 ^ m := ((eq_nextPow2_iff _).2 ⟨m, rfl⟩).symm
  have hs : BaseTree.sizes 1 (2 ^ m) = .ok (2 ^ m, merkleTreeRowCount (2 ^ m) 1) := by
    unfold BaseTree.sizes
    rw [ensure_true (by omega), Res.ok_bind, ensure_true hp, Res.ok_bind, ensure_true (by rfl), Res.ok_bind]
    have : merkleTreeLen (2 ^ m) 1 = .ok (2 ^ m) := by
      unfold merkleTreeLen
      rw [ensure_true (by omega), Res.ok_bind, ensure_true (by rfl), Res.ok_bind, if_neg (by omega)]
      rfl
    rw [this]; rfl
  obtain ⟨s1, fs1, g1, g2, g3, _⟩ := populateData_ok hA (cap := items.length) items (A.leafHash Element.default)
    (Nat.le_refl _) (s := (⟨[]⟩ : VecStore E)) (fs := fs) (by trivial) rfl rfl
  have hl : s1.els.length = 2 ^ m := by rw [← hn]; exact g2.len_eq
  have hb : Store.build A 1 σ s1 (2 ^ m) (merkleTreeRowCount (2 ^ m) 1) none fs1
      = (.error .diverge, fs1) := by
    show defaultBuild _ _ _ _ _ _ _ _ = _
    unfold defaultBuild
    rw [M.bind_ok (mEnsure_true (by rfl) _ _), M.bind_ok (mEnsure_true (by exact hl) _ _),
      M.bind_ok (mEnsure_true hev _ _), if_pos h1024]
    unfold buildSmallTree
    rw [M.bind_ok (mEnsure_true hev _ _)]
    exact M.bind_error (VecStore.smallTreeLoop_one (by omega) fs1 _ 0 0 s1 (by omega) (fun _ => rfl))
  unfold BaseTree.new BaseTree.tryFromIter
  rw [hn]
  simp only []
  have e1 : M.ofRes (BaseTree.sizes 1 (2 ^ m)) fs = (.ok (2 ^ m, merkleTreeRowCount (2 ^ m) 1), fs) := by
    rw [M.ofRes_run, hs]
  have e2 : Store.new (S := VecStore E) (2 ^ m) fs = (.ok ⟨[]⟩, fs) := rfl
  rw [M.bind_ok e1, M.bind_ok e2, M.bind_ok g1, M.bind_error hb]

end

namespace BaseTree
section
variable {S E : Type} [Element E] [Store S E] [NoArityOne S E] [FloatRows]

theorem sizes_gt {b n : Nat} {r : Nat × Nat} (h : sizes b n = .ok r) : 1 < n := by
  unfold sizes at h
  simp only [bind_ok_iff, ensure_ok_iff] at h
  obtain ⟨_, h, _⟩ := h
  exact h

theorem tryFromIter_ne_one {A : Alg E} {b : Nat} {σ : Sched} {hint : Option Nat}
    {items : List (Res E)} {fs fs' : FS} {t : BaseTree S E}
    (h : tryFromIter A b σ hint items fs = (.ok t, fs')) : b ≠ 1 := by
  rintro rfl
  unfold tryFromIter at h
  split at h
  · simp at h
  · simp only [M.bind_ok_iff, M.ofRes_run, Prod.mk.injEq] at h
    obtain ⟨_, _, ⟨h1, _⟩, _, _, _, _, _, _, _, _, h, _⟩ := h
    exact NoArityOne.build_one (sizes_gt h1) _ _ _ _ _ h

theorem tryFromIterWithConfig_ne_one {A : Alg E} {b : Nat} {σ : Sched} {hint : Option Nat}
    {items : List (Res E)} {fs fs' : FS} {t : BaseTree S E} {c : StoreConfig}
    (hl : ∀ size s fs1, Store.newWithConfig (S := S) size b c fs = (.ok s, fs1) →
      loadedFromDisk (E := E) s = false)
    (h : tryFromIterWithConfig A b σ hint items c fs = (.ok t, fs')) : b ≠ 1 := by
  rintro rfl
  unfold tryFromIterWithConfig at h
  split at h
  · simp at h
  · simp only [M.bind_ok_iff, M.ofRes_run, Prod.mk.injEq] at h
    obtain ⟨_, _, ⟨h1, rfl⟩, _, _, h2, h⟩ := h
    rw [hl _ _ _ h2] at h
    simp only [Bool.false_eq_true, ↓reduceIte, M.bind_ok_iff] at h
    obtain ⟨_, _, _, _, _, h, _⟩ := h
    exact NoArityOne.build_one (sizes_gt h1) _ _ _ _ _ h

theorem fromParIter_ne_one {A : Alg E} {b : Nat} {σ : Sched} {π : ParOrder}
    {items : List E} {fs fs' : FS} {t : BaseTree S E}
    (h : fromParIter A b σ π items fs = (.ok t, fs')) : b ≠ 1 := by
  rintro rfl
  unfold fromParIter at h
  simp only [M.bind_ok_iff, M.ofRes_run, Prod.mk.injEq] at h
  obtain ⟨_, _, ⟨h1, _⟩, _, _, _, _, _, _, _, _, h, _⟩ := h
  exact NoArityOne.build_one (sizes_gt h1) _ _ _ _ _ h

theorem fromParIterWithConfig_ne_one {A : Alg E} {b : Nat} {σ : Sched} {π : ParOrder}
    {items : List E} {fs fs' : FS} {t : BaseTree S E} {c : StoreConfig}
    (hl : ∀ size s fs1, Store.newWithConfig (S := S) size b c fs = (.ok s, fs1) →
      loadedFromDisk (E := E) s = false)
    (h : fromParIterWithConfig A b σ π items c fs = (.ok t, fs')) : b ≠ 1 := by
  rintro rfl
  unfold fromParIterWithConfig at h
  simp only [M.bind_ok_iff, M.ofRes_run, Prod.mk.injEq] at h
  obtain ⟨_, _, ⟨h1, rfl⟩, _, _, h2, h⟩ := h
  rw [hl _ _ _ h2] at h
  simp only [Bool.false_eq_true, ↓reduceIte, M.bind_ok_iff] at h
  obtain ⟨_, _, _, _, _, h, _⟩ := h
  exact NoArityOne.build_one (sizes_gt h1) _ _ _ _ _ h

theorem fromByteSlice_ne_one {A : Alg E} {b : Nat} {σ : Sched} {bytes : Bytes} {fs fs' : FS}
    {t : BaseTree S E} (h : fromByteSlice A b σ bytes fs = (.ok t, fs')) : b ≠ 1 := by
  rintro rfl
  unfold fromByteSlice at h
  simp only [M.bind_ok_iff, M.ofRes_run, Prod.mk.injEq] at h
  obtain ⟨_, _, _, _, _, ⟨h1, _⟩, _, _, _, _, _, h, _⟩ := h
  exact NoArityOne.build_one (sizes_gt h1) _ _ _ _ _ h

theorem fromByteSliceWithConfig_ne_one {A : Alg E} {b : Nat} {σ : Sched} {bytes : Bytes}
    {fs fs' : FS} {c : StoreConfig}
    {t : BaseTree S E} (h : fromByteSliceWithConfig A b σ bytes c fs = (.ok t, fs')) : b ≠ 1 := by
  rintro rfl
  unfold fromByteSliceWithConfig at h
  simp only [M.bind_ok_iff, M.ofRes_run, Prod.mk.injEq] at h
  obtain ⟨_, _, _, _, _, ⟨h1, _⟩, _, _, _, _, _, h, _⟩ := h
  exact NoArityOne.build_one (sizes_gt h1) _ _ _ _ _ h

end
end BaseTree
end Verif
