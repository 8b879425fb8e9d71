import Verif.Lemmas.Populate
import Verif.Lemmas.DiskBuild
/-!
The constructors of base trees, for every store obeying the laws.
-/
set_option linter.unusedSectionVars false
namespace Verif
open Spec StoreOps LawfulWrite

/-- What a constructor of a store did to the file system: only the new store's files changed, and
they satisfy `P`. -/
structure Fresh (own : FileId → Prop) (P : FileId → Prop) (fs fs' : FS) : Prop where
  same : ∀ f, ¬ own f → fs'.file f = fs.file f
  own : ∀ f, own f → P f
  temp : fs.nextTemp ≤ fs'.nextTemp

/-- A temporary file created between `fs` and `fs'`. -/
def NewTemp (fs fs' : FS) (f : FileId) : Prop :=
  ∃ n, f = .temp n ∧ fs.nextTemp ≤ n ∧ n < fs'.nextTemp

/-- Laws of the constructors and of `build`. -/
class LawfulStore (S : Type) (E : outParam Type) [Element E] [Store S E] extends
    LawfulRead S E where
  isEmpty_iff : ∀ s : S, isEmpty (E := E) s = true ↔ len (E := E) s = 0
  new_ok : ∀ (fs : FS) (size : Nat), ∃ s fs', Store.new (S := S) size fs = (.ok s, fs') ∧
    Inv fs' s size ∧ len (E := E) s = 0 ∧ loadedFromDisk (E := E) s = false ∧
    Fresh (owns s) (NewTemp fs fs') fs fs'
  newWithConfig_ok : ∀ (fs : FS) (size b : Nat) (c : StoreConfig), fs.file c.file = none →
    ∃ s fs', Store.newWithConfig (S := S) size b c fs = (.ok s, fs') ∧
    Inv fs' s size ∧ len (E := E) s = 0 ∧ loadedFromDisk (E := E) s = false ∧
    Fresh (owns s) (fun f => f = c.file) fs fs'
  newFromSlice_ok : ∀ (fs : FS) (size : Nat) (es : List E) (d : E), es.length ≤ size →
    ∃ s fs', Store.newFromSlice (S := S) size (encodeAll es) fs = (.ok s, fs') ∧
    Filled fs' s size es.length (fun i => es.getD i d) ∧ Fresh (owns s) (NewTemp fs fs') fs fs'
  newFromSliceWithConfig_ok : ∀ (fs : FS) (size b : Nat) (es : List E) (d : E) (c : StoreConfig),
    fs.file c.file = none → es.length ≤ size →
    ∃ s fs', Store.newFromSliceWithConfig (S := S) size b (encodeAll es) c fs = (.ok s, fs') ∧
    Filled fs' s size es.length (fun i => es.getD i d) ∧ Fresh (owns s) (fun f => f = c.file) fs fs'
  build_ok : ∀ {A : Alg E} {b k cap : Nat}, Arity b → b ≤ buildChunkNodes → 1 ≤ k →
    ∀ (leaf : Nat → E), nodes b k ≤ cap → ∀ {σ : Sched}, σ.Valid → ∀ {s : S} {fs : FS},
    Filled fs s cap (b ^ k) leaf → ∀ (cfg : Option StoreConfig),
    ∃ s' fs', Store.build A b σ s (b ^ k) (k + 1) cfg fs
        = (.ok (root A.nodeHash b k leaf, s'), fs') ∧
      Filled fs' s' cap (nodes b k) (flat A.nodeHash b k leaf) ∧ SameOutside (owns s) fs fs' ∧
      owns s' = owns s

/-! ### Instances -/
section instances
variable {E : Type} [Element E] [LawfulElement E]

theorem getD_of_lt {α : Type} {xs : List α} {i : Nat} (h : i < xs.length) (d : α) :
    xs.getD i d = xs[i] := by
  rw [List.getD_eq_getElem?_getD, List.getElem?_eq_getElem h]; rfl

theorem VecStore.newFromSlice_ok (fs : FS) (size : Nat) (es : List E) (h : es.length ≤ size) :
    VecStore.newFromSlice size (encodeAll es) fs = (.ok ⟨es⟩, fs) := by
  unfold VecStore.newFromSlice
  rw [if_neg LawfulElement.byteLen_pos.ne', Res.ok_bind]
  rw [M.ofRes_run, chunksExact_encodeAll, Res.ok_bind, subP_ok h]
  rfl

theorem VecStore.filled (fs : FS) (cap : Nat) (es : List E) (d : E) :
    Filled fs (⟨es⟩ : VecStore E) cap es.length (fun i => es.getD i d) := by
  refine ⟨trivial, rfl, fun i hi => ?_⟩
  show es[i]? = some (es.getD i d)
  rw [getD_of_lt hi, List.getElem?_eq_getElem hi]

instance VecStore.lawfulStore : LawfulStore (VecStore E) E where
  isEmpty_iff s := by
    show s.els.isEmpty = true ↔ s.els.length = 0
    simp
  new_ok fs size := ⟨⟨[]⟩, fs, rfl, trivial, rfl, rfl, ⟨fun _ _ => rfl, fun _ h => h.elim, Nat.le_refl _⟩⟩
  newWithConfig_ok fs size b c _ :=
    ⟨⟨[]⟩, fs, rfl, trivial, rfl, rfl, ⟨fun _ _ => rfl, fun _ h => h.elim, Nat.le_refl _⟩⟩
  newFromSlice_ok fs size es d h := ⟨⟨es⟩, fs, VecStore.newFromSlice_ok fs size es h,
    VecStore.filled fs size es d, ⟨fun _ _ => rfl, fun _ h => h.elim, Nat.le_refl _⟩⟩
  newFromSliceWithConfig_ok fs size b es d c _ h := ⟨⟨es⟩, fs, VecStore.newFromSlice_ok fs size es h,
    VecStore.filled fs size es d, ⟨fun _ _ => rfl, fun _ h => h.elim, Nat.le_refl _⟩⟩
  build_ok hb hb' hk leaf hcap _ hσ _ _ hs cfg := defaultBuild_ok hb hb' hk leaf hcap hσ hs cfg

theorem createTemp_run (fs : FS) : ∃ fs', FS.createTemp fs = (.ok (.temp fs.nextTemp), fs') ∧
    fs'.file (.temp fs.nextTemp) = some [] ∧
    (∀ f, f ≠ .temp fs.nextTemp → fs'.file f = fs.file f) ∧ fs'.nextTemp = fs.nextTemp + 1 := by
  refine ⟨_, rfl, ?_, ?_, rfl⟩
  · simp [FS.set]
  · intro f hf; simp [FS.set, hf]

theorem createNew_run (fs : FS) {f : FileId} (h : fs.file f = none) :
    ∃ fs', FS.createNew f fs = (.ok (), fs') ∧ fs'.file f = some [] ∧
      (∀ g, g ≠ f → fs'.file g = fs.file g) ∧ fs'.nextTemp = fs.nextTemp := by
  unfold FS.createNew
  rw [h]
  exact ⟨_, rfl, FS.set_self _ _ _, fun g hg => FS.set_other _ hg _, rfl⟩

theorem setLen_empty (fs : FS) {f : FileId} (n : Nat) (h : fs.file f = some []) :
    ∃ fs', FS.setLen f n fs = (.ok (), fs') ∧ fs'.file f = some (List.replicate n 0) ∧
      (∀ g, g ≠ f → fs'.file g = fs.file g) ∧ fs'.nextTemp = fs.nextTemp := by
  unfold FS.setLen
  rw [FS.contents_ok h]
  exact ⟨_, rfl, by rw [FS.set_self]; simp, fun g hg => FS.set_other _ hg _, rfl⟩

theorem pathExists_run (fs : FS) (f : FileId) :
    FS.pathExists f fs = (.ok (fs.file f).isSome, fs) := rfl

theorem DiskStore.new_run (fs : FS) (size : Nat) : ∃ fs',
    DiskStore.new (E := E) size fs
      = (.ok ⟨0, .temp fs.nextTemp, false, Element.byteLen E * size⟩, fs') ∧
    fs'.file (.temp fs.nextTemp) = some (List.replicate (Element.byteLen E * size) 0) ∧
    (∀ f, f ≠ .temp fs.nextTemp → fs'.file f = fs.file f) ∧ fs'.nextTemp = fs.nextTemp + 1 := by
  obtain ⟨fs1, h1, h2, h3, h4⟩ := createTemp_run fs
  obtain ⟨fs2, g1, g2, g3, g4⟩ := setLen_empty fs1 (Element.byteLen E * size) h2
  refine ⟨fs2, ?_, g2, fun f hf => (g3 f hf).trans (h3 f hf), g4.trans h4⟩
  unfold DiskStore.new
  rw [M.bind_ok h1, M.bind_ok g1]
  rfl

theorem DiskStore.newWithConfig_run (fs : FS) (size b : Nat) (c : StoreConfig)
    (h : fs.file c.file = none) : ∃ fs',
    DiskStore.newWithConfig (E := E) size b c fs
      = (.ok ⟨0, c.file, false, Element.byteLen E * size⟩, fs') ∧
    fs'.file c.file = some (List.replicate (Element.byteLen E * size) 0) ∧
    (∀ f, f ≠ c.file → fs'.file f = fs.file f) ∧ fs'.nextTemp = fs.nextTemp := by
  obtain ⟨fs1, h1, h2, h3, h4⟩ := createNew_run fs h
  obtain ⟨fs2, g1, g2, g3, g4⟩ := setLen_empty fs1 (Element.byteLen E * size) h2
  refine ⟨fs2, ?_, g2, fun f hf => (g3 f hf).trans (h3 f hf), g4.trans h4⟩
  unfold DiskStore.newWithConfig
  rw [M.bind_ok (pathExists_run _ _), h]
  simp only [Option.isSome_none, Bool.false_eq_true, ↓reduceIte]
  rw [M.bind_ok h1, M.bind_ok g1]
  rfl

theorem modP_encodeAll (es : List E) : modP (encodeAll es).length (Element.byteLen E) = .ok 0 :=
  multiple_encodeAll es

/-- Elements written at the start of a zero-filled file. -/
theorem fill_front {fs : FS} {f : FileId} {bs : Bytes} {es : List E} (d : E)
    (h : fs.file f = some (patch bs 0 (encodeAll es))) (hl : (encodeAll es).length ≤ bs.length) :
    ∀ i, i < es.length → FileHolds fs f i (es.getD i d) := by
  intro i hi
  have := FileHolds.patch_in (es := es) (start := 0) (bs := bs) (f := f) (fs' := fs)
    (by simpa using hl) (by simpa using h) i hi
  rw [getD_of_lt hi]
  simpa using this

instance DiskStore.lawfulStore [FloatRows] : LawfulStore (DiskStore E) E where
  isEmpty_iff s := by
    show (s.len == 0) = true ↔ s.len = 0
    simp
  new_ok fs size := by
    obtain ⟨fs1, h1, h2, h3, h4⟩ := DiskStore.new_run (E := E) fs size
    refine ⟨_, fs1, h1, ⟨_, h2, by simp, by rw [Nat.mul_comm]⟩, rfl, rfl,
      ⟨fun f hf => h3 f hf, ?_, by omega⟩⟩
    rintro f rfl
    exact ⟨_, rfl, Nat.le_refl _, by omega⟩
  newWithConfig_ok fs size b c h := by
    obtain ⟨fs1, h1, h2, h3, h4⟩ := DiskStore.newWithConfig_run (E := E) fs size b c h
    exact ⟨_, fs1, h1, ⟨_, h2, by simp, by rw [Nat.mul_comm]⟩, rfl, rfl,
      ⟨fun f hf => h3 f hf, fun f h => h, by omega⟩⟩
  newFromSlice_ok fs size es d h := by
    obtain ⟨fs1, h1, h2, h3, h4⟩ := DiskStore.new_run (E := E) fs size
    have hl : (encodeAll es).length ≤ Element.byteLen E * size := by
      rw [length_encodeAll, Nat.mul_comm]; exact Nat.mul_le_mul_left _ h
    obtain ⟨fs2, g1, g2, g3⟩ := DiskStore.storeCopy_ok (E := E)
      (s := ⟨0, .temp fs.nextTemp, false, Element.byteLen E * size⟩) (off := 0)
      (data := encodeAll es) h2 (by simp) (by simpa using hl)
    refine ⟨⟨es.length, .temp fs.nextTemp, false, Element.byteLen E * size⟩, fs2, ?_, ⟨?_, rfl, ?_⟩,
      ⟨fun f hf => (g3.1 f hf).trans (h3 f hf), ?_, by rw [g3.2]; omega⟩⟩
    · show DiskStore.newFromSlice size (encodeAll es) fs = _
      unfold DiskStore.newFromSlice
      rw [M.bind_ok (a := 0) (fs' := fs) (by rw [M.ofRes_run, modP_encodeAll]),
        M.bind_ok (mEnsure_true rfl _ _), M.bind_ok h1, M.bind_ok g1, div_encodeAll]
      rfl
    · exact ⟨_, g2, by rw [patch_length (by simpa using hl)]; simp, by rw [Nat.mul_comm]⟩
    · exact fill_front d g2 (by simpa using hl)
    · rintro f rfl
      exact ⟨_, rfl, Nat.le_refl _, by rw [g3.2]; omega⟩
  newFromSliceWithConfig_ok fs size b es d c hc h := by
    obtain ⟨fs1, h1, h2, h3, h4⟩ := DiskStore.newWithConfig_run (E := E) fs size b c hc
    have hl : (encodeAll es).length ≤ Element.byteLen E * size := by
      rw [length_encodeAll, Nat.mul_comm]; exact Nat.mul_le_mul_left _ h
    obtain ⟨fs2, g1, g2, g3⟩ := DiskStore.storeCopy_ok (E := E)
      (s := ⟨0, c.file, false, Element.byteLen E * size⟩) (off := 0)
      (data := encodeAll es) h2 (by simp) (by simpa using hl)
    refine ⟨⟨es.length, c.file, false, Element.byteLen E * size⟩, fs2, ?_, ⟨?_, rfl, ?_⟩,
      ⟨fun f hf => (g3.1 f hf).trans (h3 f hf), fun f hf => hf, by rw [g3.2]; omega⟩⟩
    · show DiskStore.newFromSliceWithConfig size b (encodeAll es) c fs = _
      unfold DiskStore.newFromSliceWithConfig
      rw [M.bind_ok (a := 0) (fs' := fs) (by rw [M.ofRes_run, modP_encodeAll]),
        M.bind_ok (mEnsure_true rfl _ _), M.bind_ok h1]
      simp only [Bool.false_eq_true, ↓reduceIte]
      rw [M.bind_ok g1, div_encodeAll]
      rfl
    · exact ⟨_, g2, by rw [patch_length (by simpa using hl)]; simp, by rw [Nat.mul_comm]⟩
    · exact fill_front d g2 (by simpa using hl)
  build_ok hb hb' hk leaf hcap _ hσ s fs hs cfg := by
    obtain ⟨fs', h1, h2, h3⟩ := DiskStore.build_ok hb hb' hk leaf hcap hσ hs cfg
    exact ⟨_, fs', h1, h2, h3, rfl⟩

theorem MmapStore.new_run (fs : FS) (size : Nat) : ∃ fs',
    MmapStore.new (E := E) size fs
      = (.ok ⟨some (Element.byteLen E * size), .temp fs.nextTemp, 0⟩, fs') ∧
    fs'.file (.temp fs.nextTemp) = some (List.replicate (Element.byteLen E * size) 0) ∧
    (∀ f, f ≠ .temp fs.nextTemp → fs'.file f = fs.file f) ∧ fs'.nextTemp = fs.nextTemp + 1 := by
  obtain ⟨fs1, h1, h2, h3, h4⟩ := createTemp_run fs
  obtain ⟨fs2, g1, g2, g3, g4⟩ := setLen_empty fs1 (Element.byteLen E * size) h2
  refine ⟨fs2, ?_, g2, fun f hf => (g3 f hf).trans (h3 f hf), g4.trans h4⟩
  unfold MmapStore.new
  rw [M.bind_ok h1, M.bind_ok g1]
  rfl

theorem MmapStore.newWithConfig_run (fs : FS) (size b : Nat) (c : StoreConfig)
    (h : fs.file c.file = none) : ∃ fs',
    MmapStore.newWithConfig (E := E) size b c fs
      = (.ok ⟨some (Element.byteLen E * size), c.file, 0⟩, fs') ∧
    fs'.file c.file = some (List.replicate (Element.byteLen E * size) 0) ∧
    (∀ f, f ≠ c.file → fs'.file f = fs.file f) ∧ fs'.nextTemp = fs.nextTemp := by
  obtain ⟨fs1, h1, h2, h3, h4⟩ := createNew_run fs h
  obtain ⟨fs2, g1, g2, g3, g4⟩ := setLen_empty fs1 (Element.byteLen E * size) h2
  refine ⟨fs2, ?_, g2, fun f hf => (g3 f hf).trans (h3 f hf), g4.trans h4⟩
  unfold MmapStore.newWithConfig
  rw [M.bind_ok (pathExists_run _ _), h]
  simp only [Option.isSome_none, Bool.false_eq_true, ↓reduceIte]
  rw [M.bind_ok h1, M.bind_ok g1]
  rfl

instance MmapStore.lawfulStore : LawfulStore (MmapStore E) E where
  isEmpty_iff s := by
    show (s.len == 0) = true ↔ s.len = 0
    simp
  new_ok fs size := by
    obtain ⟨fs1, h1, h2, h3, h4⟩ := MmapStore.new_run (E := E) fs size
    refine ⟨_, fs1, h1, ⟨_, h2, by simp, by simp [Nat.mul_comm]⟩, rfl, rfl,
      ⟨fun f hf => h3 f hf, ?_, by omega⟩⟩
    rintro f rfl
    exact ⟨_, rfl, Nat.le_refl _, by omega⟩
  newWithConfig_ok fs size b c h := by
    obtain ⟨fs1, h1, h2, h3, h4⟩ := MmapStore.newWithConfig_run (E := E) fs size b c h
    exact ⟨_, fs1, h1, ⟨_, h2, by simp, by simp [Nat.mul_comm]⟩, rfl, rfl,
      ⟨fun f hf => h3 f hf, fun f h => h, by omega⟩⟩
  newFromSlice_ok fs size es d h := by
    obtain ⟨fs1, h1, h2, h3, h4⟩ := MmapStore.new_run (E := E) fs size
    have hl : (encodeAll es).length ≤ Element.byteLen E * size := by
      rw [length_encodeAll, Nat.mul_comm]; exact Nat.mul_le_mul_left _ h
    obtain ⟨fs2, g1, g2, g3⟩ := MmapStore.mapWrite_ok (E := E)
      (s := ⟨some (Element.byteLen E * size), .temp fs.nextTemp, 0⟩) (off := 0)
      (data := encodeAll es) h2 (by simp) (by simpa using hl)
    have hp : (patch (List.replicate (Element.byteLen E * size) 0) 0 (encodeAll es)).length
        = Element.byteLen E * size := by rw [patch_length (by simpa using hl)]; simp
    refine ⟨⟨some (Element.byteLen E * size), .temp fs.nextTemp, es.length⟩, fs2, ?_, ⟨?_, rfl, ?_⟩,
      ⟨fun f hf => (g3.1 f hf).trans (h3 f hf), ?_, by rw [g3.2]; omega⟩⟩
    · show MmapStore.newFromSlice size (encodeAll es) fs = _
      unfold MmapStore.newFromSlice
      rw [M.bind_ok (a := 0) (fs' := fs) (by rw [M.ofRes_run, modP_encodeAll]),
        M.bind_ok (mEnsure_true rfl _ _), M.bind_ok h1, M.bind_ok g1, div_encodeAll]
      rfl
    · exact ⟨_, g2, by rw [hp], by rw [hp, Nat.mul_comm]⟩
    · exact fill_front d g2 (by simpa using hl)
    · rintro f rfl
      exact ⟨_, rfl, Nat.le_refl _, by rw [g3.2]; omega⟩
  newFromSliceWithConfig_ok fs size b es d c hc h := by
    obtain ⟨fs1, h1, h2, h3, h4⟩ := MmapStore.newWithConfig_run (E := E) fs size b c hc
    have hl : (encodeAll es).length ≤ Element.byteLen E * size := by
      rw [length_encodeAll, Nat.mul_comm]; exact Nat.mul_le_mul_left _ h
    obtain ⟨fs2, g1, g2, g3⟩ := MmapStore.mapWrite_ok (E := E)
      (s := ⟨some (Element.byteLen E * size), c.file, 0⟩) (off := 0)
      (data := encodeAll es) h2 (by simp) (by simpa using hl)
    have hp : (patch (List.replicate (Element.byteLen E * size) 0) 0 (encodeAll es)).length
        = Element.byteLen E * size := by rw [patch_length (by simpa using hl)]; simp
    refine ⟨⟨some (Element.byteLen E * size), c.file, es.length⟩, fs2, ?_, ⟨?_, rfl, ?_⟩,
      ⟨fun f hf => (g3.1 f hf).trans (h3 f hf), fun f hf => hf, by rw [g3.2]; omega⟩⟩
    · show MmapStore.newFromSliceWithConfig size b (encodeAll es) c fs = _
      unfold MmapStore.newFromSliceWithConfig
      rw [M.bind_ok (a := 0) (fs' := fs) (by rw [M.ofRes_run, modP_encodeAll]),
        M.bind_ok (mEnsure_true rfl _ _), M.bind_ok h1,
        M.bind_ok (x := MmapStore.ensureMap _) (a := ⟨some (Element.byteLen E * size), c.file, 0⟩)
          (fs' := fs1) rfl,
        M.bind_ok g1, div_encodeAll]
      rfl
    · exact ⟨_, g2, by rw [hp], by rw [hp, Nat.mul_comm]⟩
    · exact fill_front d g2 (by simpa using hl)
  build_ok hb hb' hk leaf hcap _ hσ _ _ hs cfg := defaultBuild_ok hb hb' hk leaf hcap hσ hs cfg

end instances
end Verif
