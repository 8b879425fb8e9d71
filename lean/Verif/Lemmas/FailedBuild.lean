import Verif.Lemmas.Flaky
import Verif.Lemmas.Constructors
import Verif.Lemmas.Interrupted
import Verif.Lemmas.Build64
/-
Parallel builds on a disk on which files can be created and not written to.
-/
namespace Verif
open Spec

variable {E : Type} [Element E] [LawfulElement E] {A : Alg E} {b k : Nat} {p : IoPlan} {c : StoreConfig}
  {fs : FS}

/-- Nothing can be written to the file, and an attempt changes nothing. -/
theorem Flaky.Disk.copyFromSlice_unwritable (hw : ∀ off data fs, p.fails (.write c.file off data) fs = true)
    (hl : ∀ off data fs, p.left (.write c.file off data) fs = fs) {s : DiskStore E} (hs : s.file = c.file)
    (buf : Bytes) (i : Nat) (fs : FS) : ∃ m, Flaky.Disk.copyFromSlice p s buf i fs = (.error (.err m), fs) := by
  have hpos : Element.byteLen E ≠ 0 := Nat.pos_iff_ne_zero.1 (LawfulElement.byteLen_pos (E := E))
  have h1 : M.ofRes (modP buf.length (Element.byteLen E)) fs = (.ok (buf.length % Element.byteLen E), fs) := by
    simp [M.ofRes, modP, hpos]
  unfold Flaky.Disk.copyFromSlice
  rw [M.bind_ok h1]
  by_cases h2 : buf.length % Element.byteLen E = 0
  · rw [M.bind_ok (show mEnsure (buf.length % Element.byteLen E = 0) _ fs = (.ok (), fs) by simp [mEnsure, ensure, h2])]
    have h3 : ∃ m, Flaky.Disk.storeCopyFromSlice p s (i * Element.byteLen E) buf fs = (.error (.err m), fs) := by
      unfold Flaky.Disk.storeCopyFromSlice
      by_cases h4 : i * Element.byteLen E + buf.length ≤ s.storeSize
      · refine ⟨"I/O error", ?_⟩
        rw [M.bind_ok (show mEnsure (i * Element.byteLen E + buf.length ≤ s.storeSize) _ fs = (.ok (), fs) by
          simp [mEnsure, ensure, h4])]
        simp [Flaky.writeAllAt, Flaky.io, hs, hw, hl, Flaky.ioError]
      · exact ⟨_, M.bind_error (by simp [mEnsure, h4]; rfl)⟩
    obtain ⟨m, h3⟩ := h3
    exact ⟨m, M.bind_error h3⟩
  · exact ⟨_, M.bind_error (by simp [mEnsure, h2]; rfl)⟩

/-- Creating the file works as usual. -/
theorem Flaky.Disk.newWithConfig_creatable (hcr : ∀ fs, p.fails (.create c.file) fs = false)
    (hsl : ∀ n fs, p.fails (.setLen c.file n) fs = false) (hc : fs.file c.file = none) (n b : Nat) :
    (Flaky.Disk.newWithConfig p n b c fs : Res (DiskStore E) × FS) = DiskStore.newWithConfig n b c fs := by
  unfold Flaky.Disk.newWithConfig DiskStore.newWithConfig
  have h1 : Flaky.pathExists p c.file fs = (.ok false, fs) := by
    simp [Flaky.pathExists, M.get, hc]
  have h2 : FS.pathExists c.file fs = (.ok false, fs) := by simp [FS.pathExists, M.get, hc]
  have h3 : Flaky.io p (.create c.file) (FS.createNew c.file) = FS.createNew c.file := by
    funext fs
    simp [Flaky.io, hcr]
  have h4 : ∀ m, Flaky.setLen p c.file m = FS.setLen c.file m := by
    intro m
    funext fs
    simp [Flaky.setLen, Flaky.io, hsl]
  rw [M.bind_ok h1, M.bind_ok h2, h3]
  simp only [h4]
  rfl

/-- The same for `LevelCacheStore`. -/
theorem Flaky.Cache.copyFromSlice_unwritable (hw : ∀ off data fs, p.fails (.write c.file off data) fs = true)
    (hl : ∀ off data fs, p.left (.write c.file off data) fs = fs) {s : LevelCacheStore E} (hs : s.file = c.file)
    (buf : Bytes) (i : Nat) (fs : FS) : ∃ m, Flaky.Cache.copyFromSlice p s buf i fs = (.error (.err m), fs) := by
  have hpos : Element.byteLen E ≠ 0 := Nat.pos_iff_ne_zero.1 (LawfulElement.byteLen_pos (E := E))
  have h1 : M.ofRes (modP buf.length (Element.byteLen E)) fs = (.ok (buf.length % Element.byteLen E), fs) := by
    simp [M.ofRes, modP, hpos]
  unfold Flaky.Cache.copyFromSlice
  rw [M.bind_ok h1]
  by_cases h2 : buf.length % Element.byteLen E = 0
  · rw [M.bind_ok (show mEnsure (buf.length % Element.byteLen E = 0) _ fs = (.ok (), fs) by simp [mEnsure, ensure, h2])]
    have h3 : ∃ m, Flaky.Cache.storeCopyFromSlice p s (i * Element.byteLen E) buf fs = (.error (.err m), fs) := by
      unfold Flaky.Cache.storeCopyFromSlice
      by_cases h4 : i * Element.byteLen E + buf.length ≤ s.storeSize
      · refine ⟨"I/O error", ?_⟩
        rw [M.bind_ok (show mEnsure (i * Element.byteLen E + buf.length ≤ s.storeSize) _ fs = (.ok (), fs) by
          simp [mEnsure, ensure, h4])]
        simp [Flaky.writeAllAt, Flaky.io, hs, hw, hl, Flaky.ioError]
      · exact ⟨_, M.bind_error (by simp [mEnsure, h4]; rfl)⟩
    obtain ⟨m, h3⟩ := h3
    exact ⟨m, M.bind_error h3⟩
  · exact ⟨_, M.bind_error (by simp [mEnsure, h2]; rfl)⟩

/-- The same for `LevelCacheStore`. -/
theorem Flaky.Cache.newWithConfig_creatable [FloatRows] (hcr : ∀ fs, p.fails (.create c.file) fs = false)
    (hsl : ∀ n fs, p.fails (.setLen c.file n) fs = false) (hc : fs.file c.file = none) (n b : Nat) :
    (Flaky.Cache.newWithConfig p n b c fs : Res (LevelCacheStore E) × FS) = LevelCacheStore.newWithConfig n b c fs := by
  unfold Flaky.Cache.newWithConfig LevelCacheStore.newWithConfig
  have h1 : Flaky.pathExists p c.file fs = (.ok false, fs) := by
    simp [Flaky.pathExists, M.get, hc]
  have h2 : FS.pathExists c.file fs = (.ok false, fs) := by simp [FS.pathExists, M.get, hc]
  have h3 : Flaky.io p (.create c.file) (FS.createNew c.file) = FS.createNew c.file := by
    funext fs
    simp [Flaky.io, hcr]
  have h4 : ∀ m, Flaky.setLen p c.file m = FS.setLen c.file m := by
    intro m
    funext fs
    simp [Flaky.setLen, Flaky.io, hsl]
  rw [M.bind_ok h1, M.bind_ok h2, h3]
  simp only [h4]
  rfl

/-- `populate_data_par` fails when no task can write. -/
theorem populateDataPar_unwritable {S : Type} [StoreOps S E] {s : S} {π : ParOrder} (hπ : π.Valid)
    {es : List E} (he : es ≠ []) (h0 : StoreOps.isEmpty (E := E) s = true)
    (hw : ∀ buf i, ∃ m, StoreOps.copyFromSlice (E := E) s buf i fs = (.error (.err m), fs)) :
    ∃ m, populateDataPar A π s es fs = (.error (.err m), fs) := by
  have hcs : chunks buildDataBlockSize es ≠ [] := by
    cases es with
    | nil => exact absurd rfl he
    | cons e es => simp [chunks, chunks.go]
  have hlen : 0 < (π (chunks buildDataBlockSize es).length).length := by
    rw [(hπ _).length_eq, List.length_range]
    exact List.length_pos_iff.2 hcs
  unfold populateDataPar
  rw [if_neg (by simp [h0])]
  cases hp : π (chunks buildDataBlockSize es).length with
  | nil => rw [hp] at hlen; simp at hlen
  | cons t ts =>
    obtain ⟨m, hm⟩ := hw (leafChunkBytes A ((chunks buildDataBlockSize es).getD t []) A.init) (buildDataBlockSize * t)
    exact ⟨m, M.bind_error hm⟩

/-! ### Leaves that can be written -/

theorem Flaky.Disk.copyFromSlice_writable (hw : ∀ f off data fs, p.fails (.write f off data) fs = false)
    (s : DiskStore E) (buf : Bytes) (i : Nat) :
    Flaky.Disk.copyFromSlice p s buf i = DiskStore.copyFromSlice s buf i := by
  have : ∀ f off data, Flaky.writeAllAt p f off data = FS.writeAllAt f off data := by
    intro f off data
    funext fs
    simp [Flaky.writeAllAt, Flaky.io, hw]
  unfold Flaky.Disk.copyFromSlice DiskStore.copyFromSlice Flaky.Disk.storeCopyFromSlice DiskStore.storeCopyFromSlice
  simp only [this]

omit [Element E] [LawfulElement E] in
theorem Flaky.sim_wrap_same {S : Type} (x : M S) :
    M.Sim NoFault (fun t' t => t' = (⟨t⟩ : Flaky.On p S)) (Flaky.wrap x) x := by
  intro fs
  cases hx : x fs with
  | mk r fs' =>
    cases r with
    | error e =>
      have : (Flaky.wrap x : M (Flaky.On p S)) fs = (.error e, fs') := M.bind_error hx
      rw [this]
      exact .inr rfl
    | ok a =>
      have : (Flaky.wrap x : M (Flaky.On p S)) fs = (.ok ⟨a⟩, fs') := M.bind_ok hx
      rw [this]
      exact ⟨a, rfl, rfl⟩

theorem populateLoop_writable (hw : ∀ f off data fs, p.fails (.write f off data) fs = false) (A : Alg E) :
    ∀ (items : List (Res E)) (a : A.σ) (buf : Bytes) (s : DiskStore E),
    M.Sim NoFault (fun y' y => y' = (y.1, (⟨y.2⟩ : Flaky.On p (DiskStore E))))
      (populateLoop A items a buf (⟨s⟩ : Flaky.On p (DiskStore E))) (populateLoop A items a buf s)
  | [], _, _, _ => M.Sim.pure rfl
  | item :: items, a, buf, s => by
    unfold populateLoop
    refine M.Sim.step fun e => ?_
    dsimp only
    split
    · refine M.Sim.bind (R := fun t' t => t' = (⟨t⟩ : Flaky.On p (DiskStore E))) ?_ fun s' s1 h => ?_
      · show M.Sim _ _ (Flaky.wrap (Flaky.Disk.copyFromSlice p s _ _)) _
        rw [Flaky.Disk.copyFromSlice_writable hw]
        exact Flaky.sim_wrap_same _
      · subst h
        exact populateLoop_writable hw A items _ _ s1
    · exact populateLoop_writable hw A items _ _ s

/-- Filling a new store fills it as on a disk that works. -/
theorem populateData_writable (hw : ∀ f off data fs, p.fails (.write f off data) fs = false) (A : Alg E)
    (items : List (Res E)) (s : DiskStore E) :
    M.Sim NoFault (fun t' t => t' = (⟨t⟩ : Flaky.On p (DiskStore E)))
      (populateData A (⟨s⟩ : Flaky.On p (DiskStore E)) items) (populateData A s items) := by
  unfold populateData
  show M.Sim _ _ (if StoreOps.isEmpty (E := E) s = false then _ else _) _
  split
  · exact M.Sim.pure rfl
  · refine M.Sim.bind (populateLoop_writable hw A items _ _ s) ?_
    rintro _ ⟨buf, t⟩ rfl
    show M.Sim _ _ (Flaky.wrap (Flaky.Disk.copyFromSlice p t _ _)) _
    rw [Flaky.Disk.copyFromSlice_writable hw]
    exact Flaky.sim_wrap_same _

/-- What filling a new `DiskStore` with the leaves leaves behind is zero behind the leaves. -/
theorem populateData_zero [FloatRows] (hA : A.LawfulReset) {size : Nat} {es : List E} (hfit : es.length ≤ size)
    (h : fs.file c.file = some (List.replicate (Element.byteLen E * size) 0)) :
    ∃ (s' : DiskStore E) (fs' : FS),
      populateData A (⟨0, c.file, false, Element.byteLen E * size⟩ : DiskStore E) (es.map .ok) fs = (.ok s', fs') ∧
      s'.file = c.file ∧ ZeroFrom c.file (size * Element.byteLen E) (es.length * Element.byteLen E) fs' := by
  rw [Nat.mul_comm] at h
  have hinv : LawfulWrite.Inv fs (⟨0, c.file, false, Element.byteLen E * size⟩ : DiskStore E) size :=
    ⟨_, h, by simp [Nat.mul_comm], by rw [Nat.mul_comm]⟩
  have hf0 : Filled fs (⟨0, c.file, false, Element.byteLen E * size⟩ : DiskStore E) size 0
      (fun i => (es.map A.leafHash).getD i (A.leafHash Element.default)) :=
    ⟨hinv, rfl, fun i hi => by omega⟩
  obtain ⟨q, n, s1, fs1, g1, g2, g3, g4, g5, g6, g7⟩ := populateLoop_ok hA (es.map A.leafHash)
    (A.leafHash Element.default) (by simpa using hfit) es A.init [] 0 _ fs hf0 (by omega) (by simp)
  have hI := DiskStore.copy_zero (E := E) (f := c.file) (m := size * Element.byteLen E) (N := es.length)
    (Nat.mul_le_mul_right _ hfit)
  have hz := populateLoop_prefix (S := DiskStore E) (A := A) (N := es.length)
    (I := fun s fs => s.file = c.file ∧
      ZeroFrom c.file (size * Element.byteLen E) (es.length * Element.byteLen E) fs) hI
    (es.map .ok) A.init [] _ fs _ _ (by simp [StoreOps.len]) ⟨rfl, zeroFrom_created h⟩ g1
  obtain ⟨s2, fs2, k1, -⟩ := g2.append (A.leafHash Element.default) (by simpa using hfit) g3 (es := q)
    ⟨[], by simpa using g4⟩
  have hq : n + q.length = es.length := by
    have := congrArg List.length g4
    simp at this g3
    omega
  have hlen : s1.len = n := g2.len_eq
  have hz2 := hI s1 (encodeAll q) fs1 s2 fs2 hz (by
    rw [hlen, length_encodeAll, ← Nat.add_mul, hq]) (by
      have : StoreOps.copyFromSlice (E := E) s1 (encodeAll q) n fs1 = (.ok s2, fs2) := g2.len_eq ▸ k1
      rw [hlen]
      exact this)
  refine ⟨s2, fs2, ?_, hz2⟩
  unfold populateData
  rw [if_neg (by simp [StoreOps.isEmpty])]
  have g1' : populateLoop A (es.map .ok) A.init [] (⟨0, c.file, false, Element.byteLen E * size⟩ : DiskStore E) fs =
    (.ok (encodeAll q, s1), fs1) := g1
  rw [M.bind_ok g1']
  exact k1

/-- `build` of a `DiskStore` whose file cannot be mapped. -/
theorem Flaky.Disk.build_unmappable {s : DiskStore E} {n : Nat} (hn : 1 < n)
    (hm : ∀ off len fs, p.fails (.map s.file off len) fs = true) (A : Alg E) (b : Nat) (σ : Sched) (rows : Nat)
    (cfg : Option StoreConfig) (fs : FS) :
    ∃ m, Flaky.Disk.build p A b σ s n rows cfg fs = (.error (.err m), fs) := by
  unfold Flaky.Disk.build
  by_cases h1 : nextPow2 b = b
  · rw [M.bind_ok (show mEnsure (nextPow2 b = b) _ fs = (.ok (), fs) by simp [mEnsure, ensure, h1])]
    by_cases h2 : s.len = n
    · rw [M.bind_ok (show mEnsure (s.len = n) _ fs = (.ok (), fs) by simp [mEnsure, ensure, h2])]
      by_cases h3 : n % 2 = 0
      · rw [M.bind_ok (show mEnsure (n % 2 = 0) _ fs = (.ok (), fs) by simp [mEnsure, ensure, h3])]
        refine ⟨"I/O error", M.bind_error ?_⟩
        rw [Flaky.Disk.buildLoop, if_pos hn]
        refine M.bind_error ?_
        refine M.bind_error ?_
        simp [Flaky.check, hm, Flaky.ioError]
      · exact ⟨_, M.bind_error (by simp [mEnsure, h3]; rfl)⟩
    · exact ⟨_, M.bind_error (by simp [mEnsure, h2]; rfl)⟩
  · exact ⟨_, M.bind_error (by simp [mEnsure, h1]; rfl)⟩

/-! The same for `LevelCacheStore`. -/

theorem Flaky.Cache.copyFromSlice_writable (hw : ∀ f off data fs, p.fails (.write f off data) fs = false)
    (s : LevelCacheStore E) (buf : Bytes) (i : Nat) :
    Flaky.Cache.copyFromSlice p s buf i = LevelCacheStore.copyFromSlice s buf i := by
  have : ∀ f off data, Flaky.writeAllAt p f off data = FS.writeAllAt f off data := by
    intro f off data
    funext fs
    simp [Flaky.writeAllAt, Flaky.io, hw]
  unfold Flaky.Cache.copyFromSlice LevelCacheStore.copyFromSlice Flaky.Cache.storeCopyFromSlice LevelCacheStore.storeCopyFromSlice
  simp only [this]

theorem populateLoop_cache_writable (hw : ∀ f off data fs, p.fails (.write f off data) fs = false) (A : Alg E) :
    ∀ (items : List (Res E)) (a : A.σ) (buf : Bytes) (s : LevelCacheStore E),
    M.Sim NoFault (fun y' y => y' = (y.1, (⟨y.2⟩ : Flaky.On p (LevelCacheStore E))))
      (populateLoop A items a buf (⟨s⟩ : Flaky.On p (LevelCacheStore E))) (populateLoop A items a buf s)
  | [], _, _, _ => M.Sim.pure rfl
  | item :: items, a, buf, s => by
    unfold populateLoop
    refine M.Sim.step fun e => ?_
    dsimp only
    split
    · refine M.Sim.bind (R := fun t' t => t' = (⟨t⟩ : Flaky.On p (LevelCacheStore E))) ?_ fun s' s1 h => ?_
      · show M.Sim _ _ (Flaky.wrap (Flaky.Cache.copyFromSlice p s _ _)) _
        rw [Flaky.Cache.copyFromSlice_writable hw]
        exact Flaky.sim_wrap_same _
      · subst h
        exact populateLoop_cache_writable hw A items _ _ s1
    · exact populateLoop_cache_writable hw A items _ _ s

/-- Filling a new `LevelCacheStore` fills it as on a disk that works. -/
theorem populateData_cache_writable (hw : ∀ f off data fs, p.fails (.write f off data) fs = false) (A : Alg E)
    (items : List (Res E)) (s : LevelCacheStore E) :
    M.Sim NoFault (fun t' t => t' = (⟨t⟩ : Flaky.On p (LevelCacheStore E)))
      (populateData A (⟨s⟩ : Flaky.On p (LevelCacheStore E)) items) (populateData A s items) := by
  unfold populateData
  show M.Sim _ _ (if StoreOps.isEmpty (E := E) s = false then _ else _) _
  split
  · exact M.Sim.pure rfl
  · refine M.Sim.bind (populateLoop_cache_writable hw A items _ _ s) ?_
    rintro _ ⟨buf, t⟩ rfl
    show M.Sim _ _ (Flaky.wrap (Flaky.Cache.copyFromSlice p t _ _)) _
    rw [Flaky.Cache.copyFromSlice_writable hw]
    exact Flaky.sim_wrap_same _

/-- What filling a new `LevelCacheStore` with the leaves leaves behind is zero behind the leaves. -/
theorem populateData_cache_zero [FloatRows] (hA : A.LawfulReset) {es : List E} (hfit : es.length ≤ nodes b k)
    (h : fs.file c.file = some (List.replicate (Element.byteLen E * nodes b k) 0)) :
    ∃ (s' : LevelCacheStore E) (fs' : FS),
      populateData A (LevelCacheStore.built E b k c 0 : LevelCacheStore E) (es.map .ok) fs = (.ok s', fs') ∧
      s'.file = c.file ∧ ZeroFrom c.file (nodes b k * Element.byteLen E) (es.length * Element.byteLen E) fs' := by
  rw [Nat.mul_comm] at h
  have hinv : LawfulWrite.Inv fs (LevelCacheStore.built E b k c 0 : LevelCacheStore E) (nodes b k) :=
    ⟨_, h, by simp [LevelCacheStore.built, Nat.mul_comm],
      by simp [LevelCacheStore.built, Nat.mul_comm]⟩
  have hf0 : Filled fs (LevelCacheStore.built E b k c 0 : LevelCacheStore E) (nodes b k) 0
      (fun i => (es.map A.leafHash).getD i (A.leafHash Element.default)) :=
    ⟨hinv, rfl, fun i hi => by omega⟩
  obtain ⟨q, n, s1, fs1, g1, g2, g3, g4, g5, g6, g7⟩ := populateLoop_ok hA (es.map A.leafHash)
    (A.leafHash Element.default) (by simpa using hfit) es A.init [] 0 _ fs hf0 (by omega) (by simp)
  have hI := LevelCacheStore.copy_zero (E := E) (f := c.file) (m := nodes b k * Element.byteLen E) (N := es.length)
    (Nat.mul_le_mul_right _ hfit)
  have hz := populateLoop_prefix (S := LevelCacheStore E) (A := A) (N := es.length)
    (I := fun s fs => s.file = c.file ∧
      ZeroFrom c.file (nodes b k * Element.byteLen E) (es.length * Element.byteLen E) fs) hI
    (es.map .ok) A.init [] _ fs _ _ (by simp [StoreOps.len, LevelCacheStore.built]) ⟨rfl, zeroFrom_created h⟩ g1
  obtain ⟨s2, fs2, k1, -⟩ := g2.append (A.leafHash Element.default) (by simpa using hfit) g3 (es := q)
    ⟨[], by simpa using g4⟩
  have hq : n + q.length = es.length := by
    have := congrArg List.length g4
    simp at this g3
    omega
  have hlen : s1.len = n := g2.len_eq
  have hz2 := hI s1 (encodeAll q) fs1 s2 fs2 hz (by
    rw [hlen, length_encodeAll, ← Nat.add_mul, hq]) (by
      have : StoreOps.copyFromSlice (E := E) s1 (encodeAll q) n fs1 = (.ok s2, fs2) := g2.len_eq ▸ k1
      rw [hlen]
      exact this)
  refine ⟨s2, fs2, ?_, hz2⟩
  unfold populateData
  rw [if_neg (by simp [StoreOps.isEmpty, LevelCacheStore.built])]
  have g1' : populateLoop A (es.map .ok) A.init [] (LevelCacheStore.built E b k c 0 : LevelCacheStore E) fs =
    (.ok (encodeAll q, s1), fs1) := g1
  rw [M.bind_ok g1']
  exact k1

/-- `build` of a `LevelCacheStore` whose file cannot be mapped. -/
theorem Flaky.Cache.build_unmappable [FloatRows] (hb : Arity b) (hk : 1 ≤ k) (hf : FloatRows.ExactAt b k)
    (hd : c.rowsToDiscard < k) {s : LevelCacheStore E}
    (hm : ∀ off len fs, p.fails (.map s.file off len) fs = true) (A : Alg E) (σ : Sched) (rows : Nat) (fs : FS) :
    ∃ m, Flaky.Cache.build p A b σ s (b ^ k) rows (some c) fs = (.error (.err m), fs) := by
  have hn : 1 < b ^ k := Nat.one_lt_pow (by omega) hb.two_le
  unfold Flaky.Cache.build
  by_cases h1 : nextPow2 b = b
  · rw [M.bind_ok (show mEnsure (nextPow2 b = b) _ fs = (.ok (), fs) by simp [mEnsure, ensure, h1])]
    by_cases h2 : s.len = b ^ k
    · rw [M.bind_ok (show mEnsure (s.len = b ^ k) _ fs = (.ok (), fs) by simp [mEnsure, ensure, h2])]
      by_cases h3 : b ^ k % 2 = 0
      · rw [M.bind_ok (show mEnsure (b ^ k % 2 = 0) _ fs = (.ok (), fs) by simp [mEnsure, ensure, h3])]
        refine ⟨"I/O error", ?_⟩
        dsimp only
        rw [merkleTreeCacheSize_pow hb hk hf hd, M.ofRes_ok_bind, merkleTreeLen_pow hb hk, M.ofRes_ok_bind, subP_ok (by
          rw [← LevelCacheStore.rowStart_cache hd]; omega), M.ofRes_ok_bind]
        refine M.bind_error ?_
        rw [Flaky.Cache.buildLoop, if_pos hn]
        refine M.bind_error ?_
        refine M.bind_error ?_
        simp [Flaky.check, hm, Flaky.ioError]
      · exact ⟨_, M.bind_error (by simp [mEnsure, h3]; rfl)⟩
    · exact ⟨_, M.bind_error (by simp [mEnsure, h2]; rfl)⟩
  · exact ⟨_, M.bind_error (by simp [mEnsure, h1]; rfl)⟩

end Verif
