import Verif.Props.Flaky
import Verif.Lemmas.FailedBuild
import Verif.Props.Interrupted
/-
C75: builds that cannot write or map the file, for all trees.
-/
namespace Verif
open Spec

variable {E : Type} [Element E] [LawfulElement E] {A : Alg E} {b k : Nat} {p : IoPlan} {c : StoreConfig}
  {fs : FS}

/-- **C75** fails for every parallel build on a `DiskStore` whose file can be created and not written to (a quota, a
disk that is full of sparse files): `from_par_iter_with_config` returns `Err`, and trying again with the same
configuration on a disk that works returns a tree whose root is the element encoded by zeros, whatever the leaves. -/
theorem C75_par_every_refuted [FloatRows] (hb : Arity b) (hk : 1 ≤ k) (hf : FloatRows.ExactAt b k)
    (hcr : ∀ fs, p.fails (.create c.file) fs = false) (hsl : ∀ n fs, p.fails (.setLen c.file n) fs = false)
    (hw : ∀ off data fs, p.fails (.write c.file off data) fs = true)
    (hl : ∀ off data fs, p.left (.write c.file off data) fs = fs) (hc : fs.file c.file = none)
    {π : ParOrder} (hπ : π.Valid) {es : List E} (hn : es.length = b ^ k) (σ : Sched) :
    ∃ m fs₁, BaseTree.fromParIterWithConfig (S := Flaky.On p (DiskStore E)) A b σ π es c fs =
        (.error (.err m), fs₁) ∧
      ∀ (σ' : Sched) (src : Source A), src.isBytes = false → src.leaves.length = b ^ k →
        (src.build (S := DiskStore E) b σ' (some c) fs₁).1.map (fun t => t.root)
          = Element.fromSlice (List.replicate (Element.byteLen E) 0) := by
  obtain ⟨fs₁, h1, h2, _⟩ := DiskStore.newWithConfig_run (E := E) fs (nodes b k) b c hc
  have hnew : (Store.newWithConfig (nodes b k) b c fs : Res (Flaky.On p (DiskStore E)) × FS) =
      (.ok ⟨⟨0, c.file, false, Element.byteLen E * nodes b k⟩⟩, fs₁) := by
    show Flaky.wrap (Flaky.Disk.newWithConfig p _ b c) fs = _
    exact M.bind_ok ((Flaky.Disk.newWithConfig_creatable hcr hsl hc _ _).trans h1)
  have hsz : M.ofRes (BaseTree.sizes b es.length) fs = (.ok (nodes b k, k + 1), fs) := by
    rw [hn, BaseTree.sizes_ok hb hk hf]
    rfl
  have he : es ≠ [] := by
    have : 0 < b ^ k := Nat.pow_pos (Nat.lt_of_lt_of_le Nat.zero_lt_two hb.two_le)
    rintro rfl
    simp at hn
    omega
  obtain ⟨m, hpop⟩ := populateDataPar_unwritable (A := A) (fs := fs₁) hπ he
    (s := (⟨⟨0, c.file, false, Element.byteLen E * nodes b k⟩⟩ : Flaky.On p (DiskStore E))) rfl fun buf i => by
      obtain ⟨m, hm⟩ := Flaky.Disk.copyFromSlice_unwritable hw hl
        (s := (⟨0, c.file, false, Element.byteLen E * nodes b k⟩ : DiskStore E)) rfl buf i fs₁
      exact ⟨m, M.bind_error hm⟩
  refine ⟨m, fs₁, ?_, fun σ' src hby hn' => ?_⟩
  · unfold BaseTree.fromParIterWithConfig
    dsimp only
    rw [M.bind_ok hsz]
    dsimp only
    rw [M.bind_ok hnew]
    rw [if_neg (by simp [StoreOps.loadedFromDisk])]
    exact M.bind_error hpop
  · rw [(C33_disk_full_length hb hk hf h2 (by simp [Nat.mul_comm]) σ' hby hn').1, List.drop_replicate,
      Nat.mul_comm, ← Nat.sub_mul]
    have := nodes_pos b k
    rw [show nodes b k - (nodes b k - 1) = 1 by omega, Nat.one_mul]

/-- **C75** fails in the same way for every parallel build on a `LevelCacheStore`. -/
theorem C75_par_level_cache_every_refuted [FloatRows] (hb : Arity b) (hk : 1 ≤ k) (hf : FloatRows.ExactAt b k)
    (hd : c.rowsToDiscard < k)
    (hcr : ∀ fs, p.fails (.create c.file) fs = false) (hsl : ∀ n fs, p.fails (.setLen c.file n) fs = false)
    (hw : ∀ off data fs, p.fails (.write c.file off data) fs = true)
    (hl : ∀ off data fs, p.left (.write c.file off data) fs = fs) (hc : fs.file c.file = none)
    {π : ParOrder} (hπ : π.Valid) {es : List E} (hn : es.length = b ^ k) (σ : Sched) :
    ∃ m fs₁, BaseTree.fromParIterWithConfig (S := Flaky.On p (LevelCacheStore E)) A b σ π es c fs =
        (.error (.err m), fs₁) ∧
      ∀ (σ' : Sched) (src : Source A), src.isBytes = false → src.leaves.length = b ^ k →
        (src.build (S := LevelCacheStore E) b σ' (some c) fs₁).1.map (fun t => t.root)
          = Element.fromSlice (List.replicate (Element.byteLen E) 0) := by
  obtain ⟨fs₁, h1, h2, _⟩ := LevelCacheStore.newWithConfig_run (E := E) hb hk hf hd hc
  have hnew : (Store.newWithConfig (nodes b k) b c fs : Res (Flaky.On p (LevelCacheStore E)) × FS) =
      (.ok ⟨LevelCacheStore.built E b k c 0⟩, fs₁) := by
    show Flaky.wrap (Flaky.Cache.newWithConfig p _ b c) fs = _
    exact M.bind_ok ((Flaky.Cache.newWithConfig_creatable hcr hsl hc _ _).trans h1)
  have hsz : M.ofRes (BaseTree.sizes b es.length) fs = (.ok (nodes b k, k + 1), fs) := by
    rw [hn, BaseTree.sizes_ok hb hk hf]
    rfl
  have he : es ≠ [] := by
    have : 0 < b ^ k := Nat.pow_pos (Nat.lt_of_lt_of_le Nat.zero_lt_two hb.two_le)
    rintro rfl
    simp at hn
    omega
  obtain ⟨m, hpop⟩ := populateDataPar_unwritable (A := A) (fs := fs₁) hπ he
    (s := (⟨LevelCacheStore.built E b k c 0⟩ : Flaky.On p (LevelCacheStore E))) rfl fun buf i => by
      obtain ⟨m, hm⟩ := Flaky.Cache.copyFromSlice_unwritable hw hl
        (s := LevelCacheStore.built E b k c 0) rfl buf i fs₁
      exact ⟨m, M.bind_error hm⟩
  refine ⟨m, fs₁, ?_, fun σ' src hby hn' => ?_⟩
  · unfold BaseTree.fromParIterWithConfig
    dsimp only
    rw [M.bind_ok hsz]
    dsimp only
    rw [M.bind_ok hnew]
    rw [if_neg (by simp [StoreOps.loadedFromDisk, LevelCacheStore.built])]
    exact M.bind_error hpop
  · rw [C33_level_cache_existing hb hk hf hd h2 σ' hby hn']
    exact zero_region_root hd (by simp [Nat.mul_comm]) (by rw [Nat.mul_comm (nodes b k)]; simp)

/-- **C75** fails for every build with `new_with_config` or `try_from_iter_with_config` on a `DiskStore` whose file can
be created and written to and not mapped: the constructor returns `Err`, and trying again with the same configuration
on a disk that works returns a tree whose root is the element encoded by zeros, whatever the leaves. -/
theorem C75_build_every_refuted [FloatRows] (hA : A.LawfulReset) (hb : Arity b) (hk : 1 ≤ k)
    (hf : FloatRows.ExactAt b k)
    (hcr : ∀ fs, p.fails (.create c.file) fs = false) (hsl : ∀ n fs, p.fails (.setLen c.file n) fs = false)
    (hw : ∀ f off data fs, p.fails (.write f off data) fs = false)
    (hm : ∀ off n fs, p.fails (.map c.file off n) fs = true) (hc : fs.file c.file = none)
    {es : List E} (hn : es.length = b ^ k) (σ : Sched) :
    ∃ m fs₁, (Source.iter (A := A) es).build (S := Flaky.On p (DiskStore E)) b σ (some c) fs = (.error (.err m), fs₁) ∧
      (Source.new (A := A) es).build (S := Flaky.On p (DiskStore E)) b σ (some c) fs = (.error (.err m), fs₁) ∧
      ∀ (σ' : Sched) (src : Source A), src.isBytes = false → src.leaves.length = b ^ k →
        (src.build (S := DiskStore E) b σ' (some c) fs₁).1.map (fun t => t.root)
          = Element.fromSlice (List.replicate (Element.byteLen E) 0) := by
  obtain ⟨fs₁, h1, h2, _⟩ := DiskStore.newWithConfig_run (E := E) fs (nodes b k) b c hc
  have hnew : (Store.newWithConfig (nodes b k) b c fs : Res (Flaky.On p (DiskStore E)) × FS) =
      (.ok ⟨⟨0, c.file, false, Element.byteLen E * nodes b k⟩⟩, fs₁) :=
    M.bind_ok ((Flaky.Disk.newWithConfig_creatable hcr hsl hc _ _).trans h1)
  have hsz : M.ofRes (BaseTree.sizes b es.length) fs = (.ok (nodes b k, k + 1), fs) := by
    rw [hn, BaseTree.sizes_ok hb hk hf]
    rfl
  have hlt : b ^ k < nodes b k := by
    obtain ⟨j, rfl⟩ : ∃ j, k = j + 1 := ⟨k - 1, by omega⟩
    have := nodes_pos b j
    rw [nodes]
    omega
  obtain ⟨s2, fs2, g1, g2, bs, g3, g4, g5⟩ := populateData_zero (A := A) hA (es := es) (by omega) h2
  have hpop : populateData A (⟨⟨0, c.file, false, Element.byteLen E * nodes b k⟩⟩ : Flaky.On p (DiskStore E))
      (es.map .ok) fs₁ = (.ok ⟨s2⟩, fs2) := by
    rw [(populateData_writable hw A _ _).run_eq fs₁, g1]
    rfl
  have hone : 1 < es.length := hn ▸ Nat.one_lt_pow (by omega) hb.two_le
  obtain ⟨m, hbuild⟩ := Flaky.Disk.build_unmappable (s := s2) hone (fun off n fs => by rw [g2]; exact hm off n fs) A b σ
    (k + 1) (some c) fs2
  have hrun : BaseTree.tryFromIterWithConfig (S := Flaky.On p (DiskStore E)) A b σ (some es.length) (es.map .ok) c fs =
      (.error (.err m), fs2) := by
    unfold BaseTree.tryFromIterWithConfig
    dsimp only
    rw [M.bind_ok hsz]
    dsimp only
    rw [M.bind_ok hnew]
    rw [if_neg (by simp [StoreOps.loadedFromDisk])]
    have hexp : M.expect "failed to populate data" (populateData A (⟨⟨0, c.file, false, Element.byteLen E * nodes b k⟩⟩ :
        Flaky.On p (DiskStore E)) (es.map .ok)) fs₁ = (.ok ⟨s2⟩, fs2) := by
      unfold M.expect
      rw [hpop]
    rw [M.bind_ok hexp]
    exact M.bind_error (M.bind_error hbuild)
  refine ⟨m, fs2, hrun, hrun, fun σ' src hby hn' => ?_⟩
  rw [(C33_disk_full_length hb hk hf g3 g4 σ' hby hn').1,
    zero_tail g5 (Nat.mul_le_mul_right _ (by omega)), ← Nat.sub_mul]
  rw [show nodes b k - (nodes b k - 1) = 1 by omega, Nat.one_mul]

/-- **C75** fails in the same way for every such build on a `LevelCacheStore`. -/
theorem C75_build_level_cache_every_refuted [FloatRows] (hA : A.LawfulReset) (hb : Arity b) (hk : 1 ≤ k)
    (hf : FloatRows.ExactAt b k) (hd : c.rowsToDiscard < k)
    (hcr : ∀ fs, p.fails (.create c.file) fs = false) (hsl : ∀ n fs, p.fails (.setLen c.file n) fs = false)
    (hw : ∀ f off data fs, p.fails (.write f off data) fs = false)
    (hm : ∀ off n fs, p.fails (.map c.file off n) fs = true) (hc : fs.file c.file = none)
    {es : List E} (hn : es.length = b ^ k) (σ : Sched) :
    ∃ m fs₁, (Source.iter (A := A) es).build (S := Flaky.On p (LevelCacheStore E)) b σ (some c) fs = (.error (.err m), fs₁) ∧
      (Source.new (A := A) es).build (S := Flaky.On p (LevelCacheStore E)) b σ (some c) fs = (.error (.err m), fs₁) ∧
      ∀ (σ' : Sched) (src : Source A), src.isBytes = false → src.leaves.length = b ^ k →
        (src.build (S := LevelCacheStore E) b σ' (some c) fs₁).1.map (fun t => t.root)
          = Element.fromSlice (List.replicate (Element.byteLen E) 0) := by
  obtain ⟨fs₁, h1, h2, _⟩ := LevelCacheStore.newWithConfig_run (E := E) hb hk hf hd hc
  have hnew : (Store.newWithConfig (nodes b k) b c fs : Res (Flaky.On p (LevelCacheStore E)) × FS) =
      (.ok ⟨LevelCacheStore.built E b k c 0⟩, fs₁) :=
    M.bind_ok ((Flaky.Cache.newWithConfig_creatable hcr hsl hc _ _).trans h1)
  have hsz : M.ofRes (BaseTree.sizes b es.length) fs = (.ok (nodes b k, k + 1), fs) := by
    rw [hn, BaseTree.sizes_ok hb hk hf]
    rfl
  have hlt : b ^ k < nodes b k := by
    obtain ⟨j, rfl⟩ : ∃ j, k = j + 1 := ⟨k - 1, by omega⟩
    have := nodes_pos b j
    rw [nodes]
    omega
  obtain ⟨s2, fs2, g1, g2, bs, g3, g4, g5⟩ := populateData_cache_zero (A := A) hA (es := es) (by omega) h2
  have hpop : populateData A (⟨LevelCacheStore.built E b k c 0⟩ : Flaky.On p (LevelCacheStore E))
      (es.map .ok) fs₁ = (.ok ⟨s2⟩, fs2) := by
    rw [(populateData_cache_writable hw A _ _).run_eq fs₁, g1]
    rfl
  obtain ⟨m, hbuild⟩ := Flaky.Cache.build_unmappable hb hk hf hd (s := s2) (fun off n fs => by rw [g2]; exact hm off n fs)
    A σ (k + 1) fs2
  have hrun : BaseTree.tryFromIterWithConfig (S := Flaky.On p (LevelCacheStore E)) A b σ (some es.length) (es.map .ok) c fs =
      (.error (.err m), fs2) := by
    unfold BaseTree.tryFromIterWithConfig
    dsimp only
    rw [M.bind_ok hsz]
    dsimp only
    rw [M.bind_ok hnew]
    rw [if_neg (by simp [StoreOps.loadedFromDisk, LevelCacheStore.built])]
    have hexp : M.expect "failed to populate data" (populateData A (⟨LevelCacheStore.built E b k c 0⟩ :
        Flaky.On p (LevelCacheStore E)) (es.map .ok)) fs₁ = (.ok ⟨s2⟩, fs2) := by
      unfold M.expect
      rw [hpop]
    rw [M.bind_ok hexp]
    rw [hn]
    exact M.bind_error (M.bind_error hbuild)
  refine ⟨m, fs2, hrun, hrun, fun σ' src hby hn' => ?_⟩
  rw [C33_level_cache_existing hb hk hf hd g3 σ' hby hn']
  have := nodes_pos b (k - 1 - c.rowsToDiscard)
  exact zero_region_root hd g4 (zero_tail g5 (Nat.mul_le_mul_right _ (by omega)))

/-- **C75** fails in the same way for every build with `from_data_with_config`, on both stores. -/
theorem C75_data_every_refuted [FloatRows] (hA : A.LawfulReset) (hb : Arity b) (hk : 1 ≤ k)
    (hf : FloatRows.ExactAt b k) (hd : c.rowsToDiscard < k)
    (hcr : ∀ fs, p.fails (.create c.file) fs = false) (hsl : ∀ n fs, p.fails (.setLen c.file n) fs = false)
    (hw : ∀ f off data fs, p.fails (.write f off data) fs = false)
    (hm : ∀ off n fs, p.fails (.map c.file off n) fs = true) (hc : fs.file c.file = none)
    {ds : List (HashableVal A)} (hn : ds.length = b ^ k) (σ : Sched) :
    (∃ m fs₁, (Source.data ds).build (S := Flaky.On p (DiskStore E)) b σ (some c) fs = (.error (.err m), fs₁) ∧
      ∀ (σ' : Sched) (src : Source A), src.isBytes = false → src.leaves.length = b ^ k →
        (src.build (S := DiskStore E) b σ' (some c) fs₁).1.map (fun t => t.root)
          = Element.fromSlice (List.replicate (Element.byteLen E) 0)) ∧
    ∃ m fs₁, (Source.data ds).build (S := Flaky.On p (LevelCacheStore E)) b σ (some c) fs = (.error (.err m), fs₁) ∧
      ∀ (σ' : Sched) (src : Source A), src.isBytes = false → src.leaves.length = b ^ k →
        (src.build (S := LevelCacheStore E) b σ' (some c) fs₁).1.map (fun t => t.root)
          = Element.fromSlice (List.replicate (Element.byteLen E) 0) := by
  have hl : ∀ (xs : List (HashableVal A)) a, (BaseTree.dataItems A xs a).length = xs.length := by
    intro xs
    induction xs with
    | nil => exact fun _ => rfl
    | cons x xs ih => exact fun a => congrArg (· + 1) (ih _)
  have hl' : (BaseTree.dataItems A ds A.init).length = b ^ k := (hl _ _).trans hn
  constructor
  · obtain ⟨m, fs₁, h1, -, h2⟩ := C75_build_every_refuted hA hb hk hf hcr hsl hw hm hc hl' σ
    refine ⟨m, fs₁, ?_, h2⟩
    rw [Source.build, hl] at h1
    exact h1
  · obtain ⟨m, fs₁, h1, -, h2⟩ := C75_build_level_cache_every_refuted hA hb hk hf hd hcr hsl hw hm hc hl' σ
    refine ⟨m, fs₁, ?_, h2⟩
    rw [Source.build, hl] at h1
    exact h1

/-! ### The hypotheses can be met -/

section examples
attribute [local instance] idealRows

/-- A disk on which files can be created and not written to. -/
def unwritableDisk : IoPlan := { fails := fun op _ => match op with | .write .. => true | _ => false }

example : ∃ m fs₁, BaseTree.fromParIterWithConfig (S := Flaky.On unwritableDisk (DiskStore UInt8)) toyAlg 2
      Sched.sequential (fun n => List.range n) [1, 2, 3, 4] (StoreConfig.new "d" "t" 0) FS.empty = (.error (.err m), fs₁) ∧
    ((Source.new (A := toyAlg) [1, 2, 3, 4]).build (S := DiskStore UInt8) 2 Sched.sequential
      (some (StoreConfig.new "d" "t" 0)) fs₁).1.map (fun t => t.root) = .ok 0 := by
  obtain ⟨m, fs₁, h1, h2⟩ := C75_par_every_refuted (A := toyAlg) (p := unwritableDisk) (k := 2)
    (c := StoreConfig.new "d" "t" 0) (fs := FS.empty) (π := fun n => List.range n) (es := [1, 2, 3, 4]) (b := 2)
    ⟨1, by decide, rfl⟩ (by decide) (idealRows_exact (by decide) _) (fun _ => rfl) (fun _ _ => rfl) (fun _ _ _ => rfl)
    (fun _ _ _ => rfl) rfl (fun _ => .refl _) rfl Sched.sequential
  exact ⟨m, fs₁, h1, (h2 Sched.sequential (.new [1, 2, 3, 4]) rfl rfl).trans (by decide +kernel)⟩

-- the plan of `C75_build_refuted`
example : ∃ m fs₁, (Source.new (A := toyAlg) [1, 2, 3, 4]).build (S := Flaky.On fullDisk (DiskStore UInt8)) 2
      Sched.sequential (some (StoreConfig.new "d" "t" 0)) FS.empty = (.error (.err m), fs₁) ∧
    ((Source.new (A := toyAlg) [1, 2, 3, 4]).build (S := DiskStore UInt8) 2 Sched.sequential
      (some (StoreConfig.new "d" "t" 0)) fs₁).1.map (fun t => t.root) = .ok 0 := by
  obtain ⟨m, fs₁, -, h1, h2⟩ := C75_build_every_refuted (A := toyAlg) (p := fullDisk) (k := 2)
    (c := StoreConfig.new "d" "t" 0) (fs := FS.empty) (es := [1, 2, 3, 4]) (b := 2) toyAlg_reset
    ⟨1, by decide, rfl⟩ (by decide) (idealRows_exact (by decide) _) (fun _ => rfl) (fun _ _ => rfl) (fun _ _ _ _ => rfl)
    (fun _ _ _ => rfl) rfl rfl Sched.sequential
  exact ⟨m, fs₁, h1, (h2 Sched.sequential (.new [1, 2, 3, 4]) rfl rfl).trans (by decide +kernel)⟩

-- the same for `from_data_with_config`
example : ∃ m fs₁, (Source.data (A := toyAlg) [fun (s : UInt8) => s, fun (s : UInt8) => s + 1]).build
    (S := Flaky.On fullDisk (DiskStore UInt8)) 2 Sched.sequential (some (StoreConfig.new "d" "t" 0)) FS.empty =
      (.error (.err m), fs₁) := by
  obtain ⟨⟨m, fs₁, h1, -⟩, -⟩ := C75_data_every_refuted (A := toyAlg) (p := fullDisk) (k := 1)
    (c := StoreConfig.new "d" "t" 0) (fs := FS.empty) (b := 2) toyAlg_reset
    ⟨1, by decide, rfl⟩ (by decide) (idealRows_exact (by decide) _) (by decide) (fun _ => rfl) (fun _ _ => rfl)
    (fun _ _ _ _ => rfl) (fun _ _ _ => rfl) rfl (ds := [fun (s : UInt8) => s, fun (s : UInt8) => s + 1]) rfl
    Sched.sequential
  exact ⟨m, fs₁, h1⟩
-- the same two on a `LevelCacheStore`
example : ∃ m fs₁, (Source.new (A := toyAlg) [1, 2, 3, 4]).build (S := Flaky.On fullDisk (LevelCacheStore UInt8)) 2
    Sched.sequential (some (StoreConfig.new "d" "t" 0)) FS.empty = (.error (.err m), fs₁) := by
  obtain ⟨m, fs₁, -, h1, -⟩ := C75_build_level_cache_every_refuted (A := toyAlg) (p := fullDisk) (k := 2)
    (c := StoreConfig.new "d" "t" 0) (fs := FS.empty) (es := [1, 2, 3, 4]) (b := 2) toyAlg_reset
    ⟨1, by decide, rfl⟩ (by decide) (idealRows_exact (by decide) _) (by decide) (fun _ => rfl) (fun _ _ => rfl)
    (fun _ _ _ _ => rfl) (fun _ _ _ => rfl) rfl rfl Sched.sequential
  exact ⟨m, fs₁, h1⟩
example : ∃ m fs₁, BaseTree.fromParIterWithConfig (S := Flaky.On unwritableDisk (LevelCacheStore UInt8)) toyAlg 2
    Sched.sequential (fun n => List.range n) [1, 2, 3, 4] (StoreConfig.new "d" "t" 0) FS.empty =
      (.error (.err m), fs₁) := by
  obtain ⟨m, fs₁, h1, -⟩ := C75_par_level_cache_every_refuted (A := toyAlg) (p := unwritableDisk) (k := 2)
    (c := StoreConfig.new "d" "t" 0) (fs := FS.empty) (π := fun n => List.range n) (es := [1, 2, 3, 4]) (b := 2)
    ⟨1, by decide, rfl⟩ (by decide) (idealRows_exact (by decide) _) (by decide) (fun _ => rfl) (fun _ _ => rfl)
    (fun _ _ _ => rfl) (fun _ _ _ => rfl) rfl (fun _ => .refl _) rfl Sched.sequential
  exact ⟨m, fs₁, h1⟩

end examples
end Verif
