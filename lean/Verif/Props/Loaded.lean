import Verif.Lemmas.Loaded
import Verif.Lemmas.Construct
import Verif.Spec.Ideal
import Verif.Spec.Toy
/-! Property C90: when a store says it was loaded from disk. -/
namespace Verif
open StoreOps

section
variable {E : Type} [Element E] [FloatRows]

/-- **C90** for `DiskStore`: right after its construction a store says it was loaded exactly when the constructor
takes a configuration and the file was there before the call. -/
theorem C90_disk (size b : Nat) (data : Bytes) (c : StoreConfig) (fs fs' : FS) (s : DiskStore E) :
    (Store.newWithConfig size b c fs = (.ok s, fs') → loadedFromDisk s = (fs.file c.file).isSome) ∧
    (Store.newFromSliceWithConfig size b data c fs = (.ok s, fs') → loadedFromDisk s = (fs.file c.file).isSome) ∧
    (Store.newFromDisk size b c fs = (.ok s, fs') → loadedFromDisk s = true ∧ (fs.file c.file).isSome) ∧
    (Store.new size fs = (.ok s, fs') → loadedFromDisk s = false) ∧
    (Store.newFromSlice size data fs = (.ok s, fs') → loadedFromDisk s = false) := by
  have hd : ∀ fs fs' (s : DiskStore E), DiskStore.newFromDisk size b c fs = (.ok s, fs') →
      s.loadedFromDisk = true ∧ (fs.file c.file).isSome := by
    intro fs fs' s h
    unfold DiskStore.newFromDisk DiskStore.newFromDiskWithPath at h
    rw [M.bind_ok (pathExists_run _ _)] at h
    cases hx : (fs.file c.file).isSome with
    | false =>
      rw [hx, M.bind_error (mEnsure_false (by simp) _ _)] at h
      cases h
    | true =>
      refine ⟨?_, rfl⟩
      exact (M.Yields.step fun _ => .step fun _ => .step fun _ => .step fun _ => .pure rfl :
        M.Yields _ (fun s : DiskStore E => s.loadedFromDisk = true)) _ _ _ h
  have hc : ∀ fs fs' (s : DiskStore E), DiskStore.newWithConfig size b c fs = (.ok s, fs') →
      s.loadedFromDisk = (fs.file c.file).isSome := by
    intro fs fs' s h
    unfold DiskStore.newWithConfig at h
    rw [M.bind_ok (pathExists_run _ _)] at h
    cases hx : (fs.file c.file).isSome with
    | true =>
      rw [hx, if_pos rfl] at h
      exact (hd _ _ _ h).1
    | false =>
      rw [hx, if_neg (by simp)] at h
      exact (M.Yields.step fun _ => .step fun _ => .pure rfl :
        M.Yields _ (fun s : DiskStore E => s.loadedFromDisk = false)) _ _ _ h
  have hn : M.Yields (DiskStore.new (E := E) size) (fun s => s.loadedFromDisk = false) := by
    unfold DiskStore.new
    exact .step fun _ => .step fun _ => .pure rfl
  refine ⟨hc _ _ _, ?_, hd _ _ _, hn _ _ _, ?_⟩
  · intro h
    change DiskStore.newFromSliceWithConfig size b data c fs = _ at h
    unfold DiskStore.newFromSliceWithConfig at h
    obtain ⟨r, fs1, h1, h⟩ := M.bind_ok_iff.mp h
    obtain ⟨_, fs2, h2, h⟩ := M.bind_ok_iff.mp h
    obtain ⟨s1, fs3, h3, h4⟩ := M.bind_ok_iff.mp h
    obtain rfl : fs = fs1 := (Prod.mk.inj h1).2
    obtain rfl : fs = fs2 := (Prod.mk.inj h2).2
    rw [← hc _ _ _ h3]
    split at h4
    · cases h4
      rfl
    · obtain ⟨_, _, -, h5⟩ := M.bind_ok_iff.mp h4
      cases h5
      rfl
  · intro h
    change DiskStore.newFromSlice size data fs = _ at h
    have : M.Yields (DiskStore.newFromSlice size data) (fun s : DiskStore E => s.loadedFromDisk = false) := by
      unfold DiskStore.newFromSlice
      exact .step fun _ => .step fun _ => .bind hn fun s hs => .step fun _ => .pure hs
    exact this _ _ _ h

/-- **C90** for `LevelCacheStore` and the constructors of `trait Store`. -/
theorem C90_level_cache_partial (size b : Nat) (data : Bytes) (c : StoreConfig) (fs fs' : FS)
    (s : LevelCacheStore E) :
    (Store.newWithConfig size b c fs = (.ok s, fs') → loadedFromDisk s = (fs.file c.file).isSome) ∧
    (Store.newFromSliceWithConfig size b data c fs = (.ok s, fs') → loadedFromDisk s = (fs.file c.file).isSome) ∧
    (Store.newFromDisk size b c fs = (.ok s, fs') → loadedFromDisk s = true ∧ (fs.file c.file).isSome) ∧
    (Store.new size fs = (.ok s, fs') → loadedFromDisk s = false) ∧
    (Store.newFromSlice size data fs = (.ok s, fs') → loadedFromDisk s = false) := by
  have hd : ∀ fs fs' (s : LevelCacheStore E), LevelCacheStore.newFromDisk size b c fs = (.ok s, fs') →
      s.loadedFromDisk = true ∧ (fs.file c.file).isSome := by
    intro fs fs' s h
    unfold LevelCacheStore.newFromDisk at h
    rw [M.bind_ok (pathExists_run _ _)] at h
    cases hx : (fs.file c.file).isSome with
    | false =>
      rw [hx, M.bind_error (mEnsure_false (by simp) _ _)] at h
      cases h
    | true =>
      refine ⟨?_, rfl⟩
      exact (M.Yields.step fun _ => .step fun _ => .step fun _ => .pure rfl :
        M.Yields _ (fun s : LevelCacheStore E => s.loadedFromDisk = true)) _ _ _ h
  have hc : ∀ fs fs' (s : LevelCacheStore E), LevelCacheStore.newWithConfig size b c fs = (.ok s, fs') →
      s.loadedFromDisk = (fs.file c.file).isSome := by
    intro fs fs' s h
    unfold LevelCacheStore.newWithConfig at h
    rw [M.bind_ok (pathExists_run _ _)] at h
    cases hx : (fs.file c.file).isSome with
    | true =>
      rw [hx, if_pos rfl] at h
      exact (hd _ _ _ h).1
    | false =>
      rw [hx, if_neg (by simp)] at h
      exact (M.Yields.step fun _ => .step fun _ => .step fun _ => .pure rfl :
        M.Yields _ (fun s : LevelCacheStore E => s.loadedFromDisk = false)) _ _ _ h
  have hn : M.Yields (LevelCacheStore.new (E := E) size) (fun s => s.loadedFromDisk = false) := by
    unfold LevelCacheStore.new
    exact .step fun _ => .step fun _ => .pure rfl
  refine ⟨hc _ _ _, ?_, hd _ _ _, hn _ _ _, ?_⟩
  · intro h
    change LevelCacheStore.newFromSliceWithConfig size b data c fs = _ at h
    unfold LevelCacheStore.newFromSliceWithConfig at h
    obtain ⟨r, fs1, h1, h⟩ := M.bind_ok_iff.mp h
    obtain ⟨_, fs2, h2, h⟩ := M.bind_ok_iff.mp h
    obtain ⟨s1, fs3, h3, h4⟩ := M.bind_ok_iff.mp h
    obtain rfl : fs = fs1 := (Prod.mk.inj h1).2
    obtain rfl : fs = fs2 := (Prod.mk.inj h2).2
    rw [← hc _ _ _ h3]
    split at h4
    · cases h4
      rfl
    · obtain ⟨_, _, -, h5⟩ := M.bind_ok_iff.mp h4
      cases h5
      rfl
  · intro h
    change LevelCacheStore.newFromSlice size data fs = _ at h
    have : M.Yields (LevelCacheStore.newFromSlice size data) (fun s : LevelCacheStore E => s.loadedFromDisk = false) := by
      unfold LevelCacheStore.newFromSlice
      exact .step fun _ => .step fun _ => .bind hn fun s hs => .step fun _ => .pure hs
    exact this _ _ _ h

/-- **C90** fails for `LevelCacheStore::new_from_disk_with_reader`: it opens existing files only, and the store never
says so. -/
theorem C90_reader_refuted (size b : Nat) (c : StoreConfig) (r : ExternalReader) (fs fs' : FS)
    (s : LevelCacheStore E) (h : LevelCacheStore.newFromDiskWithReader size b c r fs = (.ok s, fs')) :
    (fs.file c.file).isSome ∧ loadedFromDisk s = false ∧
    ∀ r', loadedFromDisk (s.setExternalReader r') = false := by
  unfold LevelCacheStore.newFromDiskWithReader at h
  rw [M.bind_ok (pathExists_run _ _)] at h
  cases hx : (fs.file c.file).isSome with
  | false =>
    rw [hx, M.bind_error (mEnsure_false (by simp) _ _)] at h
    cases h
  | true =>
    have hs : s.loadedFromDisk = false :=
      (M.Yields.step fun _ => .step fun _ => .step fun _ => .step fun _ => .pure rfl :
        M.Yields _ (fun s : LevelCacheStore E => s.loadedFromDisk = false)) _ _ _ h
    exact ⟨rfl, hs, fun _ => hs⟩

/-- **C90** fails for `MmapStore`: whenever `new_from_disk`, or `new_with_config` over an existing file, succeeds, the
store holds the file's elements and says it was not loaded. -/
theorem C90_mmap_refuted (size b : Nat) (c : StoreConfig) (fs fs' : FS) (s : MmapStore E)
    (hf : (fs.file c.file).isSome)
    (h : Store.newFromDisk size b c fs = (.ok s, fs') ∨ Store.newWithConfig size b c fs = (.ok s, fs')) :
    s.file = c.file ∧ len (E := E) s = size ∧ loadedFromDisk (E := E) s = false := by
  have h : MmapStore.newFromDisk size b c fs = (.ok s, fs') := by
    rcases h with h | h
    · exact h
    · change MmapStore.newWithConfig size b c fs = _ at h
      unfold MmapStore.newWithConfig at h
      rw [M.bind_ok (pathExists_run _ _), hf, if_pos rfl] at h
      exact h
  unfold MmapStore.newFromDisk at h
  have := (M.Yields.step fun _ => .step fun _ => .step fun _ => .step fun _ => .pure ⟨rfl, rfl⟩ :
    M.Yields _ (fun s : MmapStore E => s.file = c.file ∧ s.len = size)) _ _ _ h
  exact ⟨this.1, this.2, rfl⟩

/-- **C90**: no operation on a `DiskStore` changes what it says. -/
theorem C90_disk_kept (A : Alg E) (b : Nat) (σ : Sched) (s s' : DiskStore E) (e r : E) (i n rows version : Nat)
    (bs : Bytes) (c : StoreConfig) (oc : Option StoreConfig) (fs fs' : FS) :
    (writeAt s e i fs = (.ok s', fs') → loadedFromDisk s' = loadedFromDisk s) ∧
    (copyFromSlice s bs i fs = (.ok s', fs') → loadedFromDisk s' = loadedFromDisk s) ∧
    (push s e fs = (.ok s', fs') → loadedFromDisk s' = loadedFromDisk s) ∧
    (Store.build A b σ s n rows oc fs = (.ok (r, s'), fs') → loadedFromDisk s' = loadedFromDisk s) ∧
    (Store.reinit s fs = (.ok s', fs') → loadedFromDisk s' = loadedFromDisk s) ∧
    loadedFromDisk (Store.compact s b c version fs).2.1 = loadedFromDisk s := by
  refine ⟨DiskStore.writeAt_flag s e i _ _ _, DiskStore.copyFromSlice_flag s bs i _ _ _,
    DiskStore.push_flag s e _ _ _, DiskStore.build_flag A b σ s n rows oc rfl _ _ _, ?_,
    DiskStore.compact_flag s b c version fs⟩
  intro h
  exact (M.Yields.pure rfl : M.Yields (Store.reinit s) (fun s' => s'.loadedFromDisk = s.loadedFromDisk)) _ _ _ h

/-- **C90**: no operation on a `LevelCacheStore` changes what it says. -/
theorem C90_level_cache_kept (A : Alg E) (b : Nat) (σ : Sched) (s s' : LevelCacheStore E) (e r : E)
    (i n rows version : Nat) (bs : Bytes) (c : StoreConfig) (oc : Option StoreConfig) (fs fs' : FS) :
    (writeAt s e i fs = (.ok s', fs') → loadedFromDisk s' = loadedFromDisk s) ∧
    (copyFromSlice s bs i fs = (.ok s', fs') → loadedFromDisk s' = loadedFromDisk s) ∧
    (push s e fs = (.ok s', fs') → loadedFromDisk s' = loadedFromDisk s) ∧
    (Store.build A b σ s n rows oc fs = (.ok (r, s'), fs') → loadedFromDisk s' = loadedFromDisk s) ∧
    (Store.reinit s fs = (.ok s', fs') → loadedFromDisk s' = loadedFromDisk s) ∧
    loadedFromDisk (Store.compact s b c version fs).2.1 = loadedFromDisk s := by
  refine ⟨LevelCacheStore.writeAt_flag s e i _ _ _, LevelCacheStore.copyFromSlice_flag s bs i _ _ _,
    LevelCacheStore.push_flag s e _ _ _, LevelCacheStore.build_flag A b σ s n rows oc rfl _ _ _, ?_, rfl⟩
  intro h
  exact (M.Yields.pure rfl : M.Yields (Store.reinit s) (fun s' => s'.loadedFromDisk = s.loadedFromDisk)) _ _ _ h

theorem DiskStore.tellsLoaded : TellsLoaded (DiskStore E) E where
  config size b c fs s fs' := (C90_disk size b [] c fs fs' s).1
  slice size b data c fs s fs' := (C90_disk size b data c fs fs' s).2.1
  copy := DiskStore.copyFromSlice_flag
  build A b σ s n rows c := DiskStore.build_flag A b σ s n rows c rfl

theorem LevelCacheStore.tellsLoaded : TellsLoaded (LevelCacheStore E) E where
  config size b c fs s fs' := (C90_level_cache_partial size b [] c fs fs' s).1
  slice size b data c fs s fs' := (C90_level_cache_partial size b data c fs fs' s).2.1
  copy := LevelCacheStore.copyFromSlice_flag
  build A b σ s n rows c := LevelCacheStore.build_flag A b σ s n rows c rfl

/-- The store of a tree made with a configuration says it was loaded exactly when the file was
there before the call, also after the tree was built in it. -/
theorem tellsLoaded_tree {S : Type} [Store S E] (h : TellsLoaded S E) (A : Alg E) (b : Nat) (σ : Sched)
    (π : ParOrder) (hint : Option Nat) (items : List (Res E)) (leaves : List E) (bytes : Bytes) (c : StoreConfig)
    (fs fs' : FS) (t : BaseTree S E)
    (ht : BaseTree.tryFromIterWithConfig A b σ hint items c fs = (.ok t, fs') ∨
      BaseTree.fromParIterWithConfig A b σ π leaves c fs = (.ok t, fs') ∨
      BaseTree.fromByteSliceWithConfig A b σ bytes c fs = (.ok t, fs')) :
    loadedFromDisk (E := E) t.store = (fs.file c.file).isSome := by
  rcases ht with ht | ht | ht
  · unfold BaseTree.tryFromIterWithConfig at ht
    cases hint with
    | none => cases ht
    | some leafs =>
      obtain ⟨z, fs1, h1, ht1⟩ := M.bind_ok_iff.mp ht
      obtain rfl : fs = fs1 := (Prod.mk.inj h1).2
      obtain ⟨s, fs2, h2, ht2⟩ := M.bind_ok_iff.mp ht1
      rw [← h.config _ _ _ _ _ _ h2]
      exact (M.Yields.ite (.step fun _ => .pure rfl)
        (.bind (.expect _ (h.populateData A s items rfl)) fun s' hs' =>
          .bind (h.build A b σ s' _ _ _) fun r hr => .pure (hr.trans hs')) :
        M.Yields _ (fun t : BaseTree S E => loadedFromDisk (E := E) t.store = loadedFromDisk (E := E) s)) _ _ _ ht2
  · unfold BaseTree.fromParIterWithConfig at ht
    obtain ⟨z, fs1, h1, ht1⟩ := M.bind_ok_iff.mp ht
    obtain rfl : fs = fs1 := (Prod.mk.inj h1).2
    obtain ⟨s, fs2, h2, ht2⟩ := M.bind_ok_iff.mp ht1
    rw [← h.config _ _ _ _ _ _ h2]
    exact (M.Yields.ite (.step fun _ => .pure rfl)
      (.bind (h.populateDataPar A π s leaves rfl) fun s' hs' =>
        .bind (h.build A b σ s' _ _ _) fun r hr => .pure (hr.trans hs')) :
      M.Yields _ (fun t : BaseTree S E => loadedFromDisk (E := E) t.store = loadedFromDisk (E := E) s)) _ _ _ ht2
  · unfold BaseTree.fromByteSliceWithConfig at ht
    obtain ⟨n, fs0, h0, ht0⟩ := M.bind_ok_iff.mp ht
    obtain rfl : fs = fs0 := (Prod.mk.inj h0).2
    obtain ⟨z, fs1, h1, ht1⟩ := M.bind_ok_iff.mp ht0
    obtain rfl : fs = fs1 := (Prod.mk.inj h1).2
    obtain ⟨s, fs2, h2, ht2⟩ := M.bind_ok_iff.mp ht1
    rw [← h.slice _ _ _ _ _ _ _ h2]
    exact (M.Yields.bind (h.build A b σ s _ _ _) fun r hr => .pure hr :
      M.Yields _ (fun t : BaseTree S E => loadedFromDisk (E := E) t.store = loadedFromDisk (E := E) s)) _ _ _ ht2

/-- **C90** for the trees made with a configuration over a `DiskStore`: the store says it was loaded exactly when the
file was there before the call. -/
theorem C90_disk_tree (A : Alg E) (b : Nat) (σ : Sched) (π : ParOrder) (hint : Option Nat) (items : List (Res E))
    (leaves : List E) (bytes : Bytes) (c : StoreConfig) (fs fs' : FS) (t : BaseTree (DiskStore E) E)
    (ht : BaseTree.tryFromIterWithConfig A b σ hint items c fs = (.ok t, fs') ∨
      BaseTree.fromParIterWithConfig A b σ π leaves c fs = (.ok t, fs') ∨
      BaseTree.fromByteSliceWithConfig A b σ bytes c fs = (.ok t, fs')) :
    loadedFromDisk t.store = (fs.file c.file).isSome :=
  tellsLoaded_tree DiskStore.tellsLoaded A b σ π hint items leaves bytes c fs fs' t ht

/-- **C90** for the trees made with a configuration over a `LevelCacheStore`. -/
theorem C90_level_cache_tree (A : Alg E) (b : Nat) (σ : Sched) (π : ParOrder) (hint : Option Nat)
    (items : List (Res E)) (leaves : List E) (bytes : Bytes) (c : StoreConfig) (fs fs' : FS)
    (t : BaseTree (LevelCacheStore E) E)
    (ht : BaseTree.tryFromIterWithConfig A b σ hint items c fs = (.ok t, fs') ∨
      BaseTree.fromParIterWithConfig A b σ π leaves c fs = (.ok t, fs') ∨
      BaseTree.fromByteSliceWithConfig A b σ bytes c fs = (.ok t, fs')) :
    loadedFromDisk t.store = (fs.file c.file).isSome :=
  tellsLoaded_tree LevelCacheStore.tellsLoaded A b σ π hint items leaves bytes c fs fs' t ht

end

section Examples
attribute [local instance] idealRows
/-- What the store a run returns says. -/
private def flagOf {S : Type} [StoreOps S UInt8] (x : M S) (fs : FS) : Option Bool :=
  match x fs with
  | (.ok s, _) => some (loadedFromDisk (E := UInt8) s)
  | _ => none
private def cfg : StoreConfig := ⟨"d", "a", none, 1⟩
private def there (n : Nat) : FS := FS.empty.set cfg.file (some (List.replicate n 7))

example : flagOf (Store.newWithConfig (S := DiskStore UInt8) 7 2 cfg) (there 7) = some true ∧
    flagOf (Store.newWithConfig (S := DiskStore UInt8) 7 2 cfg) FS.empty = some false ∧
    flagOf (Store.newFromSliceWithConfig (S := DiskStore UInt8) 7 2 [1, 2] cfg) (there 7) = some true ∧
    flagOf (Store.newFromSlice (S := DiskStore UInt8) 7 [1, 2]) FS.empty = some false := by decide +kernel
example : flagOf (Store.newWithConfig (S := LevelCacheStore UInt8) 7 2 cfg) (there 7) = some true ∧
    flagOf (Store.newWithConfig (S := LevelCacheStore UInt8) 7 2 cfg) FS.empty = some false ∧
    flagOf (Store.newFromSliceWithConfig (S := LevelCacheStore UInt8) 7 2 [1, 2] cfg) (there 7) = some true := by
  decide +kernel
-- a tree built into a new file, and opened again
example : (match (BaseTree.newWithConfig toyAlg 2 .sequential [1, 2, 3, 4] cfg : M (BaseTree (DiskStore UInt8) UInt8))
      FS.empty with
    | (.ok t, fs) => (loadedFromDisk t.store, (match
        (BaseTree.newWithConfig toyAlg 2 .sequential [1, 2, 3, 4] cfg : M (BaseTree (DiskStore UInt8) UInt8)) fs with
      | (.ok t, _) => some (loadedFromDisk t.store)
      | _ => none))
    | _ => (true, none)) = (false, some true) := by decide +kernel
-- the cases of the two refutations are reached
example : flagOf (S := LevelCacheStore UInt8) (LevelCacheStore.newFromDiskWithReader 7 2 cfg ⟨0, fun _ _ _ buf => .ok buf, by
      rintro _ _ _ _ _ ⟨⟩
      rfl⟩) (there 1)
    = some false := by decide +kernel
example : flagOf (Store.newWithConfig (S := MmapStore UInt8) 7 2 cfg) (there 7) = some false ∧
    flagOf (Store.newFromDisk (S := MmapStore UInt8) 7 2 cfg) (there 7) = some false := by decide +kernel
end Examples
end Verif
