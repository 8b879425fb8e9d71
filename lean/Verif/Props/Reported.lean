import Verif.Lemmas.FlakyLayers
import Verif.Lemmas.FlakyQuiet
import Verif.Lemmas.Replica
import Verif.Props.Flaky
/-
C76: what a file store over a failing disk says about the disk (src/store/disk.rs, src/store/level_cache.rs).
-/
namespace Verif

section
variable {E : Type} [Element E] [FloatRows] {p : IoPlan}

/-! ### Ok means that the operations were done -/

/-- **C76** for `DiskStore`: a read or write that returns `Ok` has really been made, at its place in the file. -/
theorem C76_disk {fs : FS} {s : DiskStore E} :
    (∀ i e, Flaky.Disk.readAt p fs s i = .ok e →
      p.fails (.read s.file (i * Element.byteLen E) (Element.byteLen E)) fs = false) ∧
    (∀ a b es, Flaky.Disk.readRange p fs s a b = .ok es →
      p.fails (.read s.file (a * Element.byteLen E) (b * Element.byteLen E - a * Element.byteLen E)) fs = false) ∧
    (∀ i buf r, Flaky.Disk.readInto p fs s i buf = .ok r →
      p.fails (.read s.file (i * Element.byteLen E) buf.length) fs = false) ∧
    (∀ a b buf r, Flaky.Disk.readRangeInto p fs s a b buf = .ok r →
      p.fails (.read s.file (a * Element.byteLen E) buf.length) fs = false) ∧
    (∀ e i s' fs', Flaky.Disk.writeAt p s e i fs = (.ok s', fs') →
      p.fails (.write s.file (i * Element.byteLen E) (Element.toBytes e)) fs = false) ∧
    (∀ e s' fs', Flaky.Disk.push p s e fs = (.ok s', fs') →
      p.fails (.write s.file (s.len * Element.byteLen E) (Element.toBytes e)) fs = false) ∧
    (∀ buf i s' fs', Flaky.Disk.copyFromSlice p s buf i fs = (.ok s', fs') →
      p.fails (.write s.file (i * Element.byteLen E) buf) fs = false) :=
  ⟨fun _ _ h => Flaky.Disk.readAt_ok h, fun _ _ _ h => Flaky.Disk.readRange_ok h,
    fun _ _ _ h => Flaky.Disk.readInto_ok h, fun _ _ _ _ h => Flaky.Disk.readRangeInto_ok h,
    fun _ _ _ _ h => Flaky.Disk.writeAt_ok h, fun _ _ _ h => Flaky.Disk.push_ok h,
    fun _ _ _ _ h => Flaky.Disk.copyFromSlice_ok h⟩

/-- **C76** for `LevelCacheStore`; the reads are of the replica or of the file (`readOp`). -/
theorem C76_level_cache {fs : FS} {s : LevelCacheStore E} :
    (∀ i e, Flaky.Cache.readAt p fs s i = .ok e →
      p.fails (s.readOp (i * Element.byteLen E) (i * Element.byteLen E + Element.byteLen E) (Element.byteLen E)) fs
        = false) ∧
    (∀ a b es, Flaky.Cache.readRange p fs s a b = .ok es →
      p.fails (s.readOp (a * Element.byteLen E) (b * Element.byteLen E)
        (b * Element.byteLen E - a * Element.byteLen E)) fs = false) ∧
    (∀ i buf r, Flaky.Cache.readInto p fs s i buf = .ok r →
      p.fails (s.readOp (i * Element.byteLen E) (i * Element.byteLen E + Element.byteLen E) buf.length) fs = false) ∧
    (∀ a b buf r, Flaky.Cache.readRangeInto p fs s a b buf = .ok r →
      p.fails (s.readOp (a * Element.byteLen E) (b * Element.byteLen E) buf.length) fs = false) ∧
    (∀ e i s' fs', Flaky.Cache.writeAt p s e i fs = (.ok s', fs') →
      p.fails (.write s.file (i * Element.byteLen E) (Element.toBytes e)) fs = false) ∧
    (∀ e s' fs', Flaky.Cache.push p s e fs = (.ok s', fs') →
      p.fails (.write s.file (s.len * Element.byteLen E) (Element.toBytes e)) fs = false) ∧
    (∀ buf i s' fs', Flaky.Cache.copyFromSlice p s buf i fs = (.ok s', fs') →
      p.fails (.write s.file (i * Element.byteLen E) buf) fs = false) :=
  ⟨fun _ _ h => Flaky.Cache.readAt_ok h, fun _ _ _ h => Flaky.Cache.readRange_ok h,
    fun _ _ _ h => Flaky.Cache.readInto_ok h, fun _ _ _ _ h => Flaky.Cache.readRangeInto_ok h,
    fun _ _ _ _ h => Flaky.Cache.writeAt_ok h, fun _ _ _ h => Flaky.Cache.push_ok h,
    fun _ _ _ _ h => Flaky.Cache.copyFromSlice_ok h⟩

/-- **C76** for new stores: the file has been created and given its size. -/
theorem C76_new (n b : Nat) (c : StoreConfig) (fs fs' : FS) :
    (∀ s : DiskStore E, Flaky.Disk.new p n fs = (.ok s, fs') → p.fails .temp fs = false ∧
      p.fails (.setLen s.file (Element.byteLen E * n)) (FS.createTemp fs).2 = false) ∧
    (∀ s : LevelCacheStore E, Flaky.Cache.new p n fs = (.ok s, fs') → p.fails .temp fs = false ∧
      p.fails (.setLen s.file (Element.byteLen E * n)) (FS.createTemp fs).2 = false) ∧
    (∀ s : DiskStore E, Flaky.Disk.newWithConfig p n b c fs = (.ok s, fs') → fs.file c.file = none →
      p.fails (.create c.file) fs = false ∧
      p.fails (.setLen c.file (Element.byteLen E * n)) (FS.createNew c.file fs).2 = false) ∧
    (∀ s : LevelCacheStore E, Flaky.Cache.newWithConfig p n b c fs = (.ok s, fs') → fs.file c.file = none →
      p.fails (.create c.file) fs = false ∧
      p.fails (.setLen c.file (Element.byteLen E * n)) (FS.createNew c.file fs).2 = false) :=
  ⟨fun _ h => Flaky.Disk.new_ok h, fun _ h => Flaky.Cache.new_ok h, fun _ h hc => Flaky.Disk.newWithConfig_ok h hc,
    fun _ h hc => Flaky.Cache.newWithConfig_ok h hc⟩

/-- **C76** for stores opened again: the file was found, could be opened for writing or at least for reading, and its
size was read. -/
theorem C76_open (n b : Nat) (c : StoreConfig) (r : ExternalReader) (fs fs' : FS) :
    ((∃ s : DiskStore E, Flaky.Disk.newFromDisk p n b c fs = (.ok s, fs')) ∨
      (∃ s : LevelCacheStore E, Flaky.Cache.newFromDisk p n b c fs = (.ok s, fs')) ∨
      (∃ s : LevelCacheStore E, Flaky.Cache.newFromDiskWithReader p n b c r fs = (.ok s, fs'))) →
    p.fails (.probe c.file) fs = false ∧
      (p.fails (.open c.file true) fs = false ∨ p.fails (.open c.file false) fs = false) ∧
      p.fails (.size c.file) fs = false := by
  rintro (⟨_, h⟩ | ⟨_, h⟩ | ⟨_, h⟩)
  · exact Flaky.Disk.newFromDiskWithPath_ok h
  · exact Flaky.Cache.newFromDisk_ok h
  · exact Flaky.Cache.newFromDiskWithReader_ok h

/-- **C76** for `build`: the file was mapped for the first layer, and the root was read. -/
theorem C76_build (A : Alg E) (b : Nat) (σ : Sched) (n rows : Nat) (c : Option StoreConfig) (e : E) (fs fs' : FS) :
    (∀ s s' : DiskStore E, Flaky.Disk.build p A b σ s n rows c fs = (.ok (e, s'), fs') →
      (1 < n → p.fails (.map s.file (s.len * Element.byteLen E) (n * Element.byteLen E)) fs = false) ∧
      p.fails (.read s'.file ((s'.len - 1) * Element.byteLen E) (Element.byteLen E)) fs' = false) ∧
    (∀ s s' : LevelCacheStore E, Flaky.Cache.build p A b σ s n rows c fs = (.ok (e, s'), fs') →
      (1 < n → p.fails (.map s.file (s.len * Element.byteLen E) (n * Element.byteLen E)) fs = false) ∧
      ∃ i, p.fails (.read s'.file (i * Element.byteLen E) (Element.byteLen E)) fs' = false) :=
  ⟨fun _ _ h => Flaky.Disk.build_ok h, fun _ _ h => Flaky.Cache.build_ok h⟩

/-- **C76** for one layer of `build`, whichever it is: its part of the file was mapped. -/
theorem C76_layer (A : Alg E) (b : Nat) (σ : Sched) (w l r x : Nat) (fs fs' : FS) :
    (∀ s s' : DiskStore E, Flaky.Disk.processLayer p A b σ s w l r x fs = (.ok s', fs') →
      p.fails (.map s.file (x * Element.byteLen E) (w * Element.byteLen E)) fs = false) ∧
    (∀ s s' : LevelCacheStore E, Flaky.Cache.processLayer p A b σ s w l r x fs = (.ok s', fs') →
      p.fails (.map s.file (x * Element.byteLen E) (w * Element.byteLen E)) fs = false) :=
  ⟨fun _ _ h => Flaky.Disk.processLayer_ok h, fun _ _ h => Flaky.Cache.processLayer_ok h⟩

/-- **C76** for stores made from bytes: the bytes were written to the new file. -/
theorem C76_from_slice (n b : Nat) (data : Bytes) (c : StoreConfig) (fs fs' : FS) :
    (∀ s : DiskStore E, Flaky.Disk.newFromSlice p n data fs = (.ok s, fs') →
      ∃ s1 fs1, (Flaky.Disk.new p n fs : Res (DiskStore E) × FS) = (.ok s1, fs1) ∧ s1.file = s.file ∧
        p.fails (.write s.file 0 data) fs1 = false) ∧
    (∀ s : DiskStore E, Flaky.Disk.newFromSliceWithConfig p n b data c fs = (.ok s, fs') →
      ∃ s1 fs1, (Flaky.Disk.newWithConfig p n b c fs : Res (DiskStore E) × FS) = (.ok s1, fs1) ∧ s1.file = s.file ∧
        (s1.loadedFromDisk = false → p.fails (.write s.file 0 data) fs1 = false)) ∧
    (∀ s : LevelCacheStore E, Flaky.Cache.newFromSlice p n data fs = (.ok s, fs') →
      ∃ s1 fs1, (Flaky.Cache.new p n fs : Res (LevelCacheStore E) × FS) = (.ok s1, fs1) ∧ s1.file = s.file ∧
        p.fails (.write s.file 0 data) fs1 = false) ∧
    (∀ s : LevelCacheStore E, Flaky.Cache.newFromSliceWithConfig p n b data c fs = (.ok s, fs') →
      ∃ s1 fs1, (Flaky.Cache.newWithConfig p n b c fs : Res (LevelCacheStore E) × FS) = (.ok s1, fs1) ∧
        s1.file = s.file ∧ (s1.loadedFromDisk = false → p.fails (.write s.file 0 data) fs1 = false)) :=
  ⟨fun _ h => Flaky.Disk.newFromSlice_ok h, fun _ h => Flaky.Disk.newFromSliceWithConfig_ok h,
    fun _ h => Flaky.Cache.newFromSlice_ok h, fun _ h => Flaky.Cache.newFromSliceWithConfig_ok h⟩

/-- **C76** for all layers of `DiskStore::build`: each layer of more than one node was mapped, just after the layers
below it, and every chunk of it was read (src/store/disk.rs:318-439). -/
theorem C76_disk_layers {A : Alg E} {b : Nat} {σ : Sched} (hσ : σ.Valid) {s s' : DiskStore E} {n rows : Nat}
    {c : Option StoreConfig} {e : E} {fs fs' : FS} (h : Flaky.Disk.build p A b σ s n rows c fs = (.ok (e, s'), fs'))
    {j w r : Nat} (hw : w = n >>> (j * log2Pow2 b)) (hr : r = layersBelow b n j) (h1 : 1 < w) :
    (∃ fs1, p.fails (.map s.file ((r + w) * Element.byteLen E) (w * Element.byteLen E)) fs1 = false) ∧
    ∀ t < mmapTasks E b w, ∃ fs1, p.fails (.read s.file ((r + t * buildChunkNodes) * Element.byteLen E)
      (min buildChunkNodes (r + w - (r + t * buildChunkNodes)) * Element.byteLen E)) fs1 = false := by
  subst hw hr
  obtain ⟨s1, fs1, s2, fs2, hf, hp⟩ := Flaky.Disk.build_layers h j h1
  rw [← hf]
  exact ⟨⟨fs1, Flaky.Disk.processLayer_ok hp⟩, fun t ht =>
    (Flaky.Disk.processLayer_reads hp).2 t (Flaky.mem_of_valid hσ ht)⟩

/-- **C76** for all layers of `LevelCacheStore::build`: each layer of more than one node was mapped and every chunk of
it was read, and after each layer below the cache the cut was made (`C76_front_truncate` says what that means).
Positions count from the first node that is still in the file (src/store/level_cache.rs:455-595). -/
theorem C76_level_cache_layers {A : Alg E} {b : Nat} {σ : Sched} (hσ : σ.Valid) {s s' : LevelCacheStore E}
    {n rows : Nat} {c : StoreConfig} {e : E} {fs fs' : FS}
    (h : Flaky.Cache.build p A b σ s n rows (some c) fs = (.ok (e, s'), fs')) :
    ∃ size len, merkleTreeCacheSize n b c.rowsToDiscard = .ok size ∧ merkleTreeLen n b = .ok len ∧ size ≤ len ∧
      ∀ j w r, w = n >>> (j * log2Pow2 b) → r = (if layersBelow b n j < len - size then 0 else
          layersBelow b n j - (len - size)) → 1 < w → ∃ f, (f = s.file ∨ f = c.file) ∧
        (∃ fs1, p.fails (.map f ((r + w) * Element.byteLen E) (w * Element.byteLen E)) fs1 = false) ∧
        (∀ t < mmapTasks E b w, ∃ fs1, p.fails (.read f ((r + t * buildChunkNodes) * Element.byteLen E)
          (min buildChunkNodes (r + w - (r + t * buildChunkNodes)) * Element.byteLen E)) fs1 = false) ∧
        (layersBelow b n j < len - size → ∃ s2 fs2 s3 fs3, s2.file = f ∧
          Flaky.Cache.frontTruncate p (s2 : LevelCacheStore E) c w fs2 = (.ok s3, fs3)) := by
  obtain ⟨size, len, q1, q2, q3, k⟩ := Flaky.Cache.build_layers h
  refine ⟨size, len, q1, q2, q3, ?_⟩
  rintro j w r rfl rfl h1
  obtain ⟨s1, fs1, s2, fs2, hf, hp, ht⟩ := k j h1
  refine ⟨s1.file, hf, ⟨fs1, ?_⟩, fun t ht => (Flaky.Cache.processLayer_reads hp).2 t (Flaky.mem_of_valid hσ ht),
    fun hc => ?_⟩
  · have := Flaky.Cache.processLayer_ok hp
    split at this <;> rename_i hc
    · rwa [if_pos hc, Nat.zero_add]
    · rw [if_neg hc, ← Nat.sub_add_comm (Nat.le_of_not_lt hc)]
      exact this
  · obtain ⟨s3, fs3, hq⟩ := ht hc
    exact ⟨s2, fs2, s3, fs3, by rw [(Flaky.Cache.processLayer_reads hp).1], hq⟩

/-- **C76** for the cut a level cache makes after a discarded layer: size, both opens, both seeks, the copy and the
`set_len` succeeded. -/
theorem C76_front_truncate {s s' : LevelCacheStore E} {c : StoreConfig} {n : Nat} {fs fs' : FS}
    (h : Flaky.Cache.frontTruncate p s c n fs = (.ok s', fs')) :
    ∃ w fs1, p.fails (.size s.file) fs = false ∧ p.fails (.open c.file false) fs = false ∧
      p.fails (.seek c.file (n * Element.byteLen E)) fs = false ∧ p.fails (.open c.file true) fs = false ∧
      p.fails (.seek c.file 0) fs = false ∧ p.fails (.copy c.file (n * Element.byteLen E) 0) fs = false ∧
      DiskStore.copyWithin c.file (n * Element.byteLen E) 0 fs = (.ok w, fs1) ∧
      p.fails (.setLen c.file w) fs1 = false := Flaky.Cache.frontTruncate_ok h

/-- **C76** for `compact`: when it returns `Ok`, both opens and seeks, the copy, the `set_len`, the final `sync` and
the reading of the size succeeded. -/
theorem C76_compact {s s' : DiskStore E} {b : Nat} {c : StoreConfig} {v : Nat} {r : Bool} {fs fs' : FS}
    (h : Flaky.Disk.compact p s b c v fs = (.ok r, s', fs')) :
    ∃ dw cs ca fs1, s.compactPlan b c = .ok (dw, cs, ca) ∧
      p.fails (.open c.file false) fs = false ∧ p.fails (.seek c.file ca) fs = false ∧
      p.fails (.open c.file true) fs = false ∧ p.fails (.seek c.file (if v = 1 then dw else 0)) fs = false ∧
      p.fails (.copy c.file ca (if v = 1 then dw else 0)) fs = false ∧
      DiskStore.copyWithin c.file ca (if v = 1 then dw else 0) fs = (.ok cs, fs1) ∧
      p.fails (.setLen c.file (if v = 1 then dw + cs else cs)) fs1 = false ∧
      p.fails (.sync c.file) fs' = false ∧ p.fails (.size c.file) fs' = false := Flaky.Disk.compact_ok h

/-- **C76** for the consistency checks: an answer, yes or no, is about the file's real size. -/
theorem C76_is_consistent (n b : Nat) (c : StoreConfig) (r : Bool) (fs : FS) :
    (Flaky.Disk.isConsistent p E fs n b c = .ok r ∨ Flaky.Cache.isConsistent p E fs n b c = .ok r ∨
      Flaky.Cache.isConsistentV1 p E fs n b c = .ok r) →
    p.fails (.open c.file false) fs = false ∧ p.fails (.size c.file) fs = false := by
  rintro (h | h | h)
  · exact Flaky.Disk.isConsistent_ok h
  · exact Flaky.Cache.isConsistent_ok h
  · exact Flaky.Cache.isConsistentV1_ok h

/-- **C76** for `delete`. -/
theorem C76_delete (c : StoreConfig) {fs fs' : FS} {u : Unit} (h : Flaky.Disk.delete p c fs = (.ok u, fs')) :
    p.fails (.remove c.file) fs = false := (Flaky.io_ok h).1

/-- **C76** for trees over a replica: the replica was opened for each configuration, and each file was found, opened
and its size read. -/
theorem C76_replica {A : Alg E} {b sub leafs : Nat} {cs : List StoreConfig} {rc : ReplicaConfig} {fs fs' : FS}
    {t : Node (BaseTree (Flaky.On p (LevelCacheStore E)) E) E}
    (h : Flaky.fromStoreConfigsAndReplica p A b sub leafs cs rc fs = (.ok t, fs')) :
    ∀ c ∈ cs, p.fails (.open (.named rc.path) false) fs = false ∧ p.fails (.probe c.file) fs = false ∧
      (p.fails (.open c.file true) fs = false ∨ p.fails (.open c.file false) fs = false) ∧
      p.fails (.size c.file) fs = false := by
  obtain ⟨_, f1, h1, h2⟩ := M.bind_ok_iff.1 h
  obtain ⟨-, rfl⟩ := mEnsure_ok_iff.1 h1
  obtain ⟨ts, f2, h3, -⟩ := M.bind_ok_iff.1 h2
  obtain ⟨-, hall⟩ := collectM_pure (P := fun (x : StoreConfig × Nat) _ =>
      p.fails (.open (.named rc.path) false) f1 = false ∧ p.fails (.probe x.1.file) f1 = false ∧
      (p.fails (.open x.1.file true) f1 = false ∨ p.fails (.open x.1.file false) f1 = false) ∧
      p.fails (.size x.1.file) f1 = false) (fun x _ y fs' hy => by
    obtain ⟨n, f3, k1, k2⟩ := M.bind_ok_iff.1 hy
    obtain ⟨-, rfl⟩ := Flaky.ofRes_ok k1
    obtain ⟨r, f4, k3, k4⟩ := M.bind_ok_iff.1 k2
    obtain ⟨_, f5, k5, k6⟩ := M.bind_ok_iff.1 k3
    obtain ⟨g1, rfl⟩ := Flaky.check_ok k5
    obtain ⟨_, f6, k7, k8⟩ := M.bind_ok_iff.1 k6
    obtain ⟨-, rfl⟩ := Flaky.get_ok k7
    obtain ⟨_, f7, k9, k10⟩ := M.bind_ok_iff.1 k8
    obtain ⟨-, rfl⟩ := Flaky.ofRes_ok k9
    cases k10
    obtain ⟨s, f8, k11, k12⟩ := M.bind_ok_iff.1 k4
    obtain ⟨s', f9, k13, k14⟩ := M.bind_ok_iff.1 k11
    cases k14
    obtain ⟨-, rfl⟩ := Flaky.get_ok k12
    refine ⟨?_, g1, Flaky.Cache.newFromDiskWithReader_ok k13⟩
    exact (congrArg Prod.snd k13).symm.trans (Flaky.Cache.newFromDiskWithReader_files (p := p) n b x.1 _ _)) h3
  intro c hc
  obtain ⟨i, hi, rfl⟩ := List.mem_iff_getElem.1 hc
  have hm : (cs[i], i) ∈ cs.zipIdx := by
    rw [List.mem_iff_getElem]
    exact ⟨i, by rw [List.length_zipIdx]; exact hi, by simp⟩
  exact Flaky.forall_of_forall₂ hall _ hm

/-- The methods of the trait are these functions; so **C76** is about the stores that the tree functions use. -/
theorem C76_disk_trait (A : Alg E) (σ : Sched) (s : Flaky.On p (DiskStore E)) (n b m v : Nat) (c : StoreConfig)
    (o : Option StoreConfig) (buf : Bytes) (e : E) (fs : FS) :
    (Store.new n : M (Flaky.On p (DiskStore E))) = Flaky.wrap (Flaky.Disk.new p n) ∧
    (Store.newWithConfig n b c : M (Flaky.On p (DiskStore E))) = Flaky.wrap (Flaky.Disk.newWithConfig p n b c) ∧
    (Store.newFromSlice n buf : M (Flaky.On p (DiskStore E))) = Flaky.wrap (Flaky.Disk.newFromSlice p n buf) ∧
    (Store.newFromSliceWithConfig n b buf c : M (Flaky.On p (DiskStore E))) =
      Flaky.wrap (Flaky.Disk.newFromSliceWithConfig p n b buf c) ∧
    (Store.newFromDisk n b c : M (Flaky.On p (DiskStore E))) = Flaky.wrap (Flaky.Disk.newFromDisk p n b c) ∧
    Store.build A b σ s n m o = Flaky.wrapBuild (Flaky.Disk.build p A b σ s.inner n m o) ∧
    (Store.compact s b c v fs).1 = (Flaky.Disk.compact p s.inner b c v fs).1 ∧
    (Store.compact s b c v fs).2.1.inner = (Flaky.Disk.compact p s.inner b c v fs).2.1 ∧
    (Store.compact s b c v fs).2.2 = (Flaky.Disk.compact p s.inner b c v fs).2.2 ∧
    Store.delete (Flaky.On p (DiskStore E)) c = Flaky.Disk.delete p c ∧
    Store.reinit s = pure s ∧
    StoreOps.readAt fs s n = Flaky.Disk.readAt p fs s.inner n ∧
    StoreOps.readRange fs s n m = Flaky.Disk.readRange p fs s.inner n m ∧
    StoreOps.readInto fs s n buf = Flaky.Disk.readInto p fs s.inner n buf ∧
    StoreOps.readRangeInto fs s n m buf = Flaky.Disk.readRangeInto p fs s.inner n m buf ∧
    StoreOps.writeAt s e n = Flaky.wrap (Flaky.Disk.writeAt p s.inner e n) ∧
    StoreOps.copyFromSlice s buf n = Flaky.wrap (Flaky.Disk.copyFromSlice p s.inner buf n) ∧
    StoreOps.push s e = Flaky.wrap (Flaky.Disk.push p s.inner e) :=
  ⟨rfl, rfl, rfl, rfl, rfl, rfl, rfl, rfl, rfl, rfl, rfl, rfl, rfl, rfl, rfl, rfl, rfl, rfl⟩

/-- The same for `LevelCacheStore`, whose `compact` always refuses. -/
theorem C76_level_cache_trait (A : Alg E) (σ : Sched) (s : Flaky.On p (LevelCacheStore E)) (n b m v : Nat)
    (c : StoreConfig) (o : Option StoreConfig) (buf : Bytes) (e : E) (fs : FS) :
    (Store.new n : M (Flaky.On p (LevelCacheStore E))) = Flaky.wrap (Flaky.Cache.new p n) ∧
    (Store.newWithConfig n b c : M (Flaky.On p (LevelCacheStore E))) = Flaky.wrap (Flaky.Cache.newWithConfig p n b c) ∧
    (Store.newFromSlice n buf : M (Flaky.On p (LevelCacheStore E))) = Flaky.wrap (Flaky.Cache.newFromSlice p n buf) ∧
    (Store.newFromSliceWithConfig n b buf c : M (Flaky.On p (LevelCacheStore E))) =
      Flaky.wrap (Flaky.Cache.newFromSliceWithConfig p n b buf c) ∧
    (Store.newFromDisk n b c : M (Flaky.On p (LevelCacheStore E))) = Flaky.wrap (Flaky.Cache.newFromDisk p n b c) ∧
    Store.build A b σ s n m o = Flaky.wrapBuild (Flaky.Cache.build p A b σ s.inner n m o) ∧
    (∃ msg, Store.compact s b c v fs = (.error (.err msg), s, fs)) ∧
    Store.delete (Flaky.On p (LevelCacheStore E)) c = Flaky.Disk.delete p c ∧
    Store.reinit s = pure s ∧
    StoreOps.readAt fs s n = Flaky.Cache.readAt p fs s.inner n ∧
    StoreOps.readRange fs s n m = Flaky.Cache.readRange p fs s.inner n m ∧
    StoreOps.readInto fs s n buf = Flaky.Cache.readInto p fs s.inner n buf ∧
    StoreOps.readRangeInto fs s n m buf = Flaky.Cache.readRangeInto p fs s.inner n m buf ∧
    StoreOps.writeAt s e n = Flaky.wrap (Flaky.Cache.writeAt p s.inner e n) ∧
    StoreOps.copyFromSlice s buf n = Flaky.wrap (Flaky.Cache.copyFromSlice p s.inner buf n) ∧
    StoreOps.push s e = Flaky.wrap (Flaky.Cache.push p s.inner e) :=
  ⟨rfl, rfl, rfl, rfl, rfl, rfl, ⟨_, rfl⟩, rfl, rfl, rfl, rfl, rfl, rfl, rfl, rfl, rfl⟩

/-! ### Errors come from the disk -/

/-- **C76**, the other direction, for `DiskStore`: when no operation fails, everything is as on an ordinary disk; so no
error is made up. -/
theorem C76_disk_quiet (hp : p.Quiet) :
    Flaky.Disk.new p (E := E) = DiskStore.new ∧ Flaky.Disk.newWithConfig p (E := E) = DiskStore.newWithConfig ∧
    Flaky.Disk.newFromSlice p (E := E) = DiskStore.newFromSlice ∧
    Flaky.Disk.newFromSliceWithConfig p (E := E) = DiskStore.newFromSliceWithConfig ∧
    Flaky.Disk.newFromDisk p (E := E) = DiskStore.newFromDisk ∧ Flaky.Disk.readAt p (E := E) = DiskStore.readAt ∧
    Flaky.Disk.readRange p (E := E) = DiskStore.readRange ∧ Flaky.Disk.readInto p (E := E) = DiskStore.readInto ∧
    Flaky.Disk.readRangeInto p (E := E) = DiskStore.readRangeInto ∧
    Flaky.Disk.writeAt p (E := E) = DiskStore.writeAt ∧ Flaky.Disk.push p (E := E) = DiskStore.push ∧
    Flaky.Disk.copyFromSlice p (E := E) = DiskStore.copyFromSlice ∧ Flaky.Disk.build p (E := E) = DiskStore.build ∧
    Flaky.Disk.compact p (E := E) = DiskStore.compact ∧ Flaky.Disk.delete p = DiskStore.delete ∧
    Flaky.Disk.isConsistent p E = DiskStore.isConsistent E := by
  open Flaky.Disk in
  exact ⟨new_quiet hp, newWithConfig_quiet hp, newFromSlice_quiet hp, newFromSliceWithConfig_quiet hp,
    newFromDisk_quiet hp, readAt_quiet hp, readRange_quiet hp, readInto_quiet hp, readRangeInto_quiet hp,
    writeAt_quiet hp, push_quiet hp, copyFromSlice_quiet hp, build_quiet hp, compact_quiet hp, delete_quiet hp,
    isConsistent_quiet hp⟩

/-- **C76**, the other direction, for `LevelCacheStore`. -/
theorem C76_level_cache_quiet (hp : p.Quiet) :
    Flaky.Cache.new p (E := E) = LevelCacheStore.new ∧
    Flaky.Cache.newWithConfig p (E := E) = LevelCacheStore.newWithConfig ∧
    Flaky.Cache.newFromSlice p (E := E) = LevelCacheStore.newFromSlice ∧
    Flaky.Cache.newFromSliceWithConfig p (E := E) = LevelCacheStore.newFromSliceWithConfig ∧
    Flaky.Cache.newFromDisk p (E := E) = LevelCacheStore.newFromDisk ∧
    Flaky.Cache.newFromDiskWithReader p (E := E) = LevelCacheStore.newFromDiskWithReader ∧
    Flaky.Cache.readAt p (E := E) = LevelCacheStore.readAt ∧
    Flaky.Cache.readRange p (E := E) = LevelCacheStore.readRange ∧
    Flaky.Cache.readInto p (E := E) = LevelCacheStore.readInto ∧
    Flaky.Cache.readRangeInto p (E := E) = LevelCacheStore.readRangeInto ∧
    Flaky.Cache.writeAt p (E := E) = LevelCacheStore.writeAt ∧ Flaky.Cache.push p (E := E) = LevelCacheStore.push ∧
    Flaky.Cache.copyFromSlice p (E := E) = LevelCacheStore.copyFromSlice ∧
    Flaky.Cache.build p (E := E) = LevelCacheStore.build ∧
    Flaky.Cache.isConsistent p E = LevelCacheStore.isConsistent E ∧
    Flaky.Cache.isConsistentV1 p E = LevelCacheStore.isConsistentV1 E := by
  open Flaky.Cache in
  exact ⟨new_quiet hp, newWithConfig_quiet hp, newFromSlice_quiet hp, newFromSliceWithConfig_quiet hp,
    newFromDisk_quiet hp, newFromDiskWithReader_quiet hp, readAt_quiet hp, readRange_quiet hp, readInto_quiet hp,
    readRangeInto_quiet hp, writeAt_quiet hp, push_quiet hp, copyFromSlice_quiet hp, build_quiet hp,
    isConsistent_quiet hp, isConsistentV1_quiet hp⟩

end

/-! ### Non-vacuity -/

/-- A disk without faults. -/
example : ({ fails := fun _ _ => false } : IoPlan).Quiet := fun _ _ => rfl

/-- A disk on which `sync` is the only operation that fails: `compact` has cut the file but says `Err`. -/
def unsyncedDisk : IoPlan := { fails := fun op _ => match op with | .sync .. => true | _ => false }

attribute [local instance] idealRows in
example :
    let c := StoreConfig.new "d" "t" 1
    let fs := FS.empty.set c.file (some [1, 2, 3, 4, 5, 6, 7])
    let s : DiskStore UInt8 := ⟨7, c.file, false, 7⟩
    let r := Flaky.Disk.compact unsyncedDisk s 2 c 1 fs
    r.1 = .error (.err "I/O error") ∧ r.2.2.file c.file = some [1, 2, 3, 4, 7] ∧
    (Flaky.Disk.compact { fails := fun _ _ => false } s 2 c 1 fs).1 = .ok true := by decide +kernel

/-- A disk that cannot read the second layer: `build` says `Err`. -/
def unreadableLayer : IoPlan := { fails := fun op _ => match op with | .read _ 4 _ => true | _ => false }

example :
    let c := StoreConfig.new "d" "t" 1
    let fs := FS.empty.set c.file (some [1, 2, 3, 4, 0, 0, 0])
    let s : DiskStore UInt8 := ⟨4, c.file, false, 7⟩
    (Flaky.Disk.build unreadableLayer toyAlg 2 Sched.sequential s 4 3 none fs).1 = .error (.err "I/O error") ∧
    ((Flaky.Disk.build unsyncedDisk toyAlg 2 Sched.sequential s 4 3 none fs).1.map fun r => r.2.len) = .ok 7 ∧
    layersBelow 2 4 1 = 4 := by decide +kernel

end Verif
