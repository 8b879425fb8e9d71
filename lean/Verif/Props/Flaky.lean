import Verif.Lemmas.Flaky
import Verif.Props.MayFail
import Verif.Props.CompactCrash
import Verif.Props.LevelFresh
/-
C70 and C75 for the stores on files, over a disk on which any system call may fail (Verif/Model/Flaky.lean): the stores
themselves (src/store/disk.rs, src/store/level_cache.rs) pass the errors on (C70).  What they leave behind is not
always safe to use (C75).  `Flaky.On p S` is the store `S` over a
disk that fails according to the plan `p`.
-/
namespace Verif
open Spec

set_option linter.unusedSectionVars false

section
variable {E : Type} [Element E] [FloatRows] (p : IoPlan)

/-- **C70** for `DiskStore::compact`: an `Err`, or the same answer, store and files as without failures. -/
theorem C70_compact (s : DiskStore E) (b : Nat) (c : StoreConfig) (v : Nat) (fs : FS) :
    (Flaky.Disk.compact p s b c v fs).1.IsErr ∨
      Flaky.Disk.compact p s b c v fs = DiskStore.compact s b c v fs :=
  Flaky.compact_err_or_eq s b c v fs

/-- **C70** for `build` of `DiskStore`: the layers are read, hashed and written through memory maps, and the first
error ends it. -/
theorem C70_disk_build (A : Alg E) (b : Nat) (σ : Sched) (s : DiskStore E) (n rows : Nat) (c : Option StoreConfig)
    (fs : FS) :
    (Flaky.Disk.build p A b σ s n rows c fs).1.IsErr ∨
      Flaky.Disk.build p A b σ s n rows c fs = DiskStore.build A b σ s n rows c fs :=
  (Flaky.Disk.sim_build A b σ s n rows c).or_eq fs

/-- **C70** for `build` of `LevelCacheStore`, which also cuts the file while building. -/
theorem C70_level_cache_build (A : Alg E) (b : Nat) (σ : Sched) (s : LevelCacheStore E) (n rows : Nat)
    (c : Option StoreConfig) (fs : FS) :
    (Flaky.Cache.build p A b σ s n rows c fs).1.IsErr ∨
      Flaky.Cache.build p A b σ s n rows c fs = LevelCacheStore.build A b σ s n rows c fs :=
  (Flaky.Cache.sim_build A b σ s n rows c).or_eq fs

/-- **C70** for opening stores.  `Path::exists` answers no when it cannot tell, and the file is opened for reading
only when it cannot be opened for writing; neither leads to another store. -/
theorem C70_open (n b : Nat) (c : StoreConfig) (r : ExternalReader) (fs : FS) :
    ((Flaky.Disk.newFromDisk p n b c fs : Res (DiskStore E) × FS).1.IsErr ∨
      Flaky.Disk.newFromDisk p n b c fs = (DiskStore.newFromDisk n b c fs : Res (DiskStore E) × FS)) ∧
    ((Flaky.Cache.newFromDisk p n b c fs : Res (LevelCacheStore E) × FS).1.IsErr ∨
      Flaky.Cache.newFromDisk p n b c fs
        = (LevelCacheStore.newFromDisk n b c fs : Res (LevelCacheStore E) × FS)) ∧
    ((Flaky.Cache.newFromDiskWithReader p n b c r fs : Res (LevelCacheStore E) × FS).1.IsErr ∨
      Flaky.Cache.newFromDiskWithReader p n b c r fs
        = (LevelCacheStore.newFromDiskWithReader n b c r fs : Res (LevelCacheStore E) × FS)) :=
  ⟨(Flaky.Disk.sim_newFromDisk n b c).or_eq fs, (Flaky.Cache.sim_newFromDisk n b c).or_eq fs,
    (Flaky.Cache.sim_newFromDiskWithReader n b c r).or_eq fs⟩

/-- **C70** for the consistency checks. -/
theorem C70_is_consistent (n b : Nat) (c : StoreConfig) (fs : FS) :
    ((Flaky.Disk.isConsistent p E fs n b c).IsErr ∨
      Flaky.Disk.isConsistent p E fs n b c = DiskStore.isConsistent E fs n b c) ∧
    ((Flaky.Cache.isConsistent p E fs n b c).IsErr ∨
      Flaky.Cache.isConsistent p E fs n b c = LevelCacheStore.isConsistent E fs n b c) ∧
    ((Flaky.Cache.isConsistentV1 p E fs n b c).IsErr ∨
      Flaky.Cache.isConsistentV1 p E fs n b c = LevelCacheStore.isConsistentV1 E fs n b c) :=
  ⟨(Flaky.Disk.sim_isConsistent fs n b c).or_eq, (Flaky.Cache.sim_isConsistent fs n b c).or_eq,
    (Flaky.Cache.sim_isConsistentV1 fs n b c).or_eq⟩

/-- **C70** for `delete`. -/
theorem C70_delete (c : StoreConfig) (fs : FS) :
    (Flaky.Disk.delete p c fs).1.IsErr ∨ Flaky.Disk.delete p c fs = DiskStore.delete c fs :=
  (Flaky.sim_io _ _).or_eq fs

/-- **C70** for `from_store_configs_and_replica`. -/
theorem C70_replica (A : Alg E) (b sub leafs : Nat) (cs : List StoreConfig) (rc : ReplicaConfig) (fs : FS) :
    (Flaky.fromStoreConfigsAndReplica p A b sub leafs cs rc fs).1.IsErr ∨
      fromStoreConfigsAndReplica A b sub leafs cs rc fs =
        ((Flaky.fromStoreConfigsAndReplica p A b sub leafs cs rc fs).1.map
            (Node.mapChildren (BaseTree.mapStore Flaky.On.inner)),
          (Flaky.fromStoreConfigsAndReplica p A b sub leafs cs rc fs).2) :=
  (Flaky.sim_fromStoreConfigsAndReplica A b sub leafs cs rc).or_map fs

/-- **C70** for `from_sub_tree_store_configs_and_replica`. -/
theorem C70_sub_tree_replica (A : Alg E) (b sub top leafs : Nat) (cs : List StoreConfig) (rc : ReplicaConfig)
    (fs : FS) :
    (Flaky.fromSubTreeStoreConfigsAndReplica p A b sub top leafs cs rc fs).1.IsErr ∨
      fromSubTreeStoreConfigsAndReplica A b sub top leafs cs rc fs =
        ((Flaky.fromSubTreeStoreConfigsAndReplica p A b sub top leafs cs rc fs).1.map
            (Node.mapChildren (Tree1.mapStore Flaky.On.inner)),
          (Flaky.fromSubTreeStoreConfigsAndReplica p A b sub top leafs cs rc fs).2) :=
  (Flaky.sim_fromSubTreeStoreConfigsAndReplica A b sub top leafs cs rc).or_map fs

end

/-! ### Trees built on a failing disk -/

section
variable {E : Type} [Element E] [LawfulElement E] [FloatRows] {A : Alg E} {b : Nat} {p : IoPlan}

/-- **C70** for `DiskStore`: however the disk fails, a tree that a constructor returns is the Merkle tree of its
leaves, every node that can be read is right, and every proof returned is right and validates. -/
theorem C70_disk_never_lies [DecidableEq E] (hA : A.LawfulReset) {σ : Sched} (hσ : σ.Valid)
    {src : Source A} (hs : src.Valid) (hf : FloatRows.FloorAt b src.leaves.length)
    {cfg : Option StoreConfig} {fs fs' : FS} {t : BaseTree (Flaky.On p (DiskStore E)) E}
    (hc : ∀ c ∈ cfg, fs.file c.file = none) (h : src.build b σ cfg fs = (.ok t, fs')) :
    ∃ k f, IsLayout A.nodeHash b k src.leaves f ∧ t.root = f (nodes b k - 1) ∧
      t.leafs = b ^ k ∧ t.length = nodes b k ∧ t.rowCount = k + 1 ∧
      (∀ i e, i < nodes b k → t.readAt fs' i = .ok e → e = f i) ∧
      ∀ i q, (hi : i < src.leaves.length) → t.genProof b 0 0 fs' i = .ok q →
        q.item = .ok src.leaves[i] ∧ q.root = .ok t.root ∧ q.path = digits b k i ∧
        (A.HeightsAgree b → q.validate A b = .ok true) :=
  C70_faults_never_lie (S := DiskStore E) hA hσ hs hf hc h

/-- **C70** for `LevelCacheStore`: however the disk fails, when a constructor returns a tree, its root is right and the
file holds exactly the cached rows of the Merkle tree of the leaves. -/
theorem C70_level_cache_never_lies (hA : A.LawfulReset) {σ : Sched} (hσ : σ.Valid) {src : Source A}
    (hs : src.Valid) (hf : FloatRows.FloorAt b src.leaves.length) {c : StoreConfig} {fs fs' : FS}
    {t : BaseTree (Flaky.On p (LevelCacheStore E)) E} (hc : fs.file c.file = none)
    (h : src.build b σ (some c) fs = (.ok t, fs')) :
    ∃ k f, c.rowsToDiscard < k ∧ IsLayout A.nodeHash b k src.leaves f ∧ t.leafs = b ^ k ∧
      t.rowCount = k + 1 ∧ t.root = f (nodes b k - 1) ∧
      fs'.file c.file = some (encodeAll (cachedRows b k c.rowsToDiscard f)) := by
  have h2 := (Source.build_sim (S' := Flaky.On p (LevelCacheStore E)) (S := LevelCacheStore E) (b := b) σ src
    (some c)).ok_map h
  obtain ⟨-, -, k, f, hd, -, hlay, hl, hr, hroot, -, -, hfile, hfs⟩ := built_view hA hσ hs hf hc h2
  rw [hfile] at hfs
  exact ⟨k, f, hd, hlay, hl, hr, hroot, hfs⟩

end

/-! ### C75: what an error leaves behind -/

/-- **C75** for opening: whether it fails or not, no file changes. -/
theorem C75_open {E : Type} [Element E] [FloatRows] (p : IoPlan) (n b : Nat) (c : StoreConfig) (r : ExternalReader)
    (fs : FS) :
    (Flaky.Disk.newFromDisk p n b c fs : Res (DiskStore E) × FS).2 = fs ∧
    (Flaky.Cache.newFromDisk p n b c fs : Res (LevelCacheStore E) × FS).2 = fs ∧
    (Flaky.Cache.newFromDiskWithReader p n b c r fs : Res (LevelCacheStore E) × FS).2 = fs :=
  ⟨Flaky.Disk.newFromDisk_files n b c fs, Flaky.Cache.newFromDisk_files n b c fs,
    Flaky.Cache.newFromDiskWithReader_files n b c r fs⟩

/-- **C75** for a compaction that cannot open the file or move in it: nothing has changed. -/
theorem C75_compact_early {E : Type} [Element E] [FloatRows] {p : IoPlan} (s : DiskStore E) (b : Nat) (c : StoreConfig)
    (v : Nat) {fs : FS} (h : p.fails (.open c.file false) fs = true ∨ p.fails (.open c.file true) fs = true ∨
      ∀ off, p.fails (.seek c.file off) fs = true) :
    ∃ e, Flaky.Disk.compact p s b c v fs = (.error e, s, fs) :=
  Flaky.compact_early s b c v h

section
variable {E : Type} [Element E] [LawfulElement E] [FloatRows] {A : Alg E} {b k : Nat} {p : IoPlan}
  {leaves : List E} {f : Nat → E} {c : StoreConfig} {fs : FS} {t : BaseTree (DiskStore E) E}

/-- **C75**, what can be relied on after a failed compaction: wherever `compact` gives up, and also if it does not,
`new_from_disk_with_reader` afterwards returns `Err`, or a store that reads every cached node as the full tree did. -/
theorem C75_compact_detected (hb : Arity b) (hk : 1 ≤ k) (hf : FloatRows.ExactAt b k)
    (ht : t.IsFileTree A b k leaves f c fs) (hp : p.Torn) (v : Nat) (r : ExternalReader) {fs' : FS}
    (h : (Flaky.Disk.compact p t.store b c v fs).2.2 = fs') :
    (∃ m, LevelCacheStore.newFromDiskWithReader (E := E) t.length b c r fs' = (.error (.err m), fs')) ∨
    ∃ s : LevelCacheStore E, LevelCacheStore.newFromDiskWithReader t.length b c r fs' = (.ok s, fs') ∧
      ∀ i, rowStart b k (c.rowsToDiscard + 1) ≤ i → i < t.length →
        StoreOps.readAt fs' s i = t.readAt fs i := by
  subst h
  refine C34_crash hb hk hf ht (Flaky.compact_crash hp t.store b c v fun bs hbs => ?_) r
  rw [ht.file] at hbs
  cases hbs
  rw [length_encodeAll, allNodes_length, ht.size]

end

/-! The tree over `1, 2, 3, 4` is 72, 73, 74, 75, 91, 155, 250 in the file. -/
section
attribute [local instance] idealRows

/-- The disk is full when the first layer of hashes is to be mapped. -/
def fullDisk : IoPlan := { fails := fun op _ => match op with | .map .. => true | _ => false }

/-- **C75** fails for builds: the first construction returns `Err`, and trying
again with the same configuration on a disk that works returns a tree with root 0 in place of 250. -/
theorem C75_build_refuted :
    let c := StoreConfig.new "d" "t" 0
    let r := (Source.new (A := toyAlg) [1, 2, 3, 4]).build (S := Flaky.On fullDisk (DiskStore UInt8)) 2
      Sched.sequential (some c) FS.empty
    r.1.map (fun t => t.root) = .error (.err "I/O error") ∧
    ((Source.new (A := toyAlg) [1, 2, 3, 4]).build (S := DiskStore UInt8) 2 Sched.sequential (some c) r.2).1.map
      (fun t => t.root) = .ok 0 := by decide +kernel

/-- A disk on which the copy of `compact` fails after one byte. -/
def tornDisk : IoPlan where
  fails op _ := match op with | .copy .. => true | _ => false
  left op fs := match op with
    | .copy f src dst =>
      match fs.file f with
      | some bs => if src + 1 ≤ bs.length then fs.set f (some (patch bs dst (region bs src 1))) else fs.set f (some bs)
      | none => fs
    | _ => fs

theorem tornDisk_torn : tornDisk.Torn where
  copy f src dst fs bs h := by
    by_cases hl : src + 1 ≤ bs.length
    · refine ⟨0 + 1, _, .block 1 .start hl, ?_⟩
      simp only [tornDisk, h, if_pos hl, Nat.add_zero]
    · refine ⟨0, bs, .start, ?_⟩
      simp only [tornDisk, h, if_neg hl]
  setLen _ _ _ := rfl

/-- The store and the files after that compaction of a tree. -/
def tornCompact : Res Bool × DiskStore UInt8 × FS :=
  let c := StoreConfig.new "d" "t" 0
  Flaky.Disk.compact tornDisk ⟨7, c.file, false, 7⟩ 2 c 2
    (FS.empty.set c.file (some [72, 73, 74, 75, 91, 155, 250]))

/-- **C75** fails for compaction: the tree is still there with its full length, and leaf 0 now
reads as the node 91.  So the error must not be taken to mean that nothing happened. -/
theorem C75_compact_refuted :
    tornCompact.1 = .error (.err "I/O error") ∧ tornCompact.2.1.len = 7 ∧
    DiskStore.readAt tornCompact.2.2 tornCompact.2.1 0 = .ok (91 : UInt8) ∧
    DiskStore.readAt tornCompact.2.2 tornCompact.2.1 6 = .ok (250 : UInt8) := by decide +kernel

/-- A disk that cannot be read. -/
def deadDisk : IoPlan := { fails := fun op _ => match op with | .read .. => true | _ => false }

/-- **C70** fails for `read_range_into` called with `start > end`: the message of the error has `end - start` in it
(src/store/disk.rs:530-535), and building it panics.  No function of the crate calls it so. -/
theorem C70_backward_read_refuted :
    let c := StoreConfig.new "d" "t" 0
    let fs := FS.empty.set c.file (some [72, 73, 74])
    let s : DiskStore UInt8 := ⟨3, c.file, false, 3⟩
    DiskStore.readRangeInto fs s 2 1 [0] = .ok [74] ∧
    (∃ m, Flaky.Disk.readRangeInto deadDisk fs s 2 1 [0] = .error (.panic m)) ∧
    Flaky.Disk.readRangeInto deadDisk fs s 1 2 [0] = .error (.err "I/O error") :=
  ⟨by decide +kernel, ⟨_, rfl⟩, by decide +kernel⟩

/-! ### The statements are not empty -/

-- on a disk that never fails the tree is built
example : ((Source.new (A := toyAlg) [1, 2, 3, 4]).build
    (S := Flaky.On { fails := fun _ _ => false } (DiskStore UInt8)) 2 Sched.sequential
    (some (StoreConfig.new "d" "t" 0)) FS.empty).1.map (fun t => t.root) = .ok 250 := by decide +kernel
example : ((Source.new (A := toyAlg) [1, 2, 3, 4]).build
    (S := Flaky.On { fails := fun _ _ => false } (LevelCacheStore UInt8)) 2 Sched.sequential
    (some (StoreConfig.new "d" "t" 0)) FS.empty).1.map (fun t => t.root) = .ok 250 := by decide +kernel

-- a file that cannot be opened for writing is opened for reading; one that cannot be probed counts as missing
example : (Flaky.Disk.newFromDisk (E := UInt8)
      { fails := fun op _ => match op with | .open _ w => w | _ => false } 3 2 (StoreConfig.new "d" "t" 0)
      (FS.empty.set (StoreConfig.new "d" "t" 0).file (some [1, 2, 3]))).1.isOk = true ∧
    (Flaky.Disk.newFromDisk (E := UInt8)
      { fails := fun op _ => match op with | .probe _ => true | _ => false } 3 2 (StoreConfig.new "d" "t" 0)
      (FS.empty.set (StoreConfig.new "d" "t" 0).file (some [1, 2, 3]))).1.isOk = false := by decide +kernel

/-- A disk on which `sync_all` fails. -/
def lazyDisk : IoPlan := { fails := fun op _ => match op with | .sync _ => true | _ => false }

-- a failing `sync_all` is an `Err` although all the work is done
example : (Flaky.Disk.compact lazyDisk (⟨7, .named "d/sc-02-data-t.dat", false, 7⟩ : DiskStore UInt8) 2
      (StoreConfig.new "d" "t" 0) 2
      (FS.empty.set (.named "d/sc-02-data-t.dat") (some [72, 73, 74, 75, 91, 155, 250]))).1
        = .error (.err "I/O error") ∧
    (Flaky.Disk.compact lazyDisk (⟨7, .named "d/sc-02-data-t.dat", false, 7⟩ : DiskStore UInt8) 2
      (StoreConfig.new "d" "t" 0) 2
      (FS.empty.set (.named "d/sc-02-data-t.dat") (some [72, 73, 74, 75, 91, 155, 250]))).2.2.file
        (.named "d/sc-02-data-t.dat") = some [91, 155, 250] := by decide +kernel

-- the general theorems of Verif/Props/MayFail.lean apply
example (p : IoPlan) : MayFail (Flaky.On p (DiskStore UInt8)) (DiskStore UInt8) UInt8 := inferInstance
example (p : IoPlan) : MayFail (Flaky.On p (LevelCacheStore UInt8)) (LevelCacheStore UInt8) UInt8 := inferInstance
example : IoPlan.Torn tornDisk := tornDisk_torn
end
end Verif
