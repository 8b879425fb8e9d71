import Verif.Lemmas.Interrupted
import Verif.Spec.Toy
import Verif.Spec.Ideal
/-! Property C33: a build that did not finish, and a later construction with the same configuration.
What the interrupted build left behind is described by the contents `bs` of the configured file;
most theorems hold for all contents. -/
namespace Verif
open Spec StoreOps

section
variable {E : Type} [Element E] [LawfulElement E] [FloatRows] {A : Alg E} {b k : Nat}
  {c : StoreConfig} {fs : FS} {bs : Bytes}

/-- **C33**, `MmapStore`: whatever an interrupted build left on disk, a tree that a constructor
returns is the Merkle tree of the leaves it was given. -/
theorem C33_mmap (hA : A.LawfulReset) {σ : Sched} (hσ : σ.Valid) {src : Source A} (hs : src.Valid)
    (hf : FloatRows.FloorAt b src.leaves.length) {fs' : FS} {t : BaseTree (MmapStore E) E}
    (h : src.build b σ (some c) fs = (.ok t, fs')) : ∃ k, t.IsTreeOf A b k src.leaves fs' :=
  Source.build_mmap_sound hA hσ hs hf h

/-- **C33**, `VecStore`: the same. -/
theorem C33_vec (hA : A.LawfulReset) {σ : Sched} (hσ : σ.Valid) {src : Source A} (hs : src.Valid)
    (hf : FloatRows.FloorAt b src.leaves.length) {fs' : FS} {t : BaseTree (VecStore E) E}
    (h : src.build b σ (some c) fs = (.ok t, fs')) : ∃ k, t.IsTreeOf A b k src.leaves fs' := by
  obtain ⟨_, _, k, d, _, _, hn, hm, _⟩ := Source.build_sound hA hσ hs hf
    (cfg := none) (fun c' h' => by cases h') (Source.build_vec_config h)
  exact ⟨k, hm.isTreeOf hn⟩

section
variable (hb : Arity b) (hk : 1 ≤ k) (hf : FloatRows.ExactAt b k)
include hb hk hf

/-- **C33**, `DiskStore`, the reason why it fails: every constructor but `from_byte_slice_with_config`
takes any file of the full length for a finished tree.  The root is the last element of the file
and the leaves play no role.  A build gives the file its full length before anything else. -/
theorem C33_disk_full_length (hfile : fs.file c.file = some bs)
    (hl : bs.length = nodes b k * Element.byteLen E) (σ : Sched) {src : Source A}
    (hby : src.isBytes = false) (hn : src.leaves.length = b ^ k) :
    (src.build (S := DiskStore E) b σ (some c) fs).1.map (fun t => t.root)
      = Element.fromSlice (bs.drop ((nodes b k - 1) * Element.byteLen E)) ∧
    (src.build (S := DiskStore E) b σ (some c) fs).2 = fs := by
  rw [Source.build_disk_full hb hk hf hfile hl σ hby hn]
  refine ⟨?_, rfl⟩
  cases Element.fromSlice (E := E) (bs.drop ((nodes b k - 1) * Element.byteLen E)) <;> rfl

/-- **C33**, `DiskStore`: a file of any other length (such as the empty one a crash between creating
and sizing the file leaves) is refused. -/
theorem C33_disk_other_length (hfile : fs.file c.file = some bs)
    (hl : bs.length ≠ nodes b k * Element.byteLen E) (σ : Sched) {src : Source A}
    (hby : src.isBytes = false) (hn : src.leaves.length = b ^ k) :
    ∃ m, src.build (S := DiskStore E) b σ (some c) fs = (.error (.err m), fs) :=
  Source.build_disk_wrong hb hk hf hfile hl σ hby hn

/-- **C33** fails for `DiskStore`: after a crash right behind `new_with_config`, the first step of
every build, the constructors return a tree whose root is the element encoded by zeros,
whatever the leaves. -/
theorem C33_disk_created_refuted (hc : fs.file c.file = none) :
    ∃ (s : DiskStore E) (fs₁ : FS), Store.newWithConfig (nodes b k) b c fs = (.ok s, fs₁) ∧
      ∀ (σ : Sched) (src : Source A), src.isBytes = false → src.leaves.length = b ^ k →
        (src.build (S := DiskStore E) b σ (some c) fs₁).1.map (fun t => t.root)
          = Element.fromSlice (List.replicate (Element.byteLen E) 0) := by
  obtain ⟨fs₁, h1, h2, _⟩ := DiskStore.newWithConfig_run (E := E) fs (nodes b k) b c hc
  refine ⟨_, fs₁, h1, fun σ src hby hn => ?_⟩
  rw [(C33_disk_full_length hb hk hf h2 (by simp [Nat.mul_comm]) σ hby hn).1, List.drop_replicate,
    Nat.mul_comm, ← Nat.sub_mul]
  have := nodes_pos b k
  rw [show nodes b k - (nodes b k - 1) = 1 by omega, Nat.one_mul]

/-- **C33** fails for `DiskStore`: the iterator of the first construction fails behind the leaves
`es`, and the construction panics.  A second one with the same configuration returns a tree whose
root is the element encoded by zeros, whatever its leaves. -/
theorem C33_disk_iterator_error_refuted (hA : A.LawfulReset) (hc : fs.file c.file = none)
    {es : List E} (hes : es.length < b ^ k) (m : String) (rest : List (Res E)) (σ₁ : Sched) :
    ∃ fs₁, BaseTree.tryFromIterWithConfig (S := DiskStore E) A b σ₁ (some (b ^ k))
          (es.map .ok ++ .error (.err m) :: rest) c fs
        = (.error (.panic "failed to populate data"), fs₁) ∧
      ∀ (σ : Sched) (src : Source A), src.isBytes = false → src.leaves.length = b ^ k →
        (src.build (S := DiskStore E) b σ (some c) fs₁).1.map (fun t => t.root)
          = Element.fromSlice (List.replicate (Element.byteLen E) 0) := by
  have hle := pow_le_nodes b k
  obtain ⟨fs₁, h1, bs, h2, h3, h4⟩ := BaseTree.iterError_disk (A := A) hA (σ := σ₁)
    (BaseTree.sizes_ok hb hk hf) es (by omega) m rest hc
  refine ⟨fs₁, h1, fun σ src hby hn => ?_⟩
  rw [(C33_disk_full_length hb hk hf h2 h3 σ hby hn).1,
    zero_tail h4 (Nat.mul_le_mul_right _ (by omega)), ← Nat.sub_mul]
  have := nodes_pos b k
  rw [show nodes b k - (nodes b k - 1) = 1 by omega, Nat.one_mul]

/-- **C33** fails for `DiskStore` and `from_tree_slice_with_config` too: it also takes any file of the
full length for the tree, whatever nodes it is given. -/
theorem C33_disk_tree_slice_refuted (hfile : fs.file c.file = some bs)
    (hl : bs.length = nodes b k * Element.byteLen E) {es : List E} (hlen : es.length = nodes b k) :
    (BaseTree.fromTreeSliceWithConfig (S := DiskStore E) b 0 0 (encodeAll es) (b ^ k) c fs).1.map
        (fun t => t.root)
      = Element.fromSlice (bs.drop ((nodes b k - 1) * Element.byteLen E)) := by
  rw [BaseTree.fromTreeSliceWithConfig_disk_full hb hk hf hfile hl hlen]
  cases Element.fromSlice (E := E) (bs.drop ((nodes b k - 1) * Element.byteLen E)) <;> rfl

/-- **C33**, `LevelCacheStore`: what the constructors other than `from_byte_slice_with_config` make of
any existing file.  There is no check of its length.  The root is taken from the place where a
file with all the leaves in front of the cached rows would have it. -/
theorem C33_level_cache_existing (hd : c.rowsToDiscard < k) (hfile : fs.file c.file = some bs) (σ : Sched)
    {src : Source A} (hby : src.isBytes = false) (hn : src.leaves.length = b ^ k) :
    (src.build (S := LevelCacheStore E) b σ (some c) fs).1.map (fun t => t.root)
      = (if (b ^ k + nodes b (k - 1 - c.rowsToDiscard)) * Element.byteLen E ≤ bs.length then
          Element.fromSlice (region bs
            ((b ^ k + nodes b (k - 1 - c.rowsToDiscard) - 1) * Element.byteLen E) (Element.byteLen E))
        else .error (.err "failed to fill whole buffer")) := by
  rw [Source.build_level_existing hb hk hf hd hfile σ hby hn]
  split
  · cases Element.fromSlice (E := E) (region bs
      ((b ^ k + nodes b (k - 1 - c.rowsToDiscard) - 1) * Element.byteLen E) (Element.byteLen E)) <;> rfl
  · rfl

/-- **C33** fails for `LevelCacheStore` after a crash right behind `new_with_config`. -/
theorem C33_level_cache_created_refuted (hd : c.rowsToDiscard < k) (hc : fs.file c.file = none) :
    ∃ (s : LevelCacheStore E) (fs₁ : FS), Store.newWithConfig (nodes b k) b c fs = (.ok s, fs₁) ∧
      ∀ (σ : Sched) (src : Source A), src.isBytes = false → src.leaves.length = b ^ k →
        (src.build (S := LevelCacheStore E) b σ (some c) fs₁).1.map (fun t => t.root)
          = Element.fromSlice (List.replicate (Element.byteLen E) 0) := by
  obtain ⟨fs₁, h1, h2, _⟩ := LevelCacheStore.newWithConfig_run (E := E) hb hk hf hd hc
  refine ⟨_, fs₁, h1, fun σ src hby hn => ?_⟩
  rw [C33_level_cache_existing hb hk hf hd h2 σ hby hn]
  exact zero_region_root hd (by simp [Nat.mul_comm])
    (by rw [Nat.mul_comm (nodes b k)]; simp)

/-- **C33** fails for `LevelCacheStore` after an error of the iterator. -/
theorem C33_level_cache_iterator_error_refuted (hA : A.LawfulReset) (hd : c.rowsToDiscard < k)
    (hc : fs.file c.file = none)
    {es : List E} (hes : es.length < b ^ k) (m : String) (rest : List (Res E)) (σ₁ : Sched) :
    ∃ fs₁, BaseTree.tryFromIterWithConfig (S := LevelCacheStore E) A b σ₁ (some (b ^ k))
          (es.map .ok ++ .error (.err m) :: rest) c fs
        = (.error (.panic "failed to populate data"), fs₁) ∧
      ∀ (σ : Sched) (src : Source A), src.isBytes = false → src.leaves.length = b ^ k →
        (src.build (S := LevelCacheStore E) b σ (some c) fs₁).1.map (fun t => t.root)
          = Element.fromSlice (List.replicate (Element.byteLen E) 0) := by
  have hle := pow_le_nodes b k
  obtain ⟨fs₁, h1, bs, h2, h3, h4⟩ := BaseTree.iterError_level (A := A) hA (σ := σ₁) hb hk hf hd es
    (by omega) m rest hc
  refine ⟨fs₁, h1, fun σ src hby hn => ?_⟩
  rw [C33_level_cache_existing hb hk hf hd h2 σ hby hn]
  exact zero_region_root hd h3 (zero_tail h4 (Nat.mul_le_mul_right _ (by omega)))

/-- **C33** fails for `LevelCacheStore` even if the crash came when all the nodes `f` of the tree were in
the file and only the removal of the lower rows was missing: with `rows_to_discard ≥ 1` the root
returned is a node of some lower row. -/
theorem C33_level_cache_untruncated_refuted (hd : c.rowsToDiscard < k) {f : Nat → E}
    (hfile : fs.file c.file = some (encodeAll (allNodes b k f))) (σ : Sched)
    {src : Source A} (hby : src.isBytes = false) (hn : src.leaves.length = b ^ k) :
    (src.build (S := LevelCacheStore E) b σ (some c) fs).1.map (fun t => t.root)
      = .ok (f (b ^ k + nodes b (k - 1 - c.rowsToDiscard) - 1)) := by
  rw [C33_level_cache_existing hb hk hf hd hfile σ hby hn]
  have hle := pow_add_nodes_le (b := b) hd
  have hp := nodes_pos b (k - 1 - c.rowsToDiscard)
  rw [if_pos (by rw [allNodes_bytes]; exact Nat.mul_le_mul_right _ hle),
    region_encodeAll _ _ (by rw [allNodes_length]; omega), fromSlice_toBytes]
  simp [allNodes]

end

/-- **C33**, `DiskStore`: `from_byte_slice_with_config` refuses every existing file. -/
theorem C33_disk_byte_slice (hb : Arity b) {es : List E} (hf : FloatRows.FloorAt b es.length)
    (hfile : fs.file c.file = some bs) (σ : Sched) :
    ∃ m, BaseTree.fromByteSliceWithConfig (S := DiskStore E) A b σ (encodeAll es) c fs
      = (.error (.err m), fs) :=
  Source.build_disk_bytes (src := .bytes es) hb hf hfile σ rfl rfl

/-- **C33**, `LevelCacheStore`: `from_byte_slice_with_config` refuses every existing file. -/
theorem C33_level_cache_byte_slice (hb : Arity b) (hk : 1 ≤ k) (hf : FloatRows.ExactAt b k)
    (hd : c.rowsToDiscard < k) {es : List E} (hn : es.length = b ^ k)
    (hfile : fs.file c.file = some bs) (σ : Sched) :
    ∃ m, BaseTree.fromByteSliceWithConfig (S := LevelCacheStore E) A b σ (encodeAll es) c fs
      = (.error (.err m), fs) :=
  BaseTree.fromByteSliceWithConfig_level_existing hb hk hf hd hn hfile σ

end

/-! Concrete instances: the iterator of a tree over four leaves fails behind `1, 2`; then the tree is
built again, over `1, 2, 3, 4`.  The right root is 250, see the last line. -/
section
attribute [local instance] idealRows

def brokenCfg : StoreConfig := StoreConfig.new "d" "t" 0
/-- The file after the first attempt, the root after the second, the file after the second. -/
def brokenReport (S : Type) [Store S UInt8] (c : StoreConfig) (src : Source toyAlg) :
    Option Bytes × Option UInt8 × Option Bytes :=
  let r := BaseTree.tryFromIterWithConfig (S := S) toyAlg 2 Sched.sequential (some 4)
    ([1, 2].map .ok ++ [.error (.err "disk on fire"), .ok 4]) c FS.empty
  let r₂ := src.build (S := S) 2 Sched.sequential (some c) r.2
  (r.2.file c.file, (match r₂.1 with | .ok t => some t.root | .error _ => none), r₂.2.file c.file)

example : brokenReport (DiskStore UInt8) brokenCfg (.new [1, 2, 3, 4])
    = (some [0, 0, 0, 0, 0, 0, 0], some 0, some [0, 0, 0, 0, 0, 0, 0]) := by decide +kernel
example : brokenReport (LevelCacheStore UInt8) { brokenCfg with rowsToDiscard := 1 } (.new [1, 2, 3, 4])
    = (some [0, 0, 0, 0, 0, 0, 0], some 0, some [0, 0, 0, 0, 0, 0, 0]) := by decide +kernel
example : brokenReport (MmapStore UInt8) brokenCfg (.new [1, 2, 3, 4])
    = (some [0, 0, 0, 0, 0, 0, 0], none, some [0, 0, 0, 0, 0, 0, 0]) := by decide +kernel
example : brokenReport (DiskStore UInt8) brokenCfg (.bytes [72, 73, 74, 75])
    = (some [0, 0, 0, 0, 0, 0, 0], none, some [0, 0, 0, 0, 0, 0, 0]) := by decide +kernel
example : brokenReport (MmapStore UInt8) brokenCfg (.bytes [72, 73, 74, 75])
    = (some [0, 0, 0, 0, 0, 0, 0], some 250, some [72, 73, 74, 75, 91, 155, 250]) := by decide +kernel
example : brokenReport (VecStore UInt8) brokenCfg (.new [1, 2, 3, 4]) = (none, some 250, none) := by
  decide +kernel

/-- Crash before the rows are removed, one row discarded: the root returned is the node 91. -/
example : ((Source.new [1, 2, 3, 4]).build (S := LevelCacheStore UInt8) (A := toyAlg) 2 Sched.sequential
    (some { brokenCfg with rowsToDiscard := 1 })
    (FS.empty.set brokenCfg.file (some [72, 73, 74, 75, 91, 155, 250]))).1.map (fun t => t.root)
    = .ok 91 := by decide +kernel

end
end Verif
