import Verif.Lemmas.Compound64
import Verif.Props.Build64
import Verif.Props.CachedProof
/-
C73: compaction and proofs from cached trees on 64-bit words (src/store/disk.rs:212-289, src/merkle.rs:828-856 and
1111-1353).
-/
namespace Verif
open Spec

section
variable {E : Type} [Element E] [LawfulElement E] [FloatRows] {o : Overflow} {b k : Nat}

/-- C73 for `compact` of a `DiskStore`: the same result, the same store and the same files, with any arguments,
as long as the elements of the store and one more fit in 2^63 bytes. -/
theorem C73_compact {s : DiskStore E} (hb : b ≤ 2 ^ 63) (hb1 : b ≠ 1)
    (hs : (s.len + 1) * Element.byteLen E < 2 ^ 63) (hz : s.len * Element.byteLen E ≤ s.storeSize)
    (hK : ∃ K, s.len ≤ nodes b K ∧ b ^ K < wordSize)
    (hr : ∀ m, b ≤ m → m < 2 ^ 63 → 1 ≤ merkleTreeRowCount m b) (c : StoreConfig) (v : Nat) (fs : FS) :
    Disk64.compact (⟨s⟩ : Disk64 o E) b c v fs =
      ((s.compact b c v fs).1, ⟨(s.compact b c v fs).2.1⟩, (s.compact b c v fs).2.2) :=
  Disk64.compact_eq hb hb1 hs hz hK hr c v fs

section proofs
variable (hb : Arity b) (hk : 1 ≤ k) (hf : FloatRows.ExactAt b k) {rows : Option Nat}
  (hf' : FloatRows.ExactAt b (k - 1 - BaseTree.effectiveDiscard (b ^ k) b rows))
  (hw : 2 * b ^ k * Element.byteLen E ≤ 2 ^ 63) (hblk : buildDataBlockSize * Element.byteLen E < 2 ^ 63)
  (A : Alg E) {σ : Sched} (hσ : σ.Valid) (sub top i : Nat)
include hb hk hf hf' hw hblk hσ

/-- C73 for `gen_cached_proof` over a `DiskStore`: whatever is in the file, whatever the index and the number of
rows asked for, the run is the one on natural numbers. -/
theorem C73_cached_proof_disk {t : BaseTree (DiskStore E) E} (ht : t.FullSizes b k) :
    (t.mapStore Disk64.mk : BaseTree (Disk64 o E) E).genCachedProof64 o A b sub top σ i rows =
      t.genCachedProof A b sub top σ i rows := by
  have := nodes_le_twice hb.two_le k
  have h := Nat.mul_le_mul_right (Element.byteLen E) this
  rw [Nat.add_mul] at h
  have hp := LawfulElement.byteLen_pos (E := E)
  exact genCachedProof64_eq hb hk hf hf' hw hblk A hσ (SameReads.disk ht (by omega)) sub top i

/-- C73 for `gen_cached_proof` over a `LevelCacheStore`, with an external reader or without. -/
theorem C73_cached_proof_level_cache {t : BaseTree (LevelCacheStore E) E} (ht : t.FullSizes b k)
    (hs : LevelCache64.Fits t.store) :
    (t.mapStore LevelCache64.mk : BaseTree (LevelCache64 o E) E).genCachedProof64 o A b sub top σ i rows =
      t.genCachedProof A b sub top σ i rows :=
  genCachedProof64_eq hb hk hf hf' hw hblk A hσ (SameReads.levelCache ht hs) sub top i

/-- C73 for `gen_cached_proof` over a `VecStore`. -/
theorem C73_cached_proof_vec {t : BaseTree (VecStore E) E} (ht : t.FullSizes b k) :
    (t.mapStore Vec64.mk : BaseTree (Vec64 o E) E).genCachedProof64 o A b sub top σ i rows =
      t.genCachedProof A b sub top σ i rows :=
  genCachedProof64_eq hb hk hf hf' hw hblk A hσ (SameReads.vec ht) sub top i

/-- C73 for `gen_cached_proof` over an `MmapStore`. -/
theorem C73_cached_proof_mmap {t : BaseTree (MmapStore E) E} (ht : t.FullSizes b k) :
    (t.mapStore Mmap64.mk : BaseTree (Mmap64 o E) E).genCachedProof64 o A b sub top σ i rows =
      t.genCachedProof A b sub top σ i rows := by
  have := nodes_le_twice hb.two_le k
  have h := Nat.mul_le_mul_right (Element.byteLen E) this
  rw [Nat.add_mul] at h
  have hp := LawfulElement.byteLen_pos (E := E)
  exact genCachedProof64_eq hb hk hf hf' hw hblk A hσ (SameReads.mmap ht (by omega)) sub top i

end proofs

/-- C73 with C28: on words, the cached proof of every leaf of a tree in a file is the proof that the tree gives on
words without any cache. -/
theorem C73_cached_is_full (hb : Arity b) (hb' : b ≤ buildChunkNodes) (hk : 1 ≤ k)
    (hf : ∀ j, j ≤ k → FloatRows.ExactAt b j) (hw : 2 * b ^ k * Element.byteLen E ≤ 2 ^ 63)
    (hblk : buildDataBlockSize * Element.byteLen E < 2 ^ 63) {A : Alg E} {σ : Sched} (hσ : σ.Valid)
    {leaves : List E} {fs : FS} {t : BaseTree (DiskStore E) E} (ht : t.IsTreeOf A b k leaves fs) (rows : Option Nat) {i : Nat}
    (hi : i < b ^ k) :
    ∃ p, (t.mapStore Disk64.mk : BaseTree (Disk64 o E) E).genProof64 o b 0 0 fs i = .ok p ∧
      (t.mapStore Disk64.mk : BaseTree (Disk64 o E) E).genCachedProof64 o A b 0 0 σ i rows fs = (.ok p, fs) := by
  have hsz : t.FullSizes b k := ⟨ht.leafs, ht.rows, ht.len⟩
  have := nodes_le_twice hb.two_le k
  have h := Nat.mul_le_mul_right (Element.byteLen E) this
  rw [Nat.add_mul] at h
  have hp := LawfulElement.byteLen_pos (E := E)
  have h63 := half_lt_word
  have hw' : nodes b k * Element.byteLen E < 2 ^ 63 := by omega
  have hn : nodes b k ≤ nodes b k * Element.byteLen E := Nat.le_mul_of_pos_right _ hp
  obtain ⟨-, -, h3⟩ := C28_disk (A := A) hb hb' hk hf hσ ht rows
  obtain ⟨p, h4, h5⟩ := h3 i (by rw [ht.leafs]; exact hi)
  refine ⟨p, ?_, ?_⟩
  · rw [genProof64_any hb hk (SameReads.disk hsz hw') (by omega), h4]
  · rw [C73_cached_proof_disk hb hk (hf k (Nat.le_refl _)) (hf _ (by omega)) hw hblk A hσ 0 0 i hsz, h5]

end

/-! ### The hypotheses can be met -/
section examples
attribute [local instance] idealRows

/-- A store of seven nodes, compacted with any configuration. -/
example (o : Overflow) (c : StoreConfig) (v : Nat) (fs : FS) :
    Disk64.compact (⟨⟨7, .temp 0, false, 7⟩⟩ : Disk64 o UInt8) 2 c v fs =
      (((⟨7, .temp 0, false, 7⟩ : DiskStore UInt8).compact 2 c v fs).1,
        ⟨((⟨7, .temp 0, false, 7⟩ : DiskStore UInt8).compact 2 c v fs).2.1⟩,
        ((⟨7, .temp 0, false, 7⟩ : DiskStore UInt8).compact 2 c v fs).2.2) :=
  C73_compact (by decide) (by decide) (by decide) (by decide) ⟨3, by decide, by decide⟩
    (fun m hm _ => by rw [merkleTreeRowCount, if_pos rfl]; exact log2Pow2_even (by omega)) c v fs

/-- The tree in a file of `Props/CachedProof`, of four leaves: its cached proofs on words are the full proofs listed
there. -/
example (o : Overflow) (i : Nat) (rows : Option Nat) :
    ((toyCachedFull 1).mapStore Disk64.mk : BaseTree (Disk64 o UInt8) UInt8).genCachedProof64 o toyAlg 2 0 0
        Sched.sequential i rows =
      (toyCachedFull 1).genCachedProof toyAlg 2 0 0 Sched.sequential i rows :=
  C73_cached_proof_disk (b := 2) (k := 2) ⟨1, by decide, rfl⟩ (by decide) (idealRows_exact (by decide) _)
    (idealRows_exact (by decide) _) (by decide) (by decide) toyAlg Sched.sequential_valid 0 0 i
    ⟨by decide +kernel, by decide +kernel, by decide +kernel⟩

end examples
end Verif
