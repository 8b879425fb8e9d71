import Verif.Lemmas.LevelRuns
import Verif.Props.LevelCache
/-! Property C60: range reads of compacted trees through `LevelCacheStore`. -/
set_option linter.unusedSectionVars false
namespace Verif
open Spec StoreOps

section
variable {E : Type} [Element E] [LawfulElement E]

/-- **C60**, one element: `read_into` is `read_range_into` of one element, with any buffer. -/
theorem C60_read_into (s : LevelCacheStore E) (fs : FS) (i : Nat) (buf : Bytes) :
    readInto (E := E) fs s i buf = readRangeInto (E := E) fs s i (i + 1) buf :=
  LevelCacheStore.readInto_eq i buf

variable [FloatRows] {A : Alg E} {b k : Nat} (hb : Arity b) (hk : 1 ≤ k) (hf : FloatRows.ExactAt b k)
    {leaves : List E} {f : Nat → E} {c : StoreConfig} {fs : FS} {t : BaseTree (DiskStore E) E}
    (ht : t.IsFileTree A b k leaves f c fs) (hd : c.rowsToDiscard < k)
include hb hk hf ht hd

/-- **C60**, version 2.  Compact a tree with nodes `f 0, f 1, …` to version 2 and open the file with a
reader that delivers the leaves.  A range inside the leaves or inside the cached rows is returned as it
is in the full tree, as elements and as bytes; a range that starts at a discarded node or ends past the
tree is an `Err`. -/
theorem C60_v2_partial {version : Nat} (hv : version ≠ 1) {t' : BaseTree (DiskStore E) E} {fs' : FS}
    (h : t.compact b c version fs = (.ok true, t', fs')) (r : ExternalReader)
    (hr : r.Serves fs' leaves) :
    ∃ s : LevelCacheStore E,
      LevelCacheStore.newFromDiskWithReader t.length b c r fs' = (.ok s, fs') ∧
      ∀ a n, 0 < n →
        (a + n ≤ b ^ k ∨ rowStart b k (c.rowsToDiscard + 1) ≤ a → a + n ≤ t.length →
          RunIs fs' s a n ((List.range n).map fun i => f (a + i))) ∧
        (b ^ k ≤ a → a < rowStart b k (c.rowsToDiscard + 1) → RunErr E fs' s a n) ∧
        (t.length < a + n → RunErr E fs' s a n) := by
  obtain ⟨s, hs, hl, hsr, hfile, -⟩ := LevelCacheStore.open_v2 hb hk hf ht hd hv h r
  have hlen : t.length = nodes b k := ht.len
  have hge := pow_le_rowStart b k c.rowsToDiscard
  have hle := LevelCacheStore.rowStart_cache (b := b) hd
  refine ⟨s, hs, fun a n hn => ⟨fun ha hlt => ?_, fun h1 h2 => ?_, fun h1 => ?_⟩⟩
  · rw [hlen] at hlt
    rcases ha with ha | ha
    · have := hl.run_some_low hsr hn (by rw [hl.len]; exact hlt) (by omega) hr
        (by rw [ht.layout.count]; exact ha)
      rwa [take_drop_getD leaves a n (by rw [ht.layout.count]; exact ha) f
        (fun i hi _ => (ht.layout.leaf i hi).symm)] at this
    · have := (hl.run_some_high hsr hn (by rw [hl.len]; exact hlt) (hl.inBounds_cached ha) (by omega)
        (j := a - rowStart b k (c.rowsToDiscard + 1))
        (by rw [hl.adjusted_high ha, hsr]; simp) hfile).1 (by rw [cachedRows_length]; omega)
      unfold cachedRows at this
      rw [take_drop_map_range _ _ _ _ (by omega)] at this
      have e : (fun i => f (rowStart b k (c.rowsToDiscard + 1)
          + (a - rowStart b k (c.rowsToDiscard + 1) + i))) = fun i => f (a + i) := by
        funext i; congr 1; omega
      rwa [e] at this
  · rcases Nat.lt_or_ge (b ^ k) a with h3 | h3
    · exact hl.run_discarded h3 h2
    · obtain rfl : a = b ^ k := by omega
      by_cases hend : b ^ k + n ≤ nodes b k
      · refine (hl.run_some_high hsr hn (by rw [hl.len]; exact hend)
          (hl.inBounds_base (Nat.le_refl _)) (Nat.le_refl _) (hl.adjusted_low h2) hfile).2 ?_
        rw [cachedRows_length]
        have h1 := nodes_mono b (show k - 1 - c.rowsToDiscard ≤ k - 1 by omega)
        have h2 := LevelCacheStore.nodes_lt_pow hb.two_le (k - 1)
        rw [show k - 1 + 1 = k by omega] at h2
        omega
      · exact LevelCacheStore.run_err_len (by rw [hl.len]; omega)
  · exact LevelCacheStore.run_err_len (by rw [hl.len]; omega)

/-- **C60** fails for ranges that start in the leaves and end above them: with version 2 such a range is
read from the reader as a whole, so what it returns above the leaves is whatever elements `xs` the
reader's source holds after the leaves, whatever the tree is. -/
theorem C60_v2_straddling_refuted {version : Nat} (hv : version ≠ 1) {t' : BaseTree (DiskStore E) E}
    {fs' : FS} (h : t.compact b c version fs = (.ok true, t', fs')) (r : ExternalReader)
    {xs : List E} (hr : r.Serves fs' (leaves ++ xs)) :
    ∃ s : LevelCacheStore E,
      LevelCacheStore.newFromDiskWithReader t.length b c r fs' = (.ok s, fs') ∧
      ∀ a m, a < b ^ k → m ≤ xs.length → b ^ k + m ≤ t.length →
        RunIs fs' s a (b ^ k - a + m) (leaves.drop a ++ xs.take m) := by
  obtain ⟨s, hs, hl, hsr, hfile, -⟩ := LevelCacheStore.open_v2 hb hk hf ht hd hv h r
  have hlen : t.length = nodes b k := ht.len
  refine ⟨s, hs, fun a m ha hm hle => ?_⟩
  have hc := ht.layout.count
  have := hl.run_some_low hsr (n := b ^ k - a + m) (by omega) (by rw [hl.len]; omega) ha hr
    (by rw [List.length_append]; omega)
  rwa [List.drop_append_of_le_length (by omega), List.take_append,
    List.take_of_length_le (by rw [List.length_drop]; omega),
    List.length_drop, show b ^ k - a + m - (leaves.length - a) = m by omega] at this

/-- **C60**, version 1. -/
theorem C60_v1_partial {t' : BaseTree (DiskStore E) E} {fs' : FS}
    (h : t.compact b c 1 fs = (.ok true, t', fs')) :
    ∃ s : LevelCacheStore E, LevelCacheStore.newFromDisk t.length b c fs' = (.ok s, fs') ∧
      ∀ a n, 0 < n →
        (a + n ≤ b ^ k ∨ rowStart b k (c.rowsToDiscard + 1) ≤ a → a + n ≤ t.length →
          RunIs fs' s a n ((List.range n).map fun i => f (a + i))) ∧
        (b ^ k < a → a < rowStart b k (c.rowsToDiscard + 1) → RunErr E fs' s a n) ∧
        (t.length < a + n → RunErr E fs' s a n) := by
  obtain ⟨s, hs, hl, hsr, hfile⟩ := LevelCacheStore.open_v1 hb hk hf ht hd h
  have hlen : t.length = nodes b k := ht.len
  have hge := pow_le_rowStart b k c.rowsToDiscard
  have hle := LevelCacheStore.rowStart_cache (b := b) hd
  have hc := ht.layout.count
  refine ⟨s, hs, fun a n hn => ⟨fun ha hlt => ?_, fun h1 h2 => hl.run_discarded h1 h2, fun h1 =>
    LevelCacheStore.run_err_len (by rw [hl.len]; omega)⟩⟩
  rw [hlen] at hlt
  rcases Nat.lt_or_ge a (rowStart b k (c.rowsToDiscard + 1)) with h2 | h2
  · have ha : a + n ≤ b ^ k := by omega
    have := (LevelCacheStore.View.run_none hsr hn (by rw [hl.len]; exact hlt)
      (hl.inBounds_base (by omega)) (hl.adjusted_low h2) hfile).1 (by
        rw [List.length_append]; omega)
    rwa [List.drop_append_of_le_length (by omega), List.take_append_of_le_length (by
        rw [List.length_drop]; omega), take_drop_getD leaves a n (by omega) f
      (fun i hi _ => (ht.layout.leaf i hi).symm)] at this
  · have := (LevelCacheStore.View.run_none hsr hn (by rw [hl.len]; exact hlt) (hl.inBounds_cached h2)
      (j := b ^ k + (a - rowStart b k (c.rowsToDiscard + 1)))
      (by rw [hl.adjusted_high h2, hsr]; simp) hfile).1 (by
        rw [List.length_append, cachedRows_length]; omega)
    rw [← hc, List.drop_append, List.drop_eq_nil_of_le (by omega), List.nil_append,
      Nat.add_sub_cancel_left] at this
    unfold cachedRows at this
    rw [take_drop_map_range _ _ _ _ (by omega)] at this
    have e : (fun i => f (rowStart b k (c.rowsToDiscard + 1)
        + (a - rowStart b k (c.rowsToDiscard + 1) + i))) = fun i => f (a + i) := by
      funext i; congr 1; omega
    rwa [e] at this

/-- **C60** fails for version 1 files with a discarded row: a range that starts in the leaves or at the
first discarded node returns the cached elements in place of the discarded ones. -/
theorem C60_v1_straddling_refuted (hd1 : 1 ≤ c.rowsToDiscard) {t' : BaseTree (DiskStore E) E} {fs' : FS}
    (h : t.compact b c 1 fs = (.ok true, t', fs')) :
    b ^ k < rowStart b k (c.rowsToDiscard + 1) ∧
    ∃ s : LevelCacheStore E, LevelCacheStore.newFromDisk t.length b c fs' = (.ok s, fs') ∧
      ∀ a m, a ≤ b ^ k → 0 < m → m ≤ nodes b (k - 1 - c.rowsToDiscard) →
        RunIs fs' s a (b ^ k - a + m) (leaves.drop a ++
          (List.range m).map fun i => f (rowStart b k (c.rowsToDiscard + 1) + i)) := by
  obtain ⟨s, hs, hl, hsr, hfile⟩ := LevelCacheStore.open_v1 hb hk hf ht hd h
  have hlen : t.length = nodes b k := ht.len
  have hle := LevelCacheStore.rowStart_cache (b := b) hd
  have hc := ht.layout.count
  have hlt : b ^ k < rowStart b k (c.rowsToDiscard + 1) := by
    have h1' := pow_le_rowStart b k (c.rowsToDiscard - 1)
    rw [show c.rowsToDiscard - 1 + 1 = c.rowsToDiscard by omega] at h1'
    have : 0 < b ^ (k - c.rowsToDiscard) := Nat.pow_pos (by have := hb.two_le; omega)
    rw [rowStart]; omega
  refine ⟨hlt, s, hs, fun a m ha hm0 hm => ?_⟩
  have := (LevelCacheStore.View.run_none hsr (a := a) (n := b ^ k - a + m) (by omega) (by rw [hl.len]; omega)
    (hl.inBounds_base (by omega)) (hl.adjusted_low (by omega)) hfile).1 (by
      rw [List.length_append, cachedRows_length]; omega)
  rw [List.drop_append_of_le_length (by omega), List.take_append,
    List.take_of_length_le (by rw [List.length_drop]; omega),
    List.length_drop, show b ^ k - a + m - (leaves.length - a) = m by omega] at this
  unfold cachedRows at this
  rwa [← List.drop_zero (l := (List.range _).map _), take_drop_map_range _ _ _ _ (by omega),
    show (fun i => f (rowStart b k (c.rowsToDiscard + 1) + (0 + i)))
      = fun i => f (rowStart b k (c.rowsToDiscard + 1) + i) from by
      funext i; rw [Nat.zero_add]] at this

end

/-! Concrete instances: the tree `72, 73, 74, 75 | 91, 155 | 250`, one row discarded, and a replica
file that holds a `9` after the leaves. -/
section
attribute [local instance] idealRows

def toyRangesV2 (d : Nat) (rs : List (Nat × Nat)) : List (Option (List UInt8)) :=
  let fs := ((toyFull d).compact 2 (StoreConfig.new "d" "t" d) 2 (toyReplicaFs d)).2.2
  match LevelCacheStore.newFromDiskWithReader (E := UInt8) 7 2 (StoreConfig.new "d" "t" d)
    (.ofFile (.named "r") 2) fs with
  | (.ok s, fs) => rs.map fun r => (readRange fs s r.1 r.2).toOption
  | _ => []

def toyRangesV1 (d : Nat) (rs : List (Nat × Nat)) : List (Option (List UInt8)) :=
  let fs := ((toyFull d).compact 2 (StoreConfig.new "d" "t" d) 1 (toyReplicaFs d)).2.2
  match LevelCacheStore.newFromDisk (E := UInt8) 7 2 (StoreConfig.new "d" "t" d) fs with
  | (.ok s, fs) => rs.map fun r => (readRange fs s r.1 r.2).toOption
  | _ => []

example : toyRangesV2 0 [(1, 4), (4, 7), (5, 7), (6, 8)]
    = [some [73, 74, 75], some [91, 155, 250], some [155, 250], none] := by decide +kernel
-- element 4 of the tree is 91
example : toyRangesV2 0 [(3, 5), (2, 6)] = [some [75, 9], none] := by decide +kernel
example : toyRangesV1 0 [(1, 7)] = [some [73, 74, 75, 91, 155, 250]] := by decide +kernel
example : toyRangesV1 1 [(1, 4), (6, 7), (5, 6)] = [some [73, 74, 75], some [250], none] := by decide +kernel
example : toyRangesV1 1 [(3, 5), (4, 5)] = [some [75, 250], some [250]] := by decide +kernel

end
end Verif
