import Verif.Props.Flaky
/-
C75: what a `DiskStore` reads after a compaction whose copy failed (src/store/disk.rs:212-289), for every tree and
every number of bytes copied.
-/
namespace Verif
open Spec StoreOps

section
variable {E : Type} [Element E] [LawfulElement E] [FloatRows] {A : Alg E} {b k : Nat} {p : IoPlan}
  {leaves : List E} {f : Nat → E} {c : StoreConfig} {fs : FS} {t : BaseTree (DiskStore E) E}

/-- **C75** fails for every compaction to version 2 whose copy fails after at least one element: the result is
`Err`, the store keeps its length, its root is right, and leaf 0 reads as the first node of the lowest cached row. -/
theorem C75_compact_every_refuted (hb : Arity b) (hk : 1 ≤ k) (hf : FloatRows.ExactAt b k)
    (ht : t.IsFileTree A b k leaves f c fs) (hd : c.rowsToDiscard < k) {version : Nat} (hv : version ≠ 1) {j : Nat}
    (hj : Element.byteLen E ≤ j) (hj' : j ≤ nodes b (k - 1 - c.rowsToDiscard) * Element.byteLen E)
    (hquiet : ∀ op, (∀ g src dst, op ≠ .copy g src dst) → p.fails op fs = false)
    (hfails : p.fails (.copy c.file (rowStart b k (c.rowsToDiscard + 1) * Element.byteLen E) 0) fs = true)
    (hleft : p.left (.copy c.file (rowStart b k (c.rowsToDiscard + 1) * Element.byteLen E) 0) fs =
      fs.set c.file (some (patch (encodeAll (allNodes b k f)) 0 (region (encodeAll (allNodes b k f))
        (rowStart b k (c.rowsToDiscard + 1) * Element.byteLen E) j)))) :
    ∃ (m : String) (s' : DiskStore E) (fs' : FS),
      Flaky.Disk.compact p t.store b c version fs = (.error (.err m), s', fs') ∧
      len (E := E) s' = nodes b k ∧ readAt fs' s' (nodes b k - 1) = .ok t.root ∧
      readAt fs' s' 0 = t.readAt fs (rowStart b k (c.rowsToDiscard + 1)) := by
  have hlen : (encodeAll (allNodes b k f)).length = nodes b k * Element.byteLen E := by
    rw [length_encodeAll, allNodes_length]
  have hL := LawfulElement.byteLen_pos (E := E)
  have hc := LevelCacheStore.rowStart_cache (b := b) hd
  have hN := nodes_pos b (k - 1 - c.rowsToDiscard)
  have hlt : nodes b (k - 1 - c.rowsToDiscard) ≤ nodes b k - 1 := by
    have := two_nodes_lt hb.two_le (show k - 1 - c.rowsToDiscard < k by omega)
    omega
  have e1 : (nodes b k - 1) * Element.byteLen E + Element.byteLen E = nodes b k * Element.byteLen E := by
    rw [← Nat.succ_mul]; congr 1; omega
  have hmul := Nat.mul_le_mul_right (Element.byteLen E) hlt
  have hbytes : rowStart b k (c.rowsToDiscard + 1) * Element.byteLen E
      + nodes b (k - 1 - c.rowsToDiscard) * Element.byteLen E = nodes b k * Element.byteLen E := by
    rw [← Nat.add_mul, hc]
  have hreads : ∀ i, i < nodes b k → t.readAt fs i = .ok (f i) := fun i hi => by
    obtain ⟨g, hg, hr⟩ := ht.isTreeOf.exists_reads
    rw [hr.reads i hi, layout_unique hg ht.layout i hi]
  have hnode : ∀ i, i < nodes b k → region (encodeAll (allNodes b k f)) (i * Element.byteLen E)
      (Element.byteLen E) = Element.toBytes (f i) := fun i hi => by
    rw [region_encodeAll _ _ (by rw [allNodes_length]; exact hi)]
    simp [allNodes]
  have hrl : (region (encodeAll (allNodes b k f))
      (rowStart b k (c.rowsToDiscard + 1) * Element.byteLen E) j).length = j := by
    rw [region_length]; omega
  have hplan := DiskStore.compactPlan_ok hb hk hf hd (s := t.store) ht.len ht.size
  refine ⟨"I/O error", { t.store with file := c.file },
    fs.set c.file (some (patch (encodeAll (allNodes b k f)) 0 (region (encodeAll (allNodes b k f))
        (rowStart b k (c.rowsToDiscard + 1) * Element.byteLen E) j))), ?_, ht.len, ?_, ?_⟩
  · have hq : ∀ op, (∀ g src dst, op ≠ .copy g src dst) → Flaky.check p op fs = (.ok (), fs) := fun op ho => by
      unfold Flaky.check
      rw [hquiet op ho]
      rfl
    have hv' : (version == 1) = false := beq_false_of_ne hv
    unfold Flaky.Disk.compact
    rw [hplan]
    dsimp only
    rw [M.bind_ok (hq _ (by intros; simp)), M.bind_ok (hq _ (by intros; simp)), hq _ (by intros; simp)]
    dsimp only
    rw [ht.file]
    dsimp only
    have hcf : Flaky.Disk.compactFile p E c.file (version == 1) (b ^ k * Element.byteLen E)
        (nodes b (k - 1 - c.rowsToDiscard) * Element.byteLen E)
        (rowStart b k (c.rowsToDiscard + 1) * Element.byteLen E) fs = (.error (.err "I/O error"), fs.set c.file (some (patch (encodeAll (allNodes b k f)) 0 (region (encodeAll (allNodes b k f))
        (rowStart b k (c.rowsToDiscard + 1) * Element.byteLen E) j)))) := by
      unfold Flaky.Disk.compactFile
      rw [hv', if_neg (by simp), M.bind_ok (hq _ (by intros; simp)), M.bind_ok (a := ()) (fs' := fs) (by
        unfold FS.openFile; rw [M.get_run, FS.contents_ok ht.file]; rfl)]
      refine M.bind_error ?_
      unfold Flaky.copyWithin Flaky.io
      rw [if_pos hfails, hleft]
      rfl
    rw [hcf]
  · rw [ht.root]
    refine DiskStore.readAt_eq (by show _ < len (E := E) t.store; rw [show len (E := E) t.store = nodes b k from ht.len]; omega) ⟨_, FS.set_self _ _ _, ?_, ?_⟩
    · rw [patch_length (by omega), hlen, Nat.sub_add_cancel (by omega)]
    · rw [region_patch_disjoint (by omega) (.inr (by omega)), hnode _ (by omega)]
  · rw [hreads _ (by omega)]
    refine DiskStore.readAt_eq (by show _ < len (E := E) t.store; rw [show len (E := E) t.store = nodes b k from ht.len]; omega) ⟨_, FS.set_self _ _ _, ?_, ?_⟩
    · rw [patch_length (by omega), hlen]; exact Nat.mul_le_mul_right _ (by omega)
    · have := region_patch_inside (bs := encodeAll (allNodes b k f)) (off := 0)
        (data := region (encodeAll (allNodes b k f))
          (rowStart b k (c.rowsToDiscard + 1) * Element.byteLen E) j) (by omega) (a := 0)
        (n := Element.byteLen E) (by omega)
      rw [Nat.zero_add] at this
      rw [Nat.zero_mul, this, region_region _ _ _ _ _ (by omega), Nat.add_zero, hnode _ (by omega)]

end

/-! ### The hypotheses can be met -/

section
attribute [local instance] idealRows

-- on a disk that fails after one byte, for a tree of elements of one byte: `tornDisk` is the `p`
example {A : Alg UInt8} {k : Nat} (hk : 1 ≤ k) {leaves : List UInt8} {f : Nat → UInt8} {c : StoreConfig} {fs : FS}
    {t : BaseTree (DiskStore UInt8) UInt8} (hf : FloatRows.ExactAt 2 k)
    (ht : t.IsFileTree A 2 k leaves f c fs) (hd : c.rowsToDiscard < k) :
    ∃ (m : String) (s' : DiskStore UInt8) (fs' : FS),
      Flaky.Disk.compact tornDisk t.store 2 c 2 fs = (.error (.err m), s', fs') ∧
      len (E := UInt8) s' = nodes 2 k ∧ readAt fs' s' (nodes 2 k - 1) = .ok t.root ∧
      readAt fs' s' 0 = t.readAt fs (rowStart 2 k (c.rowsToDiscard + 1)) := by
  have hb1 : Element.byteLen UInt8 = 1 := rfl
  have h1 := nodes_pos 2 (k - 1 - c.rowsToDiscard)
  have hc := LevelCacheStore.rowStart_cache (b := 2) hd
  refine C75_compact_every_refuted (p := tornDisk) (j := 1) ⟨1, Nat.le_refl _, rfl⟩ hk hf ht hd (by decide)
    (Nat.le_refl 1) (by rw [hb1, Nat.mul_one]; exact h1) ?_ rfl ?_
  · intro op ho
    cases op <;> first | rfl | exact absurd rfl (ho _ _ _)
  · have hl : (encodeAll (allNodes 2 k f)).length = nodes 2 k := by
      rw [length_encodeAll, allNodes_length, hb1, Nat.mul_one]
    have hle : rowStart 2 k (c.rowsToDiscard + 1) * Element.byteLen UInt8 + 1 ≤ (encodeAll (allNodes 2 k f)).length := by
      rw [hl, hb1, Nat.mul_one, ← hc]
      exact Nat.add_le_add_left h1 _
    simp only [tornDisk, ht.file]
    rw [if_pos hle]

end
end Verif
