import Verif.Lemmas.TreeSlice
import Verif.Spec.Toy
import Verif.Spec.Ideal
/-! Property C40: trees as byte strings. -/
namespace Verif
open Spec StoreOps
variable {E : Type} [Element E] [LawfulElement E] [FloatRows]

/-- **C40.** Give `from_tree_slice` the bytes of all nodes of a tree, in index order.  It returns a
tree over the same leaves with the same `root`, `leafs`, `len` and `row_count`, the same node at
every index, and the same answer to `gen_proof` at every index, in range or not.  The tree may be
in any store, and the new tree in any other. -/
theorem C40_round_trip {S S' : Type} [StoreOps S E] [Store S' E] [LawfulStore S' E] {A : Alg E}
    {b k : Nat} (hb : Arity b) (hk : 1 ≤ k) (hf : FloatRows.ExactAt b k) {leaves ns : List E}
    {fs : FS} {t : BaseTree S E} (ht : t.IsTreeOf A b k leaves fs) (hn : ns.length = t.length)
    (hns : ∀ i (h : i < ns.length), t.readAt fs i = .ok ns[i]) (fs₁ : FS) :
    ∃ (t' : BaseTree S' E) (fs₁' : FS),
      BaseTree.fromTreeSlice b 0 0 (encodeAll ns) t.leafs fs₁ = (.ok t', fs₁') ∧
      t'.summary = t.summary ∧ t'.IsTreeOf A b k leaves fs₁' ∧
      (∀ i (h : i < ns.length), t'.readAt fs₁' i = .ok ns[i]) ∧
      ∀ i, t'.genProof b 0 0 fs₁' i = t.genProof b 0 0 fs i := by
  obtain ⟨f, hl, hr⟩ := ht.exists_reads
  have hn' : ns.length = nodes b k := hn.trans hr.len
  have hv : ∀ i (h : i < ns.length), ns[i] = f i := fun i h => by
    have := (hns i h).symm.trans (hr.reads i (by omega))
    exact Except.ok.inj this
  obtain ⟨t', fs', h1, h2, h3, h4⟩ := fromTreeSlice_ok (S := S') hb hk hf hl hn' hv fs₁
  refine ⟨t', fs', hr.leafs ▸ h1, ?_, h2, fun i h => by rw [h4 i (by omega), hv], fun i =>
    genProof_congr hb hk hr ⟨h2.leafs, h2.len, h2.rows, h4, h3⟩ i⟩
  unfold BaseTree.summary
  rw [h3, h2.leafs, h2.len, h2.rows, hr.root, hr.leafs, hr.len, hr.rows]

/-- **C40.** The same with a configuration naming a file that does not exist yet. -/
theorem C40_round_trip_with_config {S S' : Type} [StoreOps S E] [Store S' E] [LawfulStore S' E]
    {A : Alg E} {b k : Nat} (hb : Arity b) (hk : 1 ≤ k) (hf : FloatRows.ExactAt b k)
    {leaves ns : List E} {fs : FS} {t : BaseTree S E} (ht : t.IsTreeOf A b k leaves fs)
    (hn : ns.length = t.length) (hns : ∀ i (h : i < ns.length), t.readAt fs i = .ok ns[i])
    {c : StoreConfig} (fs₁ : FS) (hc : fs₁.file c.file = none) :
    ∃ (t' : BaseTree S' E) (fs₁' : FS),
      BaseTree.fromTreeSliceWithConfig b 0 0 (encodeAll ns) t.leafs c fs₁ = (.ok t', fs₁') ∧
      t'.summary = t.summary ∧ t'.IsTreeOf A b k leaves fs₁' ∧
      (∀ i (h : i < ns.length), t'.readAt fs₁' i = .ok ns[i]) ∧
      ∀ i, t'.genProof b 0 0 fs₁' i = t.genProof b 0 0 fs i := by
  obtain ⟨f, hl, hr⟩ := ht.exists_reads
  have hn' : ns.length = nodes b k := hn.trans hr.len
  have hv : ∀ i (h : i < ns.length), ns[i] = f i := fun i h => by
    have := (hns i h).symm.trans (hr.reads i (by omega))
    exact Except.ok.inj this
  obtain ⟨t', fs', h1, h2, h3, h4⟩ := fromTreeSliceWithConfig_ok (S := S') hb hk hf hl hn' hv fs₁ hc
  refine ⟨t', fs', hr.leafs ▸ h1, ?_, h2, fun i h => by rw [h4 i (by omega), hv], fun i =>
    genProof_congr hb hk hr ⟨h2.leafs, h2.len, h2.rows, h4, h3⟩ i⟩
  unfold BaseTree.summary
  rw [h3, h2.leafs, h2.len, h2.rows, hr.root, hr.leafs, hr.len, hr.rows]

/-- **C40.** `VecStore` trees come back from their bytes. -/
theorem C40_vec {A : Alg E} {b k : Nat} (hb : Arity b) (hk : 1 ≤ k) (hf : FloatRows.ExactAt b k)
    {leaves ns : List E} {fs : FS} {t : BaseTree (VecStore E) E} (ht : t.IsTreeOf A b k leaves fs)
    (hn : ns.length = t.length) (hns : ∀ i (h : i < ns.length), t.readAt fs i = .ok ns[i])
    (fs₁ : FS) : ∃ (t' : BaseTree (VecStore E) E) (fs₁' : FS),
      BaseTree.fromTreeSlice b 0 0 (encodeAll ns) t.leafs fs₁ = (.ok t', fs₁') ∧
      t'.summary = t.summary ∧ ∀ i, t'.genProof b 0 0 fs₁' i = t.genProof b 0 0 fs i :=
  let ⟨t', fs', h1, h2, _, _, h5⟩ := C40_round_trip (S' := VecStore E) hb hk hf ht hn hns fs₁
  ⟨t', fs', h1, h2, h5⟩

/-- **C40.** `DiskStore` trees come back from their bytes. -/
theorem C40_disk {A : Alg E} {b k : Nat} (hb : Arity b) (hk : 1 ≤ k) (hf : FloatRows.ExactAt b k)
    {leaves ns : List E} {fs : FS} {t : BaseTree (DiskStore E) E} (ht : t.IsTreeOf A b k leaves fs)
    (hn : ns.length = t.length) (hns : ∀ i (h : i < ns.length), t.readAt fs i = .ok ns[i])
    (fs₁ : FS) : ∃ (t' : BaseTree (DiskStore E) E) (fs₁' : FS),
      BaseTree.fromTreeSlice b 0 0 (encodeAll ns) t.leafs fs₁ = (.ok t', fs₁') ∧
      t'.summary = t.summary ∧ ∀ i, t'.genProof b 0 0 fs₁' i = t.genProof b 0 0 fs i :=
  let ⟨t', fs', h1, h2, _, _, h5⟩ := C40_round_trip (S' := DiskStore E) hb hk hf ht hn hns fs₁
  ⟨t', fs', h1, h2, h5⟩

/-- **C40.** `MmapStore` trees come back from their bytes. -/
theorem C40_mmap {A : Alg E} {b k : Nat} (hb : Arity b) (hk : 1 ≤ k) (hf : FloatRows.ExactAt b k)
    {leaves ns : List E} {fs : FS} {t : BaseTree (MmapStore E) E} (ht : t.IsTreeOf A b k leaves fs)
    (hn : ns.length = t.length) (hns : ∀ i (h : i < ns.length), t.readAt fs i = .ok ns[i])
    (fs₁ : FS) : ∃ (t' : BaseTree (MmapStore E) E) (fs₁' : FS),
      BaseTree.fromTreeSlice b 0 0 (encodeAll ns) t.leafs fs₁ = (.ok t', fs₁') ∧
      t'.summary = t.summary ∧ ∀ i, t'.genProof b 0 0 fs₁' i = t.genProof b 0 0 fs i :=
  let ⟨t', fs', h1, h2, _, _, h5⟩ := C40_round_trip (S' := MmapStore E) hb hk hf ht hn hns fs₁
  ⟨t', fs', h1, h2, h5⟩

/-- The byte string has the length of a whole tree with so many leaves. -/
def ValidTreeBytes (E : Type) [Element E] (b : Nat) (data : Bytes) (leafs : Nat) : Prop :=
  Arity b ∧ ∃ k, 1 ≤ k ∧ leafs = b ^ k ∧ data.length = nodes b k * Element.byteLen E

/-- **C40.** For every store: unless the number of whole elements in the data is the number of nodes
of a tree with that many leaves, the result is `Err` and no file is touched.  (Arity 1 is left out;
there `is_merkle_tree_size_valid` may not terminate, see `C03_size_valid_arity_one_refuted`.) -/
theorem C40_bad_length {S : Type} [Store S E] {b : Nat} (hb : b ≠ 1) (sub top : Nat) (data : Bytes)
    (leafs : Nat) (fs : FS)
    (h : ¬ (Arity b ∧ ∃ k, 1 ≤ k ∧ leafs = b ^ k ∧
      data.length / Element.byteLen E = nodes b k)) :
    ∃ m, BaseTree.fromTreeSlice (S := S) (E := E) b sub top data leafs fs = (.error (.err m), fs) ∧
      ∀ c, BaseTree.fromTreeSliceWithConfig (S := S) (E := E) b sub top data leafs c fs =
        (.error (.err m), fs) := by
  rcases treeSliceLen_returns (E := E) hb sub top data leafs with ⟨n, hn⟩ | ⟨m, hm⟩
  · obtain ⟨h1, _, _, k, h2, h3, _, h4⟩ := (treeSliceLen_ok_iff hb).1 hn
    exact absurd ⟨h1, k, h2, h3, h4⟩ h
  · refine ⟨m, ?_, fun c => ?_⟩
    · exact M.bind_error (by rw [M.ofRes_run, hm])
    · exact M.bind_error (by rw [M.ofRes_run, hm])

omit [FloatRows] in
theorem whole_of_mod {n d m : Nat} (h : n % d = 0) (h2 : n / d = m) : n = m * d := by
  subst h2
  have := Nat.div_add_mod n d
  rw [h, Nat.mul_comm] at this; omega

/-- **C40.** `DiskStore`: every byte string whose length is not that of a valid tree is answered
with `Err`, with and without configuration, and no file is touched. -/
theorem C40_disk_bad_length {b : Nat} (hb : b ≠ 1) (sub top : Nat) (data : Bytes) (leafs : Nat)
    (fs : FS) (h : ¬ ValidTreeBytes E b data leafs) :
    (∃ m, BaseTree.fromTreeSlice (S := DiskStore E) (E := E) b sub top data leafs fs =
      (.error (.err m), fs)) ∧
    ∀ c, ∃ m, BaseTree.fromTreeSliceWithConfig (S := DiskStore E) (E := E) b sub top data leafs c fs
      = (.error (.err m), fs) := by
  rcases treeSliceLen_returns (E := E) hb sub top data leafs with ⟨n, hn⟩ | ⟨m, hm⟩
  · obtain ⟨h1, _, _, k, h2, h3, _, h4⟩ := (treeSliceLen_ok_iff hb).1 hn
    have hmod : ¬ data.length % Element.byteLen E = 0 := fun h0 =>
      h ⟨h1, k, h2, h3, whole_of_mod h0 h4⟩
    have hm : modP data.length (Element.byteLen E) = .ok (data.length % Element.byteLen E) :=
      modP_ok LawfulElement.byteLen_pos
    refine ⟨⟨"data size must be a multiple of byte_len", ?_⟩,
      fun c => ⟨"data size must be a multiple of byte_len", ?_⟩⟩
    · refine (M.bind_ok (a := n) (fs' := fs) (by rw [M.ofRes_run, hn])).trans ?_
      refine M.bind_error ?_
      show DiskStore.newFromSlice n data fs = _
      unfold DiskStore.newFromSlice
      rw [M.bind_ok (by rw [M.ofRes_run, hm])]
      exact M.bind_error (mEnsure_false hmod _ _)
    · refine (M.bind_ok (a := n) (fs' := fs) (by rw [M.ofRes_run, hn])).trans ?_
      refine M.bind_error ?_
      show DiskStore.newFromSliceWithConfig n b data c fs = _
      unfold DiskStore.newFromSliceWithConfig
      rw [M.bind_ok (by rw [M.ofRes_run, hm])]
      exact M.bind_error (mEnsure_false hmod _ _)
  · exact ⟨⟨m, M.bind_error (by rw [M.ofRes_run, hm])⟩,
      fun c => ⟨m, M.bind_error (by rw [M.ofRes_run, hm])⟩⟩

/-- **C40.** `MmapStore`: the same. -/
theorem C40_mmap_bad_length {b : Nat} (hb : b ≠ 1) (sub top : Nat) (data : Bytes) (leafs : Nat)
    (fs : FS) (h : ¬ ValidTreeBytes E b data leafs) :
    (∃ m, BaseTree.fromTreeSlice (S := MmapStore E) (E := E) b sub top data leafs fs =
      (.error (.err m), fs)) ∧
    ∀ c, ∃ m, BaseTree.fromTreeSliceWithConfig (S := MmapStore E) (E := E) b sub top data leafs c fs
      = (.error (.err m), fs) := by
  rcases treeSliceLen_returns (E := E) hb sub top data leafs with ⟨n, hn⟩ | ⟨m, hm⟩
  · obtain ⟨h1, _, _, k, h2, h3, _, h4⟩ := (treeSliceLen_ok_iff hb).1 hn
    have hmod : ¬ data.length % Element.byteLen E = 0 := fun h0 =>
      h ⟨h1, k, h2, h3, whole_of_mod h0 h4⟩
    have hm : modP data.length (Element.byteLen E) = .ok (data.length % Element.byteLen E) :=
      modP_ok LawfulElement.byteLen_pos
    refine ⟨⟨"data size must be a multiple of byte_len", ?_⟩,
      fun c => ⟨"data size must be a multiple of byte_len", ?_⟩⟩
    · refine (M.bind_ok (a := n) (fs' := fs) (by rw [M.ofRes_run, hn])).trans ?_
      refine M.bind_error ?_
      show MmapStore.newFromSlice n data fs = _
      unfold MmapStore.newFromSlice
      rw [M.bind_ok (by rw [M.ofRes_run, hm])]
      exact M.bind_error (mEnsure_false hmod _ _)
    · refine (M.bind_ok (a := n) (fs' := fs) (by rw [M.ofRes_run, hn])).trans ?_
      refine M.bind_error ?_
      show MmapStore.newFromSliceWithConfig n b data c fs = _
      unfold MmapStore.newFromSliceWithConfig
      rw [M.bind_ok (by rw [M.ofRes_run, hm])]
      exact M.bind_error (mEnsure_false hmod _ _)
  · exact ⟨⟨m, M.bind_error (by rw [M.ofRes_run, hm])⟩,
      fun c => ⟨m, M.bind_error (by rw [M.ofRes_run, hm])⟩⟩

/-- **C40.** `VecStore` and a byte length that is a multiple of the element size: `Err` unless the
length is that of a valid tree. -/
theorem C40_vec_bad_length_partial {b : Nat} (hb : b ≠ 1) (sub top : Nat) (data : Bytes)
    (leafs : Nat) (fs : FS) (hmod : data.length % Element.byteLen E = 0)
    (h : ¬ ValidTreeBytes E b data leafs) :
    ∃ m, BaseTree.fromTreeSlice (S := VecStore E) (E := E) b sub top data leafs fs =
      (.error (.err m), fs) := by
  obtain ⟨m, hm, _⟩ := C40_bad_length (S := VecStore E) (E := E) hb sub top data leafs fs
    (fun ⟨h1, k, h2, h3, h4⟩ => h ⟨h1, k, h2, h3, whole_of_mod hmod h4⟩)
  exact ⟨m, hm⟩

/-- **C40**, exactly for `VecStore`: bytes after the last whole element make no difference, with and
without configuration; so data of a wrong length is accepted just if it is a valid tree followed by less
than an element. -/
theorem C40_vec_trailing_refuted (b sub top leafs : Nat) {data rest : Bytes}
    (hmod : data.length % Element.byteLen E = 0) (hr : rest.length < Element.byteLen E) (c : StoreConfig)
    (fs : FS) :
    BaseTree.fromTreeSlice (S := VecStore E) (E := E) b sub top (data ++ rest) leafs fs
      = BaseTree.fromTreeSlice b sub top data leafs fs ∧
    BaseTree.fromTreeSliceWithConfig (S := VecStore E) (E := E) b sub top (data ++ rest) leafs c fs
      = BaseTree.fromTreeSliceWithConfig b sub top data leafs c fs := by
  have hp : 0 < Element.byteLen E := by omega
  have hd : (data ++ rest).length / Element.byteLen E = data.length / Element.byteLen E := by
    rw [List.length_append]
    obtain ⟨q, hq⟩ := Nat.dvd_of_mod_eq_zero hmod
    rw [hq, Nat.mul_add_div hp, Nat.mul_div_cancel_left _ hp, Nat.div_eq_of_lt hr, Nat.add_zero]
  have h1 : BaseTree.treeSliceLen E b sub top (data ++ rest) leafs
      = BaseTree.treeSliceLen E b sub top data leafs := by
    unfold BaseTree.treeSliceLen divP
    rw [hd]
  have h2 : ∀ n, (VecStore.newFromSlice n (data ++ rest) : M (VecStore E)) = VecStore.newFromSlice n data := by
    intro n
    unfold VecStore.newFromSlice chunksExact
    rw [hd, List.take_append_of_le_length (Nat.div_mul_le_self _ _)]
  have h3 : ∀ n, (Store.newFromSlice n (data ++ rest) : M (VecStore E)) = Store.newFromSlice n data := h2
  have h4 : ∀ n, (Store.newFromSliceWithConfig n b (data ++ rest) c : M (VecStore E))
      = Store.newFromSliceWithConfig n b data c := h2
  unfold BaseTree.fromTreeSlice BaseTree.fromTreeSliceWithConfig
  simp only [h1, h3, h4, and_self]

/-- Elements of two bytes, for the counterexample below. -/
local instance instTwoBytes : Element (UInt8 × UInt8) where
  byteLen := 2
  toBytes e := [e.1, e.2]
  decode bs := (bs.headD 0, bs.tail.headD 0)
  default := (0, 0)

omit [FloatRows] in
theorem instTwoBytes_lawful : LawfulElement (UInt8 × UInt8) where
  byteLen_pos := by decide
  length_toBytes _ := rfl
  decode_toBytes _ := rfl

attribute [local instance] idealRows

/-- **C40 fails for `VecStore`** when the data ends in a partial element: seven bytes are not a
whole number of two-byte elements, yet `from_tree_slice` takes them for the three nodes of a tree
with two leaves. -/
theorem C40_vec_bad_length_refuted :
    ∃ (data : Bytes) (t : BaseTree (VecStore (UInt8 × UInt8)) (UInt8 × UInt8)),
      ¬ ValidTreeBytes (UInt8 × UInt8) 2 data 2 ∧
      BaseTree.fromTreeSlice 2 0 0 data 2 FS.empty = (.ok t, FS.empty) := by
  refine ⟨List.replicate 7 0, _, ?_, rfl⟩
  rintro ⟨_, k, _, _, h⟩
  have h : 7 = nodes 2 k * 2 := h
  omega

-- A tree of four leaves, and the same tree read back from its seven bytes; six bytes are refused.
example : ∃ t : BaseTree (VecStore UInt8) UInt8,
    BaseTree.new toyAlg 2 Sched.sequential [1, 2, 3, 4] FS.empty = (.ok t, FS.empty) ∧
    t.store.els = [72, 73, 74, 75, 91, 155, 250] ∧ t.summary = (250, 4, 7, 3) := ⟨_, rfl, rfl, rfl⟩
example : ∃ (t : BaseTree (DiskStore UInt8) UInt8) (fs : FS),
    BaseTree.fromTreeSlice 2 0 0 [72, 73, 74, 75, 91, 155, 250] 4 FS.empty = (.ok t, fs) ∧
    t.summary = (250, 4, 7, 3) := ⟨_, _, rfl, rfl⟩
example : ¬ ValidTreeBytes UInt8 2 [1, 2, 3, 4, 5, 6] 4 := by
  rintro ⟨_, k, _, h1, h2⟩
  have h2 : 6 = nodes 2 k * 1 := h2
  have hk : k = 2 := by
    have : (2:Nat) ^ k = 2 ^ 2 := h1.symm
    exact Nat.pow_right_injective (by omega) this
  subst hk
  exact absurd h2 (by decide)

end Verif
