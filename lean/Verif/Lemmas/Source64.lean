import Verif.Lemmas.Stores64
/-
The constructors of base trees on 64-bit words, for each store.
-/
namespace Verif
open StoreOps Spec

variable {E : Type} [Element E] [LawfulElement E] [FloatRows] {o : Overflow} {n b W : Nat}

/-- What the sizes must satisfy, `W` being a bound on the elements that are stored. -/
structure WordSizes (E : Type) [Element E] (n b W : Nat) : Prop where
  arity : b ≤ 2 ^ 63
  arity_ne : b ≠ 1
  leaves : 2 * n - 1 ≤ W
  bytes : W * Element.byteLen E < 2 ^ 63
  block : buildDataBlockSize * Element.byteLen E < 2 ^ 63

namespace WordSizes

theorem fit (h : WordSizes E n b W) (N : Nat) (hb : Arity b) (hN : merkleTreeLen n b = .ok N) :
    SizesFit E n b N W :=
  ⟨hb, h.arity, hN, h.leaves, h.bytes, h.block⟩

theorem leaves_lt (h : WordSizes E n b W) : n < 2 ^ 63 := by
  have h1 := h.leaves
  have h2 := h.bytes
  have := Nat.le_mul_of_pos_right W (LawfulElement.byteLen_pos (E := E))
  omega

theorem vec (h : WordSizes E n b W) : CanBuild (Vec64 o E) (VecStore E) (E := E) Vec64.mk n b W :=
  ⟨h.leaves_lt, h.arity, h.arity_ne, h.fit, fun N hb hN =>
    ⟨_, Vec64.storeSim (h.fit N hb hN), fun _ _ h => h.1⟩⟩

theorem mmap (h : WordSizes E n b W) : CanBuild (Mmap64 o E) (MmapStore E) (E := E) Mmap64.mk n b W :=
  ⟨h.leaves_lt, h.arity, h.arity_ne, h.fit, fun N hb hN =>
    ⟨_, Mmap64.storeSim (h.fit N hb hN), fun _ _ h => h.1⟩⟩

theorem disk (h : WordSizes E n b W) : CanBuild (Disk64 o E) (DiskStore E) (E := E) Disk64.mk n b W :=
  ⟨h.leaves_lt, h.arity, h.arity_ne, h.fit, fun N hb hN =>
    ⟨_, Disk64.storeSim (h.fit N hb hN), fun _ _ h => h.1⟩⟩

theorem levelCache (h : WordSizes E n b W) (hK : CacheFits n b) :
    CanBuild (LevelCache64 o E) (LevelCacheStore E) (E := E) LevelCache64.mk n b W :=
  ⟨h.leaves_lt, h.arity, h.arity_ne, h.fit, fun N hb hN =>
    ⟨_, LevelCache64.storeSim (h.fit N hb hN) hK, fun _ _ h => h.1⟩⟩

end WordSizes

variable {S' S : Type} [Store S' E] [Store S E] {w : S → S'}

omit [Element E] [LawfulElement E] [FloatRows] in
theorem dataItems_length (A : Alg E) (ds : List (HashableVal A)) :
    ∀ a, (BaseTree.dataItems A ds a).length = ds.length := by
  induction ds with
  | nil => exact fun _ => rfl
  | cons d ds ih => intro a; simp [BaseTree.dataItems, ih]

theorem Source.build64_runs {A : Alg E} {σ : Sched} (hσ : σ.Valid) (src : Source A) (hsrc : src.Valid)
    (hC : CanBuild S' S (E := E) w src.leaves.length b (2 * src.leaves.length - 1)) (c : Option StoreConfig) :
    M.RunsAs (BaseTree.mapStore w) (src.build64 o b σ c : M (BaseTree S' E)) (src.build b σ c) := by
  cases src with
  | new items =>
    have e : (Source.new items : Source A).leaves.length = items.length := by simp [Source.leaves]
    rw [e] at hC
    cases c with
    | none => exact (tryFromIter64_sim hC A hσ _ (by rw [List.length_map]; omega)).run_eq
    | some c => exact (tryFromIterWithConfig64_sim hC A hσ _ (by rw [List.length_map]; omega) c).run_eq
  | iter items =>
    have e : (Source.iter items : Source A).leaves.length = items.length := by simp [Source.leaves]
    rw [e] at hC
    cases c with
    | none => exact (tryFromIter64_sim hC A hσ _ (by rw [List.length_map]; omega)).run_eq
    | some c => exact (tryFromIterWithConfig64_sim hC A hσ _ (by rw [List.length_map]; omega) c).run_eq
  | par π items =>
    have e : (Source.par π items : Source A).leaves.length = items.length := by simp [Source.leaves]
    rw [e] at hC
    cases c with
    | none => exact (fromParIter64_sim hC A hσ hsrc items (by omega) rfl).run_eq
    | some c => exact (fromParIterWithConfig64_sim hC A hσ hsrc items (by omega) rfl c).run_eq
  | data ds =>
    have e : (Source.data ds : Source A).leaves.length = ds.length := by simp [Source.leaves]
    have e' := dataItems_length A ds A.init
    rw [e] at hC
    cases c with
    | none => exact (tryFromIter64_sim hC A hσ _ (by rw [List.length_map, e']; omega)).run_eq
    | some c => exact (tryFromIterWithConfig64_sim hC A hσ _ (by rw [List.length_map, e']; omega) c).run_eq
  | bytes es =>
    have e : (Source.bytes es : Source A).leaves.length = es.length := rfl
    have hl : (encodeAll es).length = es.length * Element.byteLen E := by
      rw [length_encodeAll]
    rw [e] at hC
    have hi : (encodeAll es).length ≤ (2 * es.length - 1) * Element.byteLen E := by
      rw [hl]; exact Nat.mul_le_mul_right _ (by omega)
    have hn : (encodeAll es).length / Element.byteLen E = es.length := by
      rw [hl, Nat.mul_div_cancel _ (LawfulElement.byteLen_pos (E := E))]
    cases c with
    | none => exact (fromByteSlice64_sim hC A hσ _ hi hn).run_eq
    | some c => exact (fromByteSliceWithConfig64_sim hC A hσ _ hi hn c).run_eq

omit [FloatRows] in
/-- The sizes for a source. -/
theorem WordSizes.of_source (hb : b ≤ 2 ^ 63) (hb1 : b ≠ 1) (hn : 2 * n * Element.byteLen E ≤ 2 ^ 63)
    (hblk : buildDataBlockSize * Element.byteLen E < 2 ^ 63) : WordSizes E n b (2 * n - 1) where
  arity := hb
  arity_ne := hb1
  leaves := Nat.le_refl _
  bytes := by
    have := LawfulElement.byteLen_pos (E := E)
    rw [Nat.sub_mul]; omega
  block := hblk

omit [FloatRows] in
/-- The sizes for a slice of bytes that need not be a tree. -/
theorem WordSizes.of_slice {l : Nat} (hb : b ≤ 2 ^ 63) (hb1 : b ≠ 1) (hn : 2 * n * Element.byteLen E ≤ 2 ^ 63)
    (hl : l + Element.byteLen E ≤ 2 ^ 63)
    (hblk : buildDataBlockSize * Element.byteLen E < 2 ^ 63) :
    ∃ W, l ≤ W * Element.byteLen E ∧ WordSizes E n b W := by
  have hp := LawfulElement.byteLen_pos (E := E)
  have h1 := (WordSizes.of_source hb hb1 hn hblk).bytes
  have e := Nat.div_add_mod (l + (Element.byteLen E - 1)) (Element.byteLen E)
  have h2 := Nat.mod_lt (l + (Element.byteLen E - 1)) hp
  rw [Nat.mul_comm] at e
  generalize (l + (Element.byteLen E - 1)) / Element.byteLen E = q at e
  generalize (l + (Element.byteLen E - 1)) % Element.byteLen E = r at e h2
  by_cases hq : 2 * n - 1 ≤ q
  · exact ⟨q, by omega, hb, hb1, hq, by omega, hblk⟩
  · refine ⟨2 * n - 1, ?_, hb, hb1, Nat.le_refl _, h1, hblk⟩
    have : q * Element.byteLen E ≤ (2 * n - 1) * Element.byteLen E := Nat.mul_le_mul_right _ (by omega)
    omega

/-- A tree over a given store: all that is computed is the size and the address of the root. -/
theorem fromDataStore64_eq (hn : n < 2 ^ 63) (hb : b ≤ 2 ^ 63) (hb1 : b ≠ 1) {s : S} (fs : FS)
    (hl : StoreOps.len (E := E) (w s) = StoreOps.len (E := E) s)
    (hr : StoreOps.len (E := E) s ≠ 0 → (StoreOps.last64 o fs (w s) : Res E) = StoreOps.last fs s) (sub top : Nat) :
    (BaseTree.fromDataStore64 o b sub top (w s) n fs : Res (BaseTree S' E))
      = (BaseTree.fromDataStore b sub top s n fs).map (BaseTree.mapStore w) := by
  have := half_lt_word
  unfold BaseTree.fromDataStore64 BaseTree.fromDataStore
  rw [Word.npow2_ok (Nat.le_of_lt hn), Word.npow2_ok hb, merkleTreeLen64_eq (Nat.le_of_lt hn) (.inr (.inl hn)),
    merkleTreeRowCount64_eq (Nat.le_of_lt hn) (.inr (.inl hn)),
    isMerkleTreeSizeValid64_eq (by omega) (by omega) (.inr ⟨Nat.le_of_lt hn, hb⟩), hl]
  simp only [Res.ok_bind]
  by_cases h1 : sub = 0
  swap
  · simp only [ensure_false h1]; rfl
  by_cases h2 : top = 0
  swap
  · simp only [ensure_true h1, ensure_false h2]; rfl
  by_cases h3 : nextPow2 n = n
  swap
  · simp only [ensure_true h1, ensure_true h2, ensure_false h3]; rfl
  by_cases h4 : nextPow2 b = b
  swap
  · simp only [ensure_true h1, ensure_true h2, ensure_true h3, ensure_false h4]; rfl
  simp only [ensure_true h1, ensure_true h2, ensure_true h3, ensure_true h4, Res.ok_bind]
  cases hN : merkleTreeLen n b with
  | error e => rfl
  | ok N =>
    rw [Res.ok_bind, Res.ok_bind]
    by_cases h5 : N = StoreOps.len (E := E) s
    swap
    · simp only [ensure_false h5]; rfl
    have hA : Arity b := arity_of_pow2 ((eq_nextPow2_iff b).1 h4.symm) hb1
    have h6 := merkleTreeLen_le hA hN
    simp only [ensure_true h5, Res.ok_bind, hr (by omega)]
    cases isMerkleTreeSizeValid n b with
    | error e => rfl
    | ok v =>
      rw [Res.ok_bind, Res.ok_bind]
      by_cases h7 : v = true
      swap
      · simp only [ensure_false h7]; rfl
      simp only [ensure_true h7, Res.ok_bind]
      cases (StoreOps.last fs s : Res E) <;> rfl

omit [LawfulElement E] [FloatRows] in
theorem last64_of {s' : S'} {s : S} (fs : FS) (hl : StoreOps.len (E := E) s' = StoreOps.len (E := E) s)
    (hr : ∀ i, i < StoreOps.len (E := E) s → (StoreOps.readAt fs s' i : Res E) = StoreOps.readAt fs s i)
    (h0 : StoreOps.len (E := E) s ≠ 0) : (StoreOps.last64 o fs s' : Res E) = StoreOps.last fs s := by
  unfold StoreOps.last64 StoreOps.last
  rw [hl, Word.sub_ok (by omega), subP_ok (by omega), Res.ok_bind, Res.ok_bind, hr _ (by omega)]

/-! #### What is built -/

variable {A : Alg E}

/-- A tree whose store is wrapped, when the wrapped store reads alike. -/
theorem BaseTree.IsTreeOf.mapStore {S' S : Type} [Store S' E] [Store S E] {w : S → S'} {k : Nat} {leaves : List E}
    {fs : FS} {t : BaseTree S E} (h : t.IsTreeOf A b k leaves fs)
    (hl : StoreOps.len (E := E) (w t.store) = StoreOps.len (E := E) t.store)
    (hr : ∀ i, i < StoreOps.len (E := E) t.store → (StoreOps.readAt fs (w t.store) i : Res E) =
      StoreOps.readAt fs t.store i) : (t.mapStore w).IsTreeOf A b k leaves fs where
  leafs := h.leafs
  len := hl.trans h.len
  rows := h.rows
  nodes := by
    obtain ⟨f, h1, h2, h3⟩ := h.nodes
    refine ⟨f, h1, fun i hi => ?_, h3⟩
    rw [← h2 i hi]
    exact hr i (by rw [show StoreOps.len (E := E) t.store = _ from h.len]; exact hi)

/-- From the run on natural numbers to the tree on words. -/
theorem M.RunsAs.tree {S' S : Type} [Store S' E] [Store S E] {w : S → S'} {x' : M (BaseTree S' E)}
    {x : M (BaseTree S E)} (h : M.RunsAs (BaseTree.mapStore w) x' x) {fs fs' : FS} {t' : BaseTree S' E}
    (ht : x' fs = (.ok t', fs')) : ∃ t, x fs = (.ok t, fs') ∧ t' = BaseTree.mapStore w t := by
  have h := h fs
  rw [ht] at h
  cases hx : x fs with
  | mk r fs1 =>
    rw [hx] at h
    cases r with
    | error e => simp [Except.map] at h
    | ok t =>
      simp only [Except.map, Prod.mk.injEq, Except.ok.injEq] at h
      exact ⟨t, by rw [h.2], h.1⟩

theorem log2Pow2_even {m : Nat} (hm : 1 ≤ m) : 1 ≤ log2Pow2 (m * 2) := by
  unfold log2Pow2
  rw [if_neg (by omega)]
  obtain ⟨f, hf⟩ : ∃ f, m * 2 = f + 1 := ⟨m * 2 - 1, by omega⟩
  rw [hf, log2Pow2.go, if_pos (by omega)]
  omega

theorem nodes_le_twice {b : Nat} (hb : 2 ≤ b) : ∀ k, nodes b k + 1 ≤ 2 * b ^ k
  | 0 => by simp [nodes]
  | k + 1 => by
    have := nodes_le_twice hb k
    have : 2 * b ^ k ≤ b ^ (k + 1) := by rw [Nat.pow_succ, Nat.mul_comm]; exact Nat.mul_le_mul_left _ hb
    rw [nodes]; omega

theorem BaseTree.IsTreeOf.len_lt {k : Nat} {leaves : List E} {fs : FS} {t : BaseTree S E}
    (h : t.IsTreeOf A b k leaves fs) (hb1 : b ≠ 1) (hn : 2 * leaves.length * Element.byteLen E ≤ 2 ^ 63)
    (hblk : buildDataBlockSize * Element.byteLen E < 2 ^ 63) : t.length * Element.byteLen E < 2 ^ 63 := by
  obtain ⟨f, hl, -⟩ := h.nodes
  rw [hl.count] at hn
  rw [h.len]
  have hp := LawfulElement.byteLen_pos (E := E)
  by_cases hb : 2 ≤ b
  · have h1 := Nat.mul_le_mul_right (Element.byteLen E) (nodes_le_twice hb k)
    rw [Nat.add_mul] at h1
    omega
  · have : b = 0 := by omega
    subst this
    have : ∀ k, Spec.nodes 0 k = 1 := by
      intro k
      induction k with
      | zero => rfl
      | succ k ih => rw [Spec.nodes, ih]; simp
    rw [this]
    have : 1 * Element.byteLen E ≤ buildDataBlockSize * Element.byteLen E :=
      Nat.mul_le_mul_right _ (by decide)
    omega

end Verif
