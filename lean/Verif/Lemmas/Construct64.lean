import Verif.Lemmas.Build64
import Verif.Spec.Build64
import Verif.Lemmas.Reject
/-!
Construction of base trees on words does what it does on natural numbers.
-/
set_option linter.unusedSectionVars false
namespace Verif
open Spec Word StoreOps

section populate
variable {S' S E : Type} [Element E] [LawfulElement E] [StoreOps S' E] [StoreOps S E]
  {R : S' → S → Prop} {W : Nat} (hO : OpsSim S' S (E := E) W R)
  (hB : buildDataBlockSize * Element.byteLen E < 2 ^ 63) {o : Overflow} (A : Alg E)
include hO hB

theorem populateLoop64_sim : ∀ (items : List (Res E)) (a : A.σ) (buf : Bytes) (s' : S') (s : S) (k : Nat),
    buf.length = k * Element.byteLen E → StoreOps.len (E := E) s + k + items.length ≤ W → R s' s →
    loadedFromDisk (E := E) s = false →
    M.Sim NoFault (fun y' y => y'.1 = y.1 ∧ R y'.2 y.2 ∧ loadedFromDisk (E := E) y.2 = false ∧
        ∃ k, y.1.length = k * Element.byteLen E ∧ StoreOps.len (E := E) y.2 + k ≤ W)
      (populateLoop64 o A items a buf s') (populateLoop A items a buf s)
  | [], _, buf, s', s, k, hk, hl, hR, hd => M.Sim.pure ⟨rfl, hR, hd, k, hk, by simpa using hl⟩
  | item :: items, a, buf, s', s, k, hk, hl, hR, hd => by
    have := half_lt_word
    have hpos := LawfulElement.byteLen_pos (E := E)
    simp only [List.length_cons] at hl
    unfold populateLoop64 populateLoop
    refine M.Sim.step fun e => ?_
    dsimp only
    rw [Word.mul_ok (by omega), M.ofRes_ok_bind]
    have hk' : (buf ++ Element.toBytes (A.leaf (A.reset a) e).1).length = (k + 1) * Element.byteLen E := by
      rw [List.length_append, hk, LawfulElement.length_toBytes, Nat.add_mul, Nat.one_mul]
    split
    · rw [hO.len hR]
      refine M.Sim.bind (hO.copyFromSlice hR hd ?_) fun t' t h => ?_
      · rw [hk', ← Nat.add_mul]
        exact Nat.mul_le_mul_right _ (by omega)
      · obtain ⟨h1, h2, h3, h4⟩ := h
        rw [hk', Nat.mul_div_cancel _ hpos] at h4
        exact populateLoop64_sim items _ [] t' t 0 (by simp) (by omega) h1 h2
    · exact populateLoop64_sim items _ _ s' s (k + 1) hk' (by omega) hR hd

theorem populateData64_sim (items : List (Res E)) (hi : items.length ≤ W) {s' : S'} {s : S} (hR : R s' s)
    (hd : loadedFromDisk (E := E) s = false) :
    M.Sim NoFault R (populateData64 o A s' items) (populateData A s items) := by
  have := half_lt_word
  unfold populateData64 populateData
  rw [hO.isEmpty hR]
  split
  · exact M.Sim.pure hR
  · rename_i he
    have hl := hO.empty hR (by simpa using he)
    rw [Word.mul_ok (by omega), M.ofRes_ok_bind, allocLen_ok hB, M.ofRes_ok_bind]
    refine M.Sim.bind (populateLoop64_sim hO hB A items A.init [] s' s 0 (by simp) (by omega) hR hd) ?_
    rintro ⟨buf', t'⟩ ⟨buf, t⟩ ⟨rfl, h1, h2, k, h3, h4⟩
    dsimp only at *
    rw [hO.len h1]
    refine (hO.copyFromSlice h1 h2 ?_).relax fun _ _ h => h.1
    rw [h3, ← Nat.add_mul]
    exact Nat.mul_le_mul_right _ h4

omit [LawfulElement E] hO hB [StoreOps S' E] [StoreOps S E] in
theorem leafChunkBytes_length [LawfulElement E] : ∀ (es : List E) (a : A.σ),
    (leafChunkBytes A es a).length = es.length * Element.byteLen E
  | [], _ => by simp [leafChunkBytes]
  | e :: es, a => by
    unfold leafChunkBytes
    dsimp only
    rw [List.length_append, leafChunkBytes_length es, LawfulElement.length_toBytes, List.length_cons,
      Nat.add_mul, Nat.one_mul, Nat.add_comm]

theorem populateTasks64_sim (hW : W < 2 ^ 63) {items : List E} (hi : items.length ≤ W) : ∀ (ts : List Nat) (s' : S') (s : S),
    (∀ t ∈ ts, t < (chunks buildDataBlockSize items).length) → R s' s → loadedFromDisk (E := E) s = false →
    M.Sim NoFault R (populateTasks64 o A (chunks buildDataBlockSize items) ts s')
      (populateTasks A (chunks buildDataBlockSize items) ts s)
  | [], _, _, _, hR, _ => M.Sim.pure hR
  | t :: ts, s', s, ht, hR, hd => by
    have := half_lt_word
    have hpos : 0 < buildDataBlockSize := by decide
    have h1 := (lt_chunks_length hpos items t).1 (ht t (by simp))
    unfold populateTasks64 populateTasks
    rw [Word.mul_ok (a := buildDataBlockSize) (b := Element.byteLen E) (by omega), M.ofRes_ok_bind, allocLen_ok hB,
      M.ofRes_ok_bind, Word.mul_ok (by omega), M.ofRes_ok_bind]
    refine M.Sim.bind (hO.copyFromSlice hR hd ?_) fun t' t h => ?_
    · rw [leafChunkBytes_length, chunks_getD hpos _ (ht t (by simp)), ← Nat.add_mul]
      refine Nat.mul_le_mul_right _ ?_
      rw [List.length_take, List.length_drop]
      omega
    · exact populateTasks64_sim hW hi ts t' t (fun u hu => ht u (by simp [hu])) h.1 h.2.1

theorem populateDataPar64_sim (hW : W < 2 ^ 63) {π : ParOrder} (hπ : π.Valid) {items : List E} (hi : items.length ≤ W)
    {s' : S'} {s : S} (hR : R s' s) (hd : loadedFromDisk (E := E) s = false) :
    M.Sim NoFault R (populateDataPar64 o A π s' items) (populateDataPar A π s items) := by
  unfold populateDataPar64 populateDataPar
  rw [hO.isEmpty hR]
  split
  · exact M.Sim.pure hR
  · exact populateTasks64_sim hO hB A hW hi _ s' s
      (fun t ht => List.mem_range.1 ((hπ _).mem_iff.1 ht)) hR hd

end populate

section trees
variable {S' S E : Type} [Element E] [LawfulElement E] [Store S' E] [Store S E] [FloatRows] {n b W : Nat}
  {w : S → S'}

/-- The store can be built on words for `n` leaves, whatever the arity turns out to be. -/
structure CanBuild (S' S : Type) {E : Type} [Element E] [Store S' E] [Store S E] (w : S → S') (n b W : Nat) :
    Prop where
  leaves : n < 2 ^ 63
  arity : b ≤ 2 ^ 63
  arity_ne : b ≠ 1
  fit : ∀ N, Arity b → merkleTreeLen n b = .ok N → SizesFit E n b N W
  sim : ∀ N, Arity b → merkleTreeLen n b = .ok N → ∃ R, StoreSim S' S (E := E) n b N W R ∧
    ∀ s' s, R s' s → s' = w s

theorem sizes64_eq {o : Overflow} (hn : n < 2 ^ 63) (hb : b ≤ 2 ^ 63) :
    BaseTree.sizes64 o b n = BaseTree.sizes b n := by
  unfold BaseTree.sizes64 BaseTree.sizes
  rw [Word.npow2_ok (Nat.le_of_lt hn), Word.npow2_ok hb, merkleTreeLen64_eq (Nat.le_of_lt hn) (.inr (.inl hn)),
    merkleTreeRowCount64_eq (Nat.le_of_lt hn) (.inr (.inl hn))]
  rfl

theorem sizes_ok {N rows : Nat} (h1 : b ≠ 1) (h : BaseTree.sizes b n = .ok (N, rows)) :
    Arity b ∧ merkleTreeLen n b = .ok N ∧ rows = merkleTreeRowCount n b := by
  unfold BaseTree.sizes at h
  simp only [bind_ok_iff, ensure_ok_iff, Except.ok.injEq, Prod.mk.injEq] at h
  obtain ⟨_, _, _, _, _, h2, N', h3, h4, h5⟩ := h
  exact ⟨arity_of_pow2 ((eq_nextPow2_iff b).1 h2.symm) h1, by rw [h3, h4], h5.symm⟩

theorem CanBuild.step {o : Overflow} (hC : CanBuild S' S (E := E) w n b W) {β' β : Type} {Q : β' → β → Prop}
    {f' : Nat × Nat → M β'} {f : Nat × Nat → M β}
    (h : ∀ N R, SizesFit E n b N W → StoreSim S' S (E := E) n b N W R → (∀ s' s, R s' s → s' = w s) →
      M.Sim NoFault Q (f' (N, merkleTreeRowCount n b)) (f (N, merkleTreeRowCount n b))) :
    M.Sim NoFault Q (M.ofRes (BaseTree.sizes64 o b n) >>= f') (M.ofRes (BaseTree.sizes b n) >>= f) := by
  rw [sizes64_eq hC.leaves hC.arity]
  cases hs : BaseTree.sizes b n with
  | error e => exact M.Sim.throw e
  | ok x =>
    obtain ⟨N, rows⟩ := x
    obtain ⟨h1, h2, rfl⟩ := sizes_ok hC.arity_ne hs
    obtain ⟨R, h3, h4⟩ := hC.sim N h1 h2
    exact h N R (hC.fit N h1 h2) h3 h4

variable (hC : CanBuild S' S (E := E) w n b W) {o : Overflow} (A : Alg E) {σ : Sched} (hσ : σ.Valid)
include hC hσ

theorem build64_tail {N : Nat} {R : S' → S → Prop} (hS : StoreSim S' S (E := E) n b N W R)
    (hw : ∀ s' s, R s' s → s' = w s) {s' : S'} {s : S} (hR : R s' s) (c : Option StoreConfig) :
    M.Sim NoFault (fun t' t => t' = BaseTree.mapStore w t)
      (do let (root, s) ← Store.build A b σ s' n (merkleTreeRowCount n b) c
          pure ⟨s, n, N, merkleTreeRowCount n b, root⟩)
      (do let (root, s) ← Store.build A b σ s n (merkleTreeRowCount n b) c
          pure ⟨s, n, N, merkleTreeRowCount n b, root⟩) := by
  refine M.Sim.bind (hS.build A hσ c hR) ?_
  rintro ⟨r', t'⟩ ⟨r, t⟩ ⟨h1, h2⟩
  dsimp only at *
  have := hw _ _ h2
  subst h1 this
  exact M.Sim.pure rfl

omit hσ in
theorem last64_tail {N : Nat} {R : S' → S → Prop} (hS : StoreSim S' S (E := E) n b N W R)
    (hw : ∀ s' s, R s' s → s' = w s) {s' : S'} {s : S} (hR : R s' s) (h0 : 0 < StoreOps.len (E := E) s) (rows : Nat) :
    M.Sim NoFault (fun t' t => t' = BaseTree.mapStore w t)
      (do let root ← M.get fun fs => StoreOps.last64 o fs s'; pure ⟨s', n, N, rows, root⟩)
      (do let root ← M.get fun fs => StoreOps.last fs s; pure ⟨s, n, N, rows, root⟩) := by
  refine M.Sim.bind (R := (· = ·)) (M.Sim.get fun fs => ?_) ?_
  · rw [last64_eq hS.toOpsSim fs hR h0]; exact Res.Sim.rfl
  · rintro r _ rfl
    have := hw _ _ hR
    subst this
    exact M.Sim.pure rfl

theorem tryFromIter64_sim (items : List (Res E)) (hi : items.length ≤ W) :
    M.Sim NoFault (fun t' t => t' = BaseTree.mapStore w t) (BaseTree.tryFromIter64 o A b σ (some n) items)
      (BaseTree.tryFromIter A b σ (some n) items) := by
  unfold BaseTree.tryFromIter64 BaseTree.tryFromIter
  dsimp only
  refine hC.step fun N R hF hS hw => ?_
  dsimp only
  refine M.Sim.bind hS.new fun s' s h => ?_
  refine M.Sim.bind (populateData64_sim hS.toOpsSim hF.block A items hi h.1 h.2.1) fun s' s h => ?_
  exact build64_tail hC A hσ hS hw h none

theorem tryFromIterWithConfig64_sim (items : List (Res E)) (hi : items.length ≤ W) (c : StoreConfig) :
    M.Sim NoFault (fun t' t => t' = BaseTree.mapStore w t)
      (BaseTree.tryFromIterWithConfig64 o A b σ (some n) items c)
      (BaseTree.tryFromIterWithConfig A b σ (some n) items c) := by
  unfold BaseTree.tryFromIterWithConfig64 BaseTree.tryFromIterWithConfig
  dsimp only
  refine hC.step fun N R hF hS hw => ?_
  dsimp only
  refine M.Sim.bind (hS.newWithConfig c) fun s' s h => ?_
  rw [hS.loaded h]
  by_cases hd : loadedFromDisk (E := E) s = true
  · rw [if_pos hd, if_pos hd]
    exact last64_tail hC hS hw h (by rw [hS.loaded_len h hd]; have := hF.size_le; omega) _
  · rw [if_neg hd, if_neg hd]
    refine M.Sim.bind (M.Sim.expect_same _
      (populateData64_sim hS.toOpsSim hF.block A items hi h (by simpa using hd))) fun s' s h => ?_
    exact build64_tail hC A hσ hS hw h (some c)

theorem fromParIter64_sim {π : ParOrder} (hπ : π.Valid) (items : List E) (hi : items.length ≤ W)
    (hn : items.length = n) :
    M.Sim NoFault (fun t' t => t' = BaseTree.mapStore w t) (BaseTree.fromParIter64 o A b σ π items)
      (BaseTree.fromParIter A b σ π items) := by
  unfold BaseTree.fromParIter64 BaseTree.fromParIter
  dsimp only
  rw [hn]
  refine hC.step fun N R hF hS hw => ?_
  dsimp only
  refine M.Sim.bind (M.Sim.expect_same _ hS.new) fun s' s h => ?_
  refine M.Sim.bind (populateDataPar64_sim hS.toOpsSim hF.block A hF.bound_lt hπ hi h.1 h.2.1) fun s' s h => ?_
  exact build64_tail hC A hσ hS hw h none

theorem fromParIterWithConfig64_sim {π : ParOrder} (hπ : π.Valid) (items : List E) (hi : items.length ≤ W)
    (hn : items.length = n) (c : StoreConfig) :
    M.Sim NoFault (fun t' t => t' = BaseTree.mapStore w t) (BaseTree.fromParIterWithConfig64 o A b σ π items c)
      (BaseTree.fromParIterWithConfig A b σ π items c) := by
  unfold BaseTree.fromParIterWithConfig64 BaseTree.fromParIterWithConfig
  dsimp only
  rw [hn]
  refine hC.step fun N R hF hS hw => ?_
  dsimp only
  refine M.Sim.bind (hS.newWithConfig c) fun s' s h => ?_
  rw [hS.loaded h]
  by_cases hd : loadedFromDisk (E := E) s = true
  · rw [if_pos hd, if_pos hd]
    exact last64_tail hC hS hw h (by rw [hS.loaded_len h hd]; have := hF.size_le; omega) _
  · rw [if_neg hd, if_neg hd]
    refine M.Sim.bind (populateDataPar64_sim hS.toOpsSim hF.block A hF.bound_lt hπ hi h (by simpa using hd))
      fun s' s h => ?_
    exact build64_tail hC A hσ hS hw h (some c)

omit hC hσ in
theorem sliceLeafs_ok {bytes : Bytes} {m : Nat} (h : BaseTree.sliceLeafs E bytes = .ok m) :
    m = bytes.length / Element.byteLen E ∧ bytes.length = m * Element.byteLen E := by
  unfold BaseTree.sliceLeafs at h
  rw [modP_ok (LawfulElement.byteLen_pos (E := E)), Res.ok_bind, ensure_bind_ok] at h
  obtain ⟨h1, h2⟩ := h
  simp only [Except.ok.injEq] at h2
  refine ⟨h2.symm, ?_⟩
  rw [← h2]
  exact (Nat.div_mul_cancel (Nat.dvd_of_mod_eq_zero h1)).symm

theorem fromByteSlice64_sim (bytes : Bytes) (hi : bytes.length ≤ W * Element.byteLen E)
    (hn : bytes.length / Element.byteLen E = n) :
    M.Sim NoFault (fun t' t => t' = BaseTree.mapStore w t) (BaseTree.fromByteSlice64 o A b σ bytes)
      (BaseTree.fromByteSlice A b σ bytes) := by
  unfold BaseTree.fromByteSlice64 BaseTree.fromByteSlice
  cases hl : BaseTree.sliceLeafs E bytes with
  | error e => exact M.Sim.throw e
  | ok m =>
    obtain ⟨h1, h2⟩ := sliceLeafs_ok hl
    have hn := h1.trans hn
    rw [M.ofRes_ok_bind, M.ofRes_ok_bind, hn]
    refine hC.step fun N R hF hS hw => ?_
    dsimp only
    refine M.Sim.bind (hS.newFromSlice bytes hi (by have := hF.size_le; omega)) fun s' s h => ?_
    exact build64_tail hC A hσ hS hw h.1 none

theorem fromByteSliceWithConfig64_sim (bytes : Bytes) (hi : bytes.length ≤ W * Element.byteLen E)
    (hn : bytes.length / Element.byteLen E = n) (c : StoreConfig) :
    M.Sim NoFault (fun t' t => t' = BaseTree.mapStore w t) (BaseTree.fromByteSliceWithConfig64 o A b σ bytes c)
      (BaseTree.fromByteSliceWithConfig A b σ bytes c) := by
  unfold BaseTree.fromByteSliceWithConfig64 BaseTree.fromByteSliceWithConfig
  cases hl : BaseTree.sliceLeafs E bytes with
  | error e => exact M.Sim.throw e
  | ok m =>
    obtain ⟨h1, h2⟩ := sliceLeafs_ok hl
    have hn := h1.trans hn
    rw [M.ofRes_ok_bind, M.ofRes_ok_bind, hn]
    refine hC.step fun N R hF hS hw => ?_
    dsimp only
    refine M.Sim.bind (hS.newFromSliceWithConfig bytes c hi (by have := hF.size_le; omega)) fun s' s h => ?_
    exact build64_tail hC A hσ hS hw h.1 (some c)

omit hσ in
theorem treeSlice64_step {bytes : Bytes} {sub top : Nat} {β' β : Type} {Q : β' → β → Prop}
    {f' : Nat × Nat → M β'} {f : Nat → M β}
    (h : ∀ N R, SizesFit E n b N W → StoreSim S' S (E := E) n b N W R → (∀ s' s, R s' s → s' = w s) →
      bytes.length / Element.byteLen E = N →
      M.Sim NoFault Q (f' (N, merkleTreeRowCount n b)) (f N)) :
    M.Sim NoFault Q (M.ofRes (BaseTree.treeSliceLen64 E o b sub top bytes n) >>= f')
      (M.ofRes (BaseTree.treeSliceLen E b sub top bytes n) >>= f) := by
  have hn := hC.leaves
  have hb := hC.arity
  have := half_lt_word
  have e : BaseTree.treeSliceLen64 E o b sub top bytes n
      = (do let N ← BaseTree.treeSliceLen E b sub top bytes n; .ok (N, merkleTreeRowCount n b)) := by
    unfold BaseTree.treeSliceLen64 BaseTree.treeSliceLen
    rw [merkleTreeRowCount64_eq (Nat.le_of_lt hn) (.inr (.inl hn)), merkleTreeLen64_eq (Nat.le_of_lt hn) (.inr (.inl hn)),
      isMerkleTreeSizeValid64_eq (by omega) (by omega) (.inr ⟨Nat.le_of_lt hn, hb⟩)]
    simp only [Res.ok_bind, bind_assoc]
  rw [e]
  cases hs : BaseTree.treeSliceLen E b sub top bytes n with
  | error e => exact M.Sim.throw e
  | ok N =>
    rw [Res.ok_bind, M.ofRes_ok_bind, M.ofRes_ok_bind]
    unfold BaseTree.treeSliceLen at hs
    rw [divP_ok (LawfulElement.byteLen_pos (E := E))] at hs
    simp only [bind_ok_iff, ensure_ok_iff, Res.ok_bind, Except.ok.injEq] at hs
    obtain ⟨_, _, _, _, N', h1, _, h2, v, _, _, _, rfl⟩ := hs
    have hp : nextPow2 b = b := by
      unfold merkleTreeLen at h1
      rw [ensure_bind_ok, ensure_bind_ok] at h1
      exact h1.2.1.symm
    have hA := arity_of_pow2 ((eq_nextPow2_iff b).1 hp.symm) hC.arity_ne
    obtain ⟨R, h3, h4⟩ := hC.sim N' hA h1
    exact h N' R (hC.fit N' hA h1) h3 h4 h2.symm

omit hσ in
theorem fromTreeSlice64_sim (bytes : Bytes) (hi : bytes.length ≤ W * Element.byteLen E) (sub top : Nat) :
    M.Sim NoFault (fun t' t => t' = BaseTree.mapStore w t) (BaseTree.fromTreeSlice64 o b sub top bytes n)
      (BaseTree.fromTreeSlice b sub top bytes n) := by
  unfold BaseTree.fromTreeSlice64 BaseTree.fromTreeSlice
  refine treeSlice64_step hC fun N R hF hS hw hp => ?_
  dsimp only
  refine M.Sim.bind (hS.newFromSlice bytes hi (by omega)) fun s' s h => ?_
  refine last64_tail hC hS hw h.1 ?_ _
  cases hd : loadedFromDisk (E := E) s with
  | true => rw [hS.loaded_len h.1 hd]; have := hF.size_le; omega
  | false => rw [h.2 hd, hp]; have := hF.size_le; omega

omit hσ in
theorem fromTreeSliceWithConfig64_sim (bytes : Bytes) (hi : bytes.length ≤ W * Element.byteLen E) (sub top : Nat)
    (c : StoreConfig) :
    M.Sim NoFault (fun t' t => t' = BaseTree.mapStore w t) (BaseTree.fromTreeSliceWithConfig64 o b sub top bytes n c)
      (BaseTree.fromTreeSliceWithConfig b sub top bytes n c) := by
  unfold BaseTree.fromTreeSliceWithConfig64 BaseTree.fromTreeSliceWithConfig
  refine treeSlice64_step hC fun N R hF hS hw hp => ?_
  dsimp only
  refine M.Sim.bind (hS.newFromSliceWithConfig bytes c hi (by omega)) fun s' s h => ?_
  refine last64_tail hC hS hw h.1 ?_ _
  cases hd : loadedFromDisk (E := E) s with
  | true => rw [hS.loaded_len h.1 hd]; have := hF.size_le; omega
  | false => rw [h.2 hd, hp]; have := hF.size_le; omega

end trees
end Verif
