import Verif.Lemmas.LevelFresh
import Verif.Lemmas.CachedTrees
/-! `gen_proof` on trees of which rows cannot be read. -/
set_option linter.unusedSectionVars false
namespace Verif
open Spec StoreOps

section
variable {E : Type}

theorem siblings_congr {rd rd' : Nat → Res E} {j : Nat} : ∀ (n k : Nat),
    (∀ c, k ≤ c → c < k + n → c ≠ j → rd c = rd' c) →
    BaseTree.siblings rd j n k = BaseTree.siblings rd' j n k
  | 0, _, _ => rfl
  | n + 1, k, h => by
    have ih := siblings_congr n (k + 1) fun c h1 h2 h3 => h c (by omega) (by omega) h3
    rw [BaseTree.siblings, BaseTree.siblings, ih]
    by_cases hk : k ≠ j
    · rw [if_pos hk, if_pos hk, h k (Nat.le_refl _) (by omega) hk]
    · rw [if_neg hk, if_neg hk]

theorem proofLoop_congr {rd rd' : Nat → Res E} {b total lo : Nat} (h : ∀ i, lo ≤ i → rd i = rd' i) :
    ∀ fuel base width j, lo ≤ base →
    BaseTree.proofLoop rd b total fuel base width j = BaseTree.proofLoop rd' b total fuel base width j
  | 0, _, _, _, _ => rfl
  | fuel + 1, base, width, j, hb => by
    rw [BaseTree.proofLoop, BaseTree.proofLoop]
    simp only []
    rw [siblings_congr (rd := fun c => rd (base + c)) (rd' := fun c => rd' (base + c)) (j := j) b (j / b * b)
        fun c _ _ _ => h _ (by omega),
      proofLoop_congr h fuel (base + width) (width >>> log2Pow2 b) (j >>> log2Pow2 b) (by omega)]

variable [Element E] [LawfulElement E]

/-- The loop of `gen_proof` meets a sibling that cannot be read. -/
theorem proofLoop_dead {rd : Nat → Res E} {b k l : Nat} (hb : Arity b) (hr : ∀ i, Res.Returns (rd i))
    (hl : l < k) : ∀ (n fuel j : Nat), n ≤ k → k - n ≤ l → n < fuel →
    (∃ c, j / b ^ (l - (k - n)) / b * b ≤ c ∧ c < j / b ^ (l - (k - n)) / b * b + b ∧
      c ≠ j / b ^ (l - (k - n)) ∧ Res.IsErr (rd (rowStart b k l + c))) →
    Res.IsErr (BaseTree.proofLoop rd b (nodes b k) fuel (rowStart b k (k - n)) (b ^ n) j)
  | n, 0, _, _, _, hf, _ => by omega
  | 0, _ + 1, _, _, _, _, _ => by omega
  | n + 1, fuel + 1, j, hn, hnl, hf, hc => by
    have hb2 := hb.two_le
    obtain ⟨hlt, hrow⟩ := cached_row hb2 hn
    rw [BaseTree.proofLoop, if_pos hlt]
    simp only []
    by_cases h0 : k - (n + 1) = l
    · rw [h0, Nat.sub_self, Nat.pow_zero, Nat.div_one] at hc
      obtain ⟨c, h1, h2, h3, h4⟩ := hc
      obtain ⟨m, hm⟩ := siblings_err_of (rd := fun c => rd (rowStart b k (k - (n + 1)) + c)) (fun i => hr _)
        (j := j) b (j / b * b) ⟨c, h1, h2, h3, by rw [h0]; exact h4⟩
      rw [hm]; exact ⟨m, rfl⟩
    · rcases siblings_returns (rd := fun c => rd (rowStart b k (k - (n + 1)) + c)) (fun i => hr _) j b
        (j / b * b) with ⟨es, hes⟩ | ⟨m, hm⟩
      · rw [hes, Res.ok_bind]
        have hsh : b ^ (n + 1) >>> log2Pow2 b = b ^ n := by
          rw [hb.shiftRight, Nat.pow_succ, Nat.mul_div_cancel _ (by omega)]
        rw [hrow, hsh, hb.shiftRight]
        have hd : j / b / b ^ (l - (k - n)) = j / b ^ (l - (k - (n + 1))) := by
          rw [Nat.div_div_eq_div_mul, Nat.mul_comm, ← Nat.pow_succ]
          congr 2; omega
        obtain ⟨m, hm⟩ := proofLoop_dead hb hr hl n fuel (j / b) (by omega) (by omega) (by omega)
          (by rw [hd]; exact hc)
        rw [hm]; exact ⟨m, rfl⟩
      · rw [hm]; exact ⟨m, rfl⟩

omit [LawfulElement E] in
/-- Up to the loop, `gen_proof` depends on the sizes and the item only. -/
theorem BaseTree.genProof_unfold {S : Type} [StoreOps S E] {b k : Nat} (hb : Arity b) (hk : 1 ≤ k) {fs : FS}
    {t : BaseTree S E} (hl : t.leafs = b ^ k) (hrows : t.rowCount = k + 1) (hlen : t.length = nodes b k)
    {i : Nat} (hi : i < b ^ k) :
    t.genProof b 0 0 fs i = (do
      let item ← t.readAt fs i
      let (sibs, path) ← proofLoop (t.readAt fs) b (nodes b k) (nodes b k + b ^ k + 2) 0 (b ^ k) i
      let lem := item :: sibs ++ [t.root]
      ensure (lem.length = 2 + (b - 1) * k) "Invalid proof lemma length"
      ensure (path.length = k) "Invalid proof path length"
      Proof.new b 0 0 none lem path) := by
  have hb2 := hb.two_le
  unfold BaseTree.genProof
  rw [hl, hrows, hlen, ensure_true hi, Res.ok_bind, ensure_true ((eq_nextPow2_iff _).2 (hb.pow_isPow2 k)),
    Res.ok_bind, ensure_true ((eq_nextPow2_iff _).2 hb.pow2), Res.ok_bind]
  have h1 : merkleProofLemmaLen (k + 1) b = .ok (2 + (b - 1) * k) := by
    unfold merkleProofLemmaLen
    rw [subP_ok (by omega), Res.ok_bind, subP_ok (by omega), Res.ok_bind, Nat.add_sub_cancel]
  rw [h1, Res.ok_bind, subP_ok (by omega), Res.ok_bind, ensure_true rfl, Res.ok_bind, ensure_true rfl,
    Res.ok_bind, Nat.add_sub_cancel]

theorem BaseTree.genProof_dead {S : Type} [StoreOps S E] {b k l : Nat} (hb : Arity b) {fs : FS}
    {t : BaseTree S E} (hl : t.leafs = b ^ k) (hrows : t.rowCount = k + 1) (hlen : t.length = nodes b k)
    (hr : ∀ i, Res.Returns (t.readAt fs i)) (hlk : l < k) {i : Nat} (hi : i < b ^ k)
    (hc : ∃ c, i / b ^ l / b * b ≤ c ∧ c < i / b ^ l / b * b + b ∧ c ≠ i / b ^ l ∧
      Res.IsErr (t.readAt fs (rowStart b k l + c))) :
    Res.IsErr (t.genProof b 0 0 fs i) := by
  rw [genProof_unfold hb (by omega) hl hrows hlen hi]
  rcases hr i with ⟨e, he⟩ | ⟨m, hm⟩
  · rw [he, Res.ok_bind]
    have hkl : k < b ^ k := Nat.lt_pow_self (by have := hb.two_le; omega)
    obtain ⟨m, hm⟩ := proofLoop_dead hb hr hlk k (nodes b k + b ^ k + 2) i (Nat.le_refl _) (by omega) (by omega)
      (by rw [Nat.sub_self, Nat.sub_zero]; exact hc)
    rw [Nat.sub_self] at hm
    have h3 : rowStart b k 0 = 0 := rfl
    rw [h3] at hm
    rw [hm]; exact ⟨m, rfl⟩
  · rw [hm]; exact ⟨m, rfl⟩

section
variable {A : Alg E} {b k d : Nat} {leaves : List E} {f : Nat → E} {fs : FS} {t : BaseTree (LevelCacheStore E) E}
    {r : ExternalReader}

/-- The nodes of a tree over the cached rows and a reader. -/
theorem BaseTree.reads_v2 (hb : Arity b) (hd : d < k) (hlay : IsLayout A.nodeHash b k leaves f)
    (hv : t.store.View b k d) (hsr : t.store.reader = some r) (hr : r.Serves fs leaves)
    (hfile : fs.file t.store.file = some (encodeAll (cachedRows b k d f))) (i : Nat) :
    (i < b ^ k ∨ rowStart b k (d + 1) ≤ i → i < nodes b k → t.readAt fs i = .ok (f i)) ∧
    (b ^ k ≤ i → i < rowStart b k (d + 1) ∨ nodes b k ≤ i → Res.IsErr (t.readAt fs i)) := by
  refine ⟨fun h1 h2 => ?_, fun h1 h2 => ?_⟩
  · rcases h1 with h1 | h1
    · rw [hlay.leaf i (by rw [hlay.count]; exact h1)]
      exact hv.readAt_base_v2 hsr hlay.count hr _
    · exact hv.readAt_cached_v2 hd hsr hfile h1 h2
  · rcases h2 with h2 | h2
    · rcases Nat.lt_or_ge (b ^ k) i with h3 | h3
      · exact hv.discarded_err h3 h2 _
      · obtain rfl : i = b ^ k := by omega
        refine hv.readAt_boundary_v2 hb.two_le hd ?_ hsr hfile
        by_contra h0
        rw [show d = 0 by omega] at h2
        simp [rowStart] at h2
    · exact LevelCacheStore.readAt_err_len (by rw [hv.len]; exact h2) _

/-- `gen_proof` on such a tree when rows are discarded. -/
theorem BaseTree.genProof_v2_err (hb : Arity b) (hd : d < k) (hd1 : 1 ≤ d)
    (hlay : IsLayout A.nodeHash b k leaves f) (hleafs : t.leafs = b ^ k) (hrows : t.rowCount = k + 1)
    (hv : t.store.View b k d) (hsr : t.store.reader = some r) (hr : r.Serves fs leaves)
    (hfile : fs.file t.store.file = some (encodeAll (cachedRows b k d f))) {i : Nat} (hi : i < b ^ k) :
    Res.IsErr (t.genProof b 0 0 fs i) := by
  have hb2 := hb.two_le
  have hreads := BaseTree.reads_v2 hb hd hlay hv hsr hr hfile
  refine BaseTree.genProof_dead (l := 1) hb hleafs hrows hv.len (fun i => ?_) (by omega) hi ?_
  · by_cases h1 : (i < b ^ k ∨ rowStart b k (d + 1) ≤ i) ∧ i < nodes b k
    · exact .inl ⟨_, (hreads i).1 h1.1 h1.2⟩
    · have := pow_le_nodes b k
      exact .inr ((hreads i).2 (by omega) (by omega))
  · obtain ⟨x, h2, h3, h4⟩ := exists_sibling (j := i / b ^ 1) hb2
    refine ⟨x, h2, h3, h4, ?_⟩
    have h5 : i / b ^ 1 / b * b + b ≤ b ^ (k - 1) := by
      have : i / b ^ 1 / b < b ^ (k - 2) := by
        rw [Nat.div_lt_iff_lt_mul (by omega), Nat.div_lt_iff_lt_mul (by rw [Nat.pow_one]; omega),
          ← Nat.pow_succ, ← Nat.pow_add]
        rwa [show k - 2 + 1 + 1 = k by omega]
      calc i / b ^ 1 / b * b + b = (i / b ^ 1 / b + 1) * b := by ring
        _ ≤ b ^ (k - 2) * b := Nat.mul_le_mul_right _ this
        _ = b ^ (k - 1) := by rw [← Nat.pow_succ]; congr 1; omega
    have h6 := rowStart_mono (b := b) (k := k) (show 2 ≤ d + 1 by omega)
    have h7 : rowStart b k 2 = b ^ k + b ^ (k - 1) := by simp [rowStart]
    have h8 : rowStart b k 1 = b ^ k := by simp [rowStart]
    exact (hreads _).2 (by omega) (.inl (by omega))

/-- With no discarded row every node can be read. -/
theorem BaseTree.reads_v2_full (hb : Arity b) (hk : 1 ≤ k) (hlay : IsLayout A.nodeHash b k leaves f)
    (hleafs : t.leafs = b ^ k) (hrows : t.rowCount = k + 1) (hroot : t.root = f (nodes b k - 1))
    (hv : t.store.View b k 0) (hsr : t.store.reader = some r) (hr : r.Serves fs leaves)
    (hfile : fs.file t.store.file = some (encodeAll (cachedRows b k 0 f))) :
    t.IsTreeOf A b k leaves fs := by
  refine ⟨hleafs, hv.len, hrows, f, hlay, fun i hi => ?_, hroot⟩
  refine (BaseTree.reads_v2 hb (by omega) hlay hv hsr hr hfile i).1 ?_ hi
  have h8 : rowStart b k (0 + 1) = b ^ k := by simp [rowStart]
  omega

end

end
end Verif
