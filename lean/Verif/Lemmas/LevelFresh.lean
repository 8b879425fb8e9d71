import Verif.Lemmas.LevelRuns
import Verif.Lemmas.CachedProof
/-! Trees on a `LevelCacheStore` before a reader is set. -/
set_option linter.unusedSectionVars false
namespace Verif
open Spec StoreOps

section
variable {S E : Type} [Element E] [LawfulElement E] [StoreOps S E]

/-- A tree of `b ^ k` leaves of which only the indices below `es.length` can be read, with less than
the leaves among them. -/
structure BaseTree.ReadsOnly (fs : FS) (t : BaseTree S E) (b k : Nat) (es : List E) : Prop where
  leafs : t.leafs = b ^ k
  len : t.length = nodes b k
  rows : t.rowCount = k + 1
  short : es.length < b ^ k
  one : k = 1 → es.length ≤ 1
  reads : ∀ i (hi : i < es.length), t.readAt fs i = .ok es[i]
  bad : ∀ i, es.length ≤ i → Res.IsErr (t.readAt fs i)
  seg : ∀ a n, 0 < n → a + n ≤ es.length → ∀ buf : Bytes, buf.length = n * Element.byteLen E →
    StoreOps.readRangeInto (E := E) fs t.store a (a + n) buf = .ok (encodeAll ((es.drop a).take n))
  segBad : ∀ a n, 0 < n → a + n ≤ b ^ k → es.length < a + n → ∀ buf : Bytes,
    buf.length = n * Element.byteLen E →
    Res.IsErr (StoreOps.readRangeInto (E := E) fs t.store a (a + n) buf)

variable {fs : FS} {t : BaseTree S E} {b k : Nat} {es : List E}

theorem BaseTree.ReadsOnly.returns (h : t.ReadsOnly fs b k es) (i : Nat) : Res.Returns (t.readAt fs i) := by
  by_cases hi : i < es.length
  · exact .inl ⟨_, h.reads i hi⟩
  · exact .inr (h.bad i (by omega))

/-- A sibling of `j` in its block, and one that is not the first of the block. -/
theorem exists_sibling {b j : Nat} (hb : 2 ≤ b) : ∃ c, j / b * b ≤ c ∧ c < j / b * b + b ∧ c ≠ j := by
  by_cases h : j = j / b * b
  · exact ⟨j / b * b + 1, by omega, by omega, by omega⟩
  · exact ⟨j / b * b, by omega, by omega, by omega⟩

/-- A sibling that cannot be read is an error even when others can. -/
theorem siblings_err_of {rd : Nat → Res E} (hr : ∀ i, Res.Returns (rd i)) {j : Nat} :
    ∀ (n k : Nat), (∃ c, k ≤ c ∧ c < k + n ∧ c ≠ j ∧ Res.IsErr (rd c)) →
    Res.IsErr (BaseTree.siblings rd j n k)
  | 0, k, ⟨c, h1, h2, _⟩ => by omega
  | n + 1, k, ⟨c, h1, h2, h3, h4⟩ => by
    rw [BaseTree.siblings]
    by_cases hk : k ≠ j
    · rw [if_pos hk]
      rcases hr k with ⟨e, he⟩ | ⟨m, hm⟩
      · rw [he, Res.ok_bind]
        have hck : c ≠ k := by
          rintro rfl
          obtain ⟨m, hm⟩ := h4
          rw [hm] at he; cases he
        obtain ⟨m, hm⟩ := siblings_err_of hr n (k + 1) ⟨c, by omega, by omega, h3, h4⟩
        rw [hm]; exact ⟨m, rfl⟩
      · rw [hm]; exact ⟨m, rfl⟩
    · rw [if_neg hk]
      refine siblings_err_of hr n (k + 1) ⟨c, ?_, by omega, h3, h4⟩
      have : c ≠ k := fun h => h3 (by omega)
      omega

theorem BaseTree.ReadsOnly.genProof_err (h : t.ReadsOnly fs b k es) (hb : Arity b) (hk : 1 ≤ k) (i : Nat) :
    Res.IsErr (t.genProof b 0 0 fs i) := by
  have hb2 := hb.two_le
  have hshort := h.short
  unfold BaseTree.genProof
  rw [h.leafs, h.rows, h.len]
  by_cases hi : i < b ^ k
  · rw [ensure_true hi, Res.ok_bind, ensure_true ((eq_nextPow2_iff _).2 (hb.pow_isPow2 k)), Res.ok_bind,
      ensure_true ((eq_nextPow2_iff _).2 hb.pow2), Res.ok_bind]
    have hlem : merkleProofLemmaLen (k + 1) b = .ok (2 + (b - 1) * k) := by
      unfold merkleProofLemmaLen
      rw [subP_ok (by omega), Res.ok_bind, subP_ok (by omega), Res.ok_bind, Nat.add_sub_cancel]
    rw [hlem, Res.ok_bind, subP_ok (by omega), Res.ok_bind, ensure_true rfl, Res.ok_bind,
      ensure_true rfl, Res.ok_bind]
    by_cases hie : i < es.length
    · rw [h.reads i hie, Res.ok_bind]
      suffices hl : Res.IsErr (BaseTree.proofLoop (t.readAt fs) b (nodes b k) (nodes b k + b ^ k + 2) 0
          (b ^ k) i) by
        obtain ⟨m, hm⟩ := hl
        rw [hm]; exact ⟨m, rfl⟩
      obtain ⟨n, rfl⟩ : ∃ n, k = n + 1 := ⟨k - 1, by omega⟩
      obtain ⟨hlt, hrow⟩ := cached_row (k := n + 1) (n := n) hb2 (Nat.le_refl _)
      simp only [Nat.sub_self, rowStart, Nat.zero_add] at hlt
      rw [show nodes b (n + 1) + b ^ (n + 1) + 2 = (nodes b (n + 1) + b ^ (n + 1)) + 1 + 1 by omega,
        BaseTree.proofLoop, if_pos (by omega)]
      simp only [Nat.zero_add]
      rcases Nat.eq_zero_or_pos n with rfl | hn
      · have h1 := h.one rfl
        obtain rfl : i = 0 := by omega
        obtain ⟨m, hm⟩ := siblings_err_of h.returns (j := 0) b (0 / b * b) ⟨1, by simp, by simp; omega,
          by omega, h.bad 1 h1⟩
        rw [hm]; exact ⟨m, rfl⟩
      · rcases siblings_returns h.returns i b (i / b * b) with ⟨l, hl⟩ | ⟨m, hm⟩
        · rw [hl, Res.ok_bind]
          obtain ⟨hlt2, -⟩ := cached_row (k := n + 1) (n := n - 1) hb2 (by omega)
          rw [show n + 1 - (n - 1 + 1) = 1 by omega] at hlt2
          simp only [rowStart, Nat.sub_zero, Nat.zero_add] at hlt2
          rw [BaseTree.proofLoop, if_pos hlt2]
          simp only []
          obtain ⟨c, h1, h2, h3⟩ := exists_sibling (j := i >>> log2Pow2 b) hb2
          obtain ⟨m, hm⟩ := siblings_err (rd := fun c => t.readAt fs (b ^ (n + 1) + c))
            (j := i >>> log2Pow2 b) b (i >>> log2Pow2 b / b * b) ⟨c, h1, h2, h3⟩
            (fun c _ _ => h.bad _ (by omega))
          rw [hm]; exact ⟨m, rfl⟩
        · rw [hm]; exact ⟨m, rfl⟩
    · obtain ⟨m, hm⟩ := h.bad i (by omega)
      rw [hm]; exact ⟨m, rfl⟩
  · rw [ensure_false hi]; exact ⟨_, rfl⟩

/-- The loop of the cached proof meets a row that cannot be read, whatever the leaves are. -/
theorem cachedProofLoop_dead {rd prd : Nat → Res E} {f g : Nat → E} {b k r q : Nat} (hb : Arity b)
    (hr : r + 1 < k) (hrd : ∀ i, Res.Returns (rd i))
    (hprd : ∀ i, i < nodes b (r + 1) → prd i = .ok (g i))
    (hfg : ∀ l, l ≤ r + 1 → ∀ j, j < b ^ (r + 1 - l) →
      f (rowStart b k l + (q * b ^ (r + 1 - l) + j)) = g (rowStart b (r + 1) l + j))
    (hbad : ∀ i, b ^ k ≤ i → Res.IsErr (rd i)) :
    ∀ (n fuel j pb sw ss : Nat), n ≤ k → k - n ≤ r + 1 → n < fuel → j < b ^ n →
    (k - n ≤ r → pb = rowStart b (r + 1) (k - n) ∧ sw = b ^ (r + 1 - (k - n)) ∧
      ss = q * b ^ (r + 1 - (k - n)) ∧ j / b ^ (r + 1 - (k - n)) = q) →
    Res.IsErr (BaseTree.cachedProofLoop rd prd b (nodes b k) (b ^ k) (rowStart b k (r + 1)) fuel
        (rowStart b k (k - n)) (b ^ n) pb sw ss j)
  | n, 0, _, _, _, _, _, _, hf, _, _ => by omega
  | 0, fuel + 1, j, _, _, _, _, _, _, _, _ => by omega
  | n + 1, fuel + 1, j, pb, sw, ss, hn, hnr, hf, hj, hp => by
    have hb2 := hb.two_le
    have hj' : j / b < b ^ n := by
      rw [Nat.div_lt_iff_lt_mul (by omega), ← Nat.pow_succ]; exact hj
    obtain ⟨hlt, hrow⟩ := cached_row hb2 hn
    have hge := pow_le_rowStart b k r
    rw [BaseTree.cachedProofLoop, if_pos hlt]
    simp only []
    by_cases hl : k - (n + 1) ≤ r
    · have hs : Res.Returns (BaseTree.siblings (fun c =>
          if rowStart b k (k - (n + 1)) + c < b ^ k ∨ rowStart b k (k - (n + 1)) + c ≥ rowStart b k (r + 1)
          then rd (rowStart b k (k - (n + 1)) + c)
          else do
            let p ← subP (pb + c) ss
            prd p) j b (j / b * b)) := by
        rcases Nat.eq_zero_or_pos (k - (n + 1)) with h0 | h0
        · have hblk : j / b * b + b ≤ b ^ (n + 1) := by
            calc j / b * b + b = (j / b + 1) * b := by ring
              _ ≤ b ^ n * b := Nat.mul_le_mul_right _ hj'
              _ = b ^ (n + 1) := (Nat.pow_succ ..).symm
          have hkn : k = n + 1 := by omega
          rw [h0]
          simp only [rowStart, Nat.zero_add]
          have : ∀ m s, s + m ≤ b ^ k → Res.Returns (BaseTree.siblings (fun c =>
              if c < b ^ k ∨ c ≥ rowStart b k r + b ^ (k - r) then rd c
              else do
                let p ← subP (pb + c) ss
                prd p) j m s) := by
            intro m
            induction m with
            | zero => intro s _; exact .inl ⟨_, rfl⟩
            | succ m ih =>
              intro s hs
              rw [BaseTree.siblings]
              split
              · rw [if_pos (.inl (by omega))]
                rcases hrd s with ⟨e, he⟩ | ⟨m', hm⟩
                · rw [he, Res.ok_bind]
                  rcases ih (s + 1) (by omega) with ⟨es, hes⟩ | ⟨m', hm⟩
                  · rw [hes]; exact .inl ⟨_, rfl⟩
                  · rw [hm]; exact .inr ⟨_, rfl⟩
                · rw [hm]; exact .inr ⟨_, rfl⟩
              · exact ih (s + 1) (by omega)
          exact this b (j / b * b) (by rw [hkn]; exact hblk)
        · refine .inl ⟨_, cached_siblings (f := f) (g := g) (q := q) hb hprd hfg hn hj (fun i h1 h2 h3 => ?_)
            (fun h => ?_)⟩
          · exfalso
            have h4 := rowStart_mono (b := b) (k := k) (show 1 ≤ k - (n + 1) by omega)
            have h5 := rowStart_mono (b := b) (k := k) (show k - n ≤ r + 1 by omega)
            have h6 : rowStart b k 1 = b ^ k := by simp [rowStart]
            omega
          · obtain ⟨h1, -, h3, h4⟩ := hp h
            exact ⟨h1, h3, h4⟩
      rcases hs with ⟨l, hs⟩ | ⟨m, hm⟩
      · rw [hs, Res.ok_bind]
        obtain ⟨m, hm⟩ := cachedProofLoop_dead hb hr hrd hprd hfg hbad n fuel (j / b) (pb + sw) (sw / b)
          (ss / b) (by omega) (by omega) (by omega) hj' (cached_state (by omega) hn hp)
        rw [hrow, hb.shiftRight, hb.shiftRight, hb.shiftRight, hb.shiftRight, Nat.pow_succ,
          Nat.mul_div_cancel _ (by omega), hm]
        exact ⟨m, rfl⟩
      · rw [hm]; exact ⟨m, rfl⟩
    · have hl' : k - (n + 1) = r + 1 := by omega
      rw [hl']
      obtain ⟨c, h1, h2, h3⟩ := exists_sibling (j := j) hb2
      obtain ⟨m, hm⟩ := siblings_err (j := j) (rd := fun c =>
          if rowStart b k (r + 1) + c < b ^ k ∨ rowStart b k (r + 1) + c ≥ rowStart b k (r + 1)
          then rd (rowStart b k (r + 1) + c)
          else do
            let p ← subP (pb + c) ss
            prd p) b (j / b * b) ⟨c, h1, h2, h3⟩ (fun c h1 h2 => by
          rw [if_pos (.inr (by omega))]
          exact hbad _ (by omega))
      rw [hm]
      exact ⟨m, rfl⟩

variable [FloatRows] {A : Alg E}

theorem BaseTree.ReadsOnly.genCachedProof_err (h : t.ReadsOnly fs b k es) (hb : Arity b)
    (hb' : b ≤ buildChunkNodes) (hk : 1 ≤ k) {rows : Option Nat} (hf : FloatRows.ExactAt b k)
    (hf' : FloatRows.ExactAt b (k - 1 - BaseTree.effectiveDiscard (b ^ k) b rows)) {σ : Sched}
    (hσ : σ.Valid) {i : Nat} (hi : i < b ^ k) :
    ∃ m, t.genCachedProof A b 0 0 σ i rows fs = (.error (.err m), fs) := by
  have hb2 := hb.two_le
  have hr := effectiveDiscard_lt hk hf rows
  obtain ⟨r, hr'⟩ : ∃ r, r = BaseTree.effectiveDiscard (b ^ k) b rows := ⟨_, rfl⟩
  rw [← hr'] at hr hf'
  have hm : nodes b (k - 1 - r) < nodes b k :=
    lt_of_lt_of_le (by
      have := nodes_mono b (show k - 1 - r ≤ k - 1 by omega)
      obtain ⟨n, rfl⟩ : ∃ n, k = n + 1 := ⟨k - 1, by omega⟩
      have hp : 0 < b ^ (n + 1) := Nat.pow_pos (by omega)
      show _ < nodes b n + b ^ (n + 1)
      simp only [Nat.add_sub_cancel] at this ⊢
      omega) (Nat.le_refl _)
  have hW : b ^ k / b ^ (k - 1 - r) = b ^ (r + 1) := by
    rw [Nat.pow_div (by omega) (by omega)]; congr 1; omega
  have hWpos : 0 < b ^ (r + 1) := Nat.pow_pos (by omega)
  obtain ⟨q, hq⟩ : ∃ q, q = i / b ^ (r + 1) := ⟨_, rfl⟩
  have hkr : b ^ k = b ^ (k - (r + 1)) * b ^ (r + 1) := by rw [← Nat.pow_add]; congr 1; omega
  have hq1 : q + 1 ≤ b ^ (k - (r + 1)) := by
    rw [hq, Nat.succ_le_iff, Nat.div_lt_iff_lt_mul hWpos, ← hkr]; exact hi
  have hqk : (q + 1) * b ^ (r + 1) ≤ b ^ k := by rw [hkr]; exact Nat.mul_le_mul_right _ hq1
  have hqk' : q * b ^ (r + 1) + b ^ (r + 1) ≤ b ^ k := by rw [← Nat.succ_mul]; exact hqk
  unfold BaseTree.genCachedProof
  rw [M.bind_ok (mEnsure_true (by rw [h.leafs]; exact hi) _ _),
    M.bind_ok (mEnsure_true (by rw [h.leafs]; exact (eq_nextPow2_iff _).2 (hb.pow_isPow2 k)) _ _),
    M.bind_ok (a := nodes b k) (fs' := fs) (by rw [M.ofRes_run, h.leafs, merkleTreeLen_pow hb hk])]
  dsimp only
  rw [h.leafs, ← hr', M.bind_ok (a := nodes b (k - 1 - r)) (fs' := fs) (by
      rw [M.ofRes_run, merkleTreeCacheSize_pow hb hk hf hr]),
    M.bind_ok (mEnsure_true hm _ _),
    M.bind_ok (a := b ^ (k - 1 - r)) (fs' := fs) (by
      rw [M.ofRes_run, (merkleTreeLeafs_ok_iff hb _ _).2 ⟨k - 1 - r, rfl, Or.inl rfl⟩]),
    M.bind_ok (mEnsure_true ((eq_nextPow2_iff _).2 (hb.pow_isPow2 _)) _ _),
    M.bind_ok (a := r + 1) (fs' := fs) (by
      rw [M.ofRes_run, rowCount_pow hf', h.rows, subP_ok (by omega)]
      congr 2; omega),
    M.bind_ok (a := b ^ (r + 1)) (fs' := fs) (by
      rw [M.ofRes_run, divP_ok (Nat.pow_pos (by omega)), hW]),
    M.bind_ok (a := q) (fs' := fs) (by rw [M.ofRes_run, divP_ok hWpos, hq])]
  by_cases hseg : q * b ^ (r + 1) + b ^ (r + 1) ≤ es.length
  swap
  · obtain ⟨m, hm⟩ := h.segBad (q * b ^ (r + 1)) (b ^ (r + 1)) hWpos hqk' (by omega)
      (List.replicate (b ^ (r + 1) * Element.byteLen E) 0) (by simp)
    refine ⟨m, ?_⟩
    rw [M.bind_error (e := .err m) (fs' := fs) (by rw [M.get_run, hm])]
  have hrk : r + 1 < k := by
    rcases Nat.lt_or_ge (r + 1) k with hlt | hge
    · exact hlt
    · exfalso
      have hrk : r + 1 = k := by omega
      have := h.short
      rw [← hrk] at this
      omega
  obtain ⟨seg, hsegdef⟩ : ∃ seg, seg = (es.drop (q * b ^ (r + 1))).take (b ^ (r + 1)) := ⟨_, rfl⟩
  have hsl : seg.length = b ^ (r + 1) := by
    rw [hsegdef, List.length_take, List.length_drop]; omega
  have hread := h.seg (q * b ^ (r + 1)) (b ^ (r + 1)) hWpos hseg
    (List.replicate (b ^ (r + 1) * Element.byteLen E) 0) (by simp)
  rw [← hsegdef] at hread
  obtain ⟨pt, g, hp1, hp2, hp3, hp4⟩ := buildPartialTree_ok (A := A) hb hb' (by omega : 1 ≤ r + 1) hσ hsl fs
  -- the leaves of a tree that agrees with the segment
  obtain ⟨lv, hlv⟩ : ∃ lv : List E, lv = (List.range (b ^ k)).map fun i => es.getD i Element.default := ⟨_, rfl⟩
  have hlc : lv.length = b ^ k := by simp [hlv]
  have hlay := flat_isLayout A.nodeHash lv Element.default hlc
  have hfg := segment_layout (b := b) (k := k) (h := r + 1) (q := q) (by omega) (by omega) hlay hp3 hqk (by
    intro j hj
    rw [hlay.leaf _ (by rw [hlc]; omega)]
    have hlt : q * b ^ (r + 1) + j < es.length := by omega
    subst hsegdef hlv
    simp [hlt])
  have hpn := pow_le_nodes b k
  have hkl : k < b ^ k := Nat.lt_pow_self (by omega)
  have hgen : Res.IsErr (BaseTree.genProofWithPartialTree b 0 0 fs t i r pt) := by
    unfold BaseTree.genProofWithPartialTree
    rw [h.leafs, h.rows, h.len, ensure_true hi, Res.ok_bind,
      ensure_true ((eq_nextPow2_iff _).2 (hb.pow_isPow2 k)), Res.ok_bind,
      ensure_true ((eq_nextPow2_iff _).2 hb.pow2), Res.ok_bind]
    dsimp only
    rw [merkleTreeLen_pow hb hk, Res.ok_bind,
      merkleTreeCacheSize_pow hb hk hf hr, Res.ok_bind, subP_ok (by omega), Res.ok_bind,
      (merkleTreeLeafs_ok_iff hb _ _).2 ⟨k - 1 - r, rfl, Or.inl rfl⟩, Res.ok_bind,
      ensure_true ((eq_nextPow2_iff _).2 (hb.pow_isPow2 _)), Res.ok_bind,
      divP_ok (Nat.pow_pos (by omega)), Res.ok_bind, hW, divP_ok hWpos, Res.ok_bind]
    have h1 : merkleProofLemmaLen (k + 1) b = .ok (2 + (b - 1) * k) := by
      unfold merkleProofLemmaLen
      rw [subP_ok (by omega), Res.ok_bind, subP_ok (by omega), Res.ok_bind, Nat.add_sub_cancel]
    have hcis : nodes b k - nodes b (k - 1 - r) = rowStart b k (r + 1) := by
      have := LevelCacheStore.rowStart_cache (b := b) hr
      omega
    rw [h1, Res.ok_bind, subP_ok (by omega), Res.ok_bind, ensure_true rfl, Res.ok_bind, ensure_true rfl,
      Res.ok_bind, hcis, ← hq]
    rcases h.returns i with ⟨e, he⟩ | ⟨m, hm⟩
    · rw [he, Res.ok_bind]
      obtain ⟨m, h2⟩ := cachedProofLoop_dead (rd := t.readAt fs) (prd := pt.readAt fs) (q := q) hb
        hrk h.returns hp4 hfg (fun i hi => h.bad i (by have := h.short; omega))
        k (nodes b k + b ^ k + 2) i 0 (b ^ (r + 1)) (q * b ^ (r + 1)) (Nat.le_refl _) (by omega) (by omega) hi
        (by
          intro _
          simp [rowStart, hq])
      rw [Nat.sub_self] at h2
      have h3 : rowStart b k 0 = 0 := rfl
      rw [h3] at h2
      rw [h2]; exact ⟨m, rfl⟩
    · rw [hm]; exact ⟨m, rfl⟩
  have hvec : (Store.newFromSlice (b ^ (r + 1)) (encodeAll seg) : M (VecStore E)) fs
      = (.ok ⟨seg⟩, fs) := newFromSlice_decode fs (n := seg.length) (length_encodeAll seg)
        (decodeAll_encodeAll seg) (by omega)
  obtain ⟨m, hgen⟩ := hgen
  refine ⟨m, ?_⟩
  rw [M.bind_ok (a := encodeAll seg) (fs' := fs) (by rw [M.get_run, hread]),
    M.bind_ok hvec,
    M.bind_ok (mEnsure_true hsl _ _),
    M.bind_ok (a := nodes b (r + 1)) (fs' := fs) (by
      rw [M.ofRes_run, merkleTreeLen_pow hb (by omega)]),
    M.bind_ok hp1, M.bind_ok (mEnsure_true hp2.symm _ _), M.get_run, hgen]

end
end Verif
