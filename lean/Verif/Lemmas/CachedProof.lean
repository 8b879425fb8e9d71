import Verif.Lemmas.ProofGen
import Verif.Lemmas.LevelView
import Verif.Props.Sizing
/-! `gen_cached_proof` of a base tree produces the honest proof. -/
set_option linter.unusedSectionVars false
namespace Verif
open Spec StoreOps

section
variable {E : Type}

/-- The nodes above a segment of the leaves form the tree of the segment. -/
theorem segment_layout {H : List E → Nat → E} {b k h q : Nat} (hb : 1 ≤ b) (hh : h ≤ k) {leaves seg : List E}
    {f g : Nat → E} (hf : IsLayout H b k leaves f) (hg : IsLayout H b h seg g)
    (hq : (q + 1) * b ^ h ≤ b ^ k)
    (hseg : ∀ j (hj : j < seg.length), f (q * b ^ h + j) = seg[j]) :
    ∀ l, l ≤ h → ∀ j, j < b ^ (h - l) →
      f (rowStart b k l + (q * b ^ (h - l) + j)) = g (rowStart b h l + j) := by
  intro l
  induction l with
  | zero =>
    intro _ j hj
    have hj' : j < seg.length := by rw [hg.count]; simpa using hj
    simp only [rowStart, Nat.zero_add, Nat.sub_zero]
    rw [hseg j hj', hg.leaf j hj']
  | succ l ih =>
    intro hl j hj
    have hpow : b ^ (h - l) = b * b ^ (h - (l + 1)) := by
      rw [← Nat.pow_succ', show (h - (l + 1)).succ = h - l by omega]
    have hkh : b ^ (k - (l + 1)) = b ^ (k - h) * b ^ (h - (l + 1)) := by
      rw [← Nat.pow_add]; congr 1; omega
    have hqk : q + 1 ≤ b ^ (k - h) := by
      have : b ^ k = b ^ (k - h) * b ^ h := by rw [← Nat.pow_add]; congr 1; omega
      rw [this] at hq
      exact Nat.le_of_mul_le_mul_right hq (Nat.pow_pos hb)
    have hlt : q * b ^ (h - (l + 1)) + j < b ^ (k - (l + 1)) := by
      rw [hkh]
      calc q * b ^ (h - (l + 1)) + j < (q + 1) * b ^ (h - (l + 1)) := by rw [Nat.succ_mul]; omega
        _ ≤ _ := Nat.mul_le_mul_right _ hqk
    rw [hf.step l _ (by omega) hlt, hg.step l j (by omega) hj]
    congr 1
    apply List.map_congr_left
    intro c hc
    have hc := List.mem_range.1 hc
    have hjc : b * j + c < b ^ (h - l) := by
      rw [hpow]
      calc b * j + c < b * (j + 1) := by rw [Nat.mul_succ]; omega
        _ ≤ _ := Nat.mul_le_mul_left _ hj
    rw [← ih (by omega) (b * j + c) hjc]
    congr 2
    rw [hpow]; ring

/-- Shifting a segment start by one row. -/
theorem seg_shift {b e q : Nat} (hb : 1 ≤ b) (he : 1 ≤ e) : q * b ^ e / b = q * b ^ (e - 1) := by
  obtain ⟨m, rfl⟩ : ∃ m, e = m + 1 := ⟨e - 1, by omega⟩
  rw [Nat.pow_succ, ← Nat.mul_assoc, Nat.mul_div_cancel _ (by omega)]
  rfl

/-- One round of the loop: the siblings come from the tree or from the segment's tree. -/
theorem cached_siblings {rd prd : Nat → Res E} {f g : Nat → E} {b k r q : Nat} (hb : Arity b)
    (hprd : ∀ i, i < nodes b (r + 1) → prd i = .ok (g i))
    (hfg : ∀ l, l ≤ r + 1 → ∀ j, j < b ^ (r + 1 - l) →
      f (rowStart b k l + (q * b ^ (r + 1 - l) + j)) = g (rowStart b (r + 1) l + j))
    {n j pb ss : Nat} (hn : n + 1 ≤ k) (hj : j < b ^ (n + 1))
    (hrd : ∀ i, rowStart b k (k - (n + 1)) ≤ i → i < rowStart b k (k - n) →
      i < b ^ k ∨ rowStart b k (r + 1) ≤ i → rd i = .ok (f i))
    (hp : k - (n + 1) ≤ r → pb = rowStart b (r + 1) (k - (n + 1)) ∧
      ss = q * b ^ (r + 1 - (k - (n + 1))) ∧ j / b ^ (r + 1 - (k - (n + 1))) = q) :
    BaseTree.siblings (fun c =>
          if rowStart b k (k - (n + 1)) + c < b ^ k ∨ rowStart b k (k - (n + 1)) + c ≥ rowStart b k (r + 1)
          then rd (rowStart b k (k - (n + 1)) + c)
          else do
            let p ← subP (pb + c) ss
            prd p) j b (j / b * b)
      = .ok (sibs f b (rowStart b k (k - (n + 1))) j) := by
  have hb2 := hb.two_le
  have hj' : j / b < b ^ n := by
    rw [Nat.div_lt_iff_lt_mul (by omega), ← Nat.pow_succ]; exact hj
  have hrow : rowStart b k (k - (n + 1)) + b ^ (n + 1) = rowStart b k (k - n) := by
    rw [show k - n = (k - (n + 1)) + 1 by omega, rowStart]
    congr 2; omega
  apply siblings_sibs
  intro c hc
  have hlt : j / b * b + c < b ^ (n + 1) := by
    calc j / b * b + c < j / b * b + b := by omega
      _ = (j / b + 1) * b := by ring
      _ ≤ b ^ n * b := Nat.mul_le_mul_right _ hj'
      _ = b ^ (n + 1) := (Nat.pow_succ ..).symm
  by_cases hin : rowStart b k (k - (n + 1)) + (j / b * b + c) < b ^ k ∨
      rowStart b k (k - (n + 1)) + (j / b * b + c) ≥ rowStart b k (r + 1)
  · rw [if_pos hin, hrd _ (by omega) (by omega) hin]
  · rw [if_neg hin]
    have hlr : k - (n + 1) ≤ r := by
      by_contra hh
      have := rowStart_mono (b := b) (k := k) (show r + 1 ≤ k - (n + 1) by omega)
      omega
    obtain ⟨rfl, rfl, hjq⟩ := hp hlr
    set e := r + 1 - (k - (n + 1)) with he
    have he1 : 1 ≤ e := by omega
    have hpe : b ^ e = b ^ (e - 1) * b := by rw [← Nat.pow_succ]; congr 1; omega
    have hbe : 0 < b ^ (e - 1) := Nat.pow_pos (by omega)
    -- the aligned block lies in the segment
    have hq2 : j / b / b ^ (e - 1) = q := by
      rw [Nat.div_div_eq_div_mul, Nat.mul_comm b, ← hpe]; exact hjq
    have hlo : q * b ^ (e - 1) ≤ j / b := by rw [← hq2]; exact Nat.div_mul_le_self _ _
    have hhi : j / b < (q + 1) * b ^ (e - 1) := by
      rw [← hq2]
      exact Nat.lt_mul_of_div_lt (Nat.lt_succ_self _) hbe
    have hlo' : q * b ^ e ≤ j / b * b := by
      rw [hpe, ← Nat.mul_assoc]; exact Nat.mul_le_mul_right _ hlo
    have hhi' : j / b * b + c < (q + 1) * b ^ e := by
      calc j / b * b + c < (j / b + 1) * b := by rw [Nat.succ_mul]; omega
        _ ≤ (q + 1) * b ^ (e - 1) * b := Nat.mul_le_mul_right _ hhi
        _ = _ := by rw [hpe, Nat.mul_assoc]
    rw [Nat.succ_mul] at hhi'
    have hrr := rowStart_le_nodes b (r + 1) (k - (n + 1)) (by omega)
    rw [← he] at hrr
    have hpr := pow_le_nodes b e
    rw [subP_ok (by omega), Res.ok_bind, hprd _ (by omega)]
    have := hfg (k - (n + 1)) (by omega) (j / b * b + c - q * b ^ e)
      (by rw [← he]; omega)
    rw [← he, show q * b ^ e + (j / b * b + c - q * b ^ e) = j / b * b + c by omega] at this
    rw [this]
    congr 2
    omega

/-- The loop state of the segment's tree, one row up. -/
theorem cached_state {b k r q n j pb sw ss : Nat} (hb : 1 ≤ b) (hn : n + 1 ≤ k)
    (hp : k - (n + 1) ≤ r → pb = rowStart b (r + 1) (k - (n + 1)) ∧
      sw = b ^ (r + 1 - (k - (n + 1))) ∧
      ss = q * b ^ (r + 1 - (k - (n + 1))) ∧ j / b ^ (r + 1 - (k - (n + 1))) = q) :
    k - n ≤ r → pb + sw = rowStart b (r + 1) (k - n) ∧ sw / b = b ^ (r + 1 - (k - n)) ∧
      ss / b = q * b ^ (r + 1 - (k - n)) ∧ j / b / b ^ (r + 1 - (k - n)) = q := by
  intro hlr
  obtain ⟨rfl, rfl, rfl, hjq⟩ := hp (by omega)
  have e1 : r + 1 - (k - n) = r + 1 - (k - (n + 1)) - 1 := by omega
  have he1 : 1 ≤ r + 1 - (k - (n + 1)) := by omega
  refine ⟨?_, ?_, ?_, ?_⟩
  · rw [show k - n = (k - (n + 1)) + 1 by omega, rowStart]
  · have := seg_shift (q := 1) (b := b) hb he1
    rw [e1]; simpa using this
  · rw [e1]; exact seg_shift hb he1
  · rw [e1, Nat.div_div_eq_div_mul, ← Nat.pow_succ']
    rw [show (r + 1 - (k - (n + 1)) - 1).succ = r + 1 - (k - (n + 1)) by omega]
    exact hjq

theorem cached_row {b k n : Nat} (hb : 2 ≤ b) (hn : n + 1 ≤ k) :
    rowStart b k (k - (n + 1)) + 1 < nodes b k ∧
      rowStart b k (k - (n + 1)) + b ^ (n + 1) = rowStart b k (k - n) := by
  have hrs := rowStart_le_nodes b k (k - (n + 1)) (by omega)
  have hn3 := nodes_ge (b := b) (n := n + 1) (by omega) hb
  rw [show k - (k - (n + 1)) = n + 1 by omega] at hrs
  refine ⟨by omega, ?_⟩
  rw [show k - n = (k - (n + 1)) + 1 by omega, rowStart]
  congr 2; omega

theorem cachedProofLoop_eq {rd prd : Nat → Res E} {f g : Nat → E} {b k r q : Nat} (hb : Arity b)
    (hrd : ∀ i, i < b ^ k ∨ rowStart b k (r + 1) ≤ i → i + 1 < nodes b k → rd i = .ok (f i))
    (hprd : ∀ i, i < nodes b (r + 1) → prd i = .ok (g i))
    (hfg : ∀ l, l ≤ r + 1 → ∀ j, j < b ^ (r + 1 - l) →
      f (rowStart b k l + (q * b ^ (r + 1 - l) + j)) = g (rowStart b (r + 1) l + j)) :
    ∀ (n fuel j pb sw ss : Nat), n ≤ k → n < fuel → j < b ^ n →
    (k - n ≤ r → pb = rowStart b (r + 1) (k - n) ∧ sw = b ^ (r + 1 - (k - n)) ∧
      ss = q * b ^ (r + 1 - (k - n)) ∧ j / b ^ (r + 1 - (k - n)) = q) →
    BaseTree.cachedProofLoop rd prd b (nodes b k) (b ^ k) (rowStart b k (r + 1)) fuel
        (rowStart b k (k - n)) (b ^ n) pb sw ss j
      = .ok (auth f b k n j, digits b n j)
  | n, 0, _, _, _, _, _, hf, _, _ => by omega
  | 0, fuel + 1, j, _, _, _, _, _, _, _ => by
    rw [BaseTree.cachedProofLoop, if_neg (by have := rowStart_top b k; simp only [Nat.sub_zero]; omega)]
    rfl
  | n + 1, fuel + 1, j, pb, sw, ss, hn, hf, hj, hp => by
    have hb2 := hb.two_le
    have hj' : j / b < b ^ n := by
      rw [Nat.div_lt_iff_lt_mul (by omega), ← Nat.pow_succ]; exact hj
    obtain ⟨hlt, hrow⟩ := cached_row hb2 hn
    have hrs : rowStart b k (k - n) + 1 ≤ nodes b k := by
      have := rowStart_mono (b := b) (k := k) (show k - n ≤ k by omega)
      have := rowStart_top b k
      omega
    rw [BaseTree.cachedProofLoop, if_pos hlt]
    simp only []
    rw [cached_siblings (f := f) (g := g) (q := q) hb hprd hfg hn hj
      (fun i _ h2 h3 => hrd i h3 (by omega)) (fun h => by
        obtain ⟨h1, -, h3, h4⟩ := hp h
        exact ⟨h1, h3, h4⟩), Res.ok_bind]
    have ih := cachedProofLoop_eq hb hrd hprd hfg n fuel (j / b) (pb + sw) (sw / b) (ss / b)
      (by omega) (by omega) hj' (cached_state (by omega) hn hp)
    rw [hrow, hb.shiftRight, hb.shiftRight, hb.shiftRight, hb.shiftRight, Nat.pow_succ,
      Nat.mul_div_cancel _ (by omega), ih, Res.ok_bind]
    rfl

theorem siblings_err {rd : Nat → Res E} {j : Nat} : ∀ (n k : Nat), (∃ c, k ≤ c ∧ c < k + n ∧ c ≠ j) →
    (∀ c, k ≤ c → c < k + n → Res.IsErr (rd c)) → Res.IsErr (BaseTree.siblings rd j n k)
  | 0, k, ⟨c, h1, h2, _⟩, _ => by omega
  | n + 1, k, ⟨c, h1, h2, h3⟩, h => by
    rw [BaseTree.siblings]
    by_cases hk : k ≠ j
    · rw [if_pos hk]
      obtain ⟨m, hm⟩ := h k (Nat.le_refl _) (by omega)
      exact ⟨m, by rw [hm]; rfl⟩
    · rw [if_neg hk]
      refine siblings_err n (k + 1) ⟨c, ?_, by omega, h3⟩ fun c h4 h5 => h c (by omega) (by omega)
      have : c ≠ k := fun h => h3 (by omega)
      omega

/-- The loop meets a row that cannot be read. -/
theorem cachedProofLoop_err {rd prd : Nat → Res E} {f g : Nat → E} {b k r q : Nat} (hb : Arity b)
    (hr : r + 1 < k) (hrd : ∀ i, i < b ^ k → rd i = .ok (f i))
    (hprd : ∀ i, i < nodes b (r + 1) → prd i = .ok (g i))
    (hfg : ∀ l, l ≤ r + 1 → ∀ j, j < b ^ (r + 1 - l) →
      f (rowStart b k l + (q * b ^ (r + 1 - l) + j)) = g (rowStart b (r + 1) l + j))
    (hbad : ∀ i, rowStart b k (r + 1) ≤ i → i < rowStart b k (r + 2) → Res.IsErr (rd i)) :
    ∀ (n fuel j pb sw ss : Nat), n ≤ k → k - n ≤ r + 1 → n < fuel → j < b ^ n →
    (k - n ≤ r → pb = rowStart b (r + 1) (k - n) ∧ sw = b ^ (r + 1 - (k - n)) ∧
      ss = q * b ^ (r + 1 - (k - n)) ∧ j / b ^ (r + 1 - (k - n)) = q) →
    Res.IsErr (BaseTree.cachedProofLoop rd prd b (nodes b k) (b ^ k) (rowStart b k (r + 1)) fuel
        (rowStart b k (k - n)) (b ^ n) pb sw ss j)
  | n, 0, _, _, _, _, _, _, hf, _, _ => by omega
  | 0, fuel + 1, j, _, _, _, _, _, _, _, _ => by omega
  | n + 1, fuel + 1, j, pb, sw, ss, hn, hnr, hf, hj, hp => by
    have hb2 := hb.two_le
    have hj' : j / b < b ^ n := by
      rw [Nat.div_lt_iff_lt_mul (by omega), ← Nat.pow_succ]; exact hj
    obtain ⟨hlt, hrow⟩ := cached_row hb2 hn
    rw [BaseTree.cachedProofLoop, if_pos hlt]
    simp only []
    by_cases hl : k - (n + 1) ≤ r
    · rw [cached_siblings (f := f) (g := g) (q := q) hb hprd hfg hn hj
        (fun i h1 h2 h3 => by
          rcases h3 with h3 | h3
          · exact hrd i h3
          · have := rowStart_mono (b := b) (k := k) (show k - n ≤ r + 1 by omega)
            omega) (fun h => by
          obtain ⟨h1, -, h3, h4⟩ := hp h
          exact ⟨h1, h3, h4⟩), Res.ok_bind]
      obtain ⟨m, hm⟩ := cachedProofLoop_err hb hr hrd hprd hfg hbad n fuel (j / b) (pb + sw) (sw / b) (ss / b)
        (by omega) (by omega) (by omega) hj' (cached_state (by omega) hn hp)
      rw [hrow, hb.shiftRight, hb.shiftRight, hb.shiftRight, hb.shiftRight, Nat.pow_succ,
        Nat.mul_div_cancel _ (by omega), hm]
      exact ⟨m, rfl⟩
    · have hl' : k - (n + 1) = r + 1 := by omega
      have hkn : k - n = r + 2 := by omega
      rw [hkn] at hrow
      rw [hl'] at hrow ⊢
      have hblk : j / b * b + b ≤ b ^ (n + 1) := by
        calc j / b * b + b = (j / b + 1) * b := by ring
          _ ≤ b ^ n * b := Nat.mul_le_mul_right _ hj'
          _ = b ^ (n + 1) := (Nat.pow_succ ..).symm
      obtain ⟨m, hm⟩ := siblings_err (j := j) (rd := fun c =>
          if rowStart b k (r + 1) + c < b ^ k ∨ rowStart b k (r + 1) + c ≥ rowStart b k (r + 1)
          then rd (rowStart b k (r + 1) + c)
          else do
            let p ← subP (pb + c) ss
            prd p) b (j / b * b) (by
          by_cases h : j = j / b * b
          · exact ⟨j / b * b + 1, by omega, by omega, by omega⟩
          · exact ⟨j / b * b, by omega, by omega, by omega⟩) (fun c h1 h2 => by
          rw [if_pos (.inr (by omega))]
          exact hbad _ (by omega) (by omega))
      rw [hm]
      exact ⟨m, rfl⟩

variable {S E : Type} [Element E] [LawfulElement E] [StoreOps S E] [FloatRows] {A : Alg E}

/-- What `gen_cached_proof` needs to know about a tree of which `d` rows above the base cannot be
read. -/
structure BaseTree.ReadsCached (fs : FS) (t : BaseTree S E) (b k d : Nat) (leaves : List E)
    (f : Nat → E) : Prop where
  leafs : t.leafs = b ^ k
  len : t.length = nodes b k
  rows : t.rowCount = k + 1
  reads : ∀ i, i < b ^ k ∨ rowStart b k (d + 1) ≤ i → i < nodes b k → t.readAt fs i = .ok (f i)
  seg : ∀ a n, 0 < n → a + n ≤ b ^ k → ∀ buf : Bytes, buf.length = n * Element.byteLen E →
    ∃ bs, StoreOps.readRangeInto (E := E) fs t.store a (a + n) buf = .ok bs ∧
      bs.length = n * Element.byteLen E ∧ decodeAll bs = .ok ((leaves.drop a).take n)
  root : t.root = f (nodes b k - 1)

theorem newFromSlice_decode (fs : FS) {size n : Nat} {bs : Bytes} {es : List E}
    (hl : bs.length = n * Element.byteLen E) (hd : decodeAll bs = .ok es) (h : es.length ≤ size) :
    VecStore.newFromSlice size bs fs = (.ok ⟨es⟩, fs) := by
  have hc : chunksExact (Element.byteLen E) bs = chunks (Element.byteLen E) bs := by
    rw [chunksExact, hl, Nat.mul_div_cancel _ LawfulElement.byteLen_pos, ← hl, List.take_length]
  have hd : (chunks (Element.byteLen E) bs).mapM (Element.fromSlice (E := E)) = .ok es := hd
  unfold VecStore.newFromSlice
  rw [if_neg LawfulElement.byteLen_pos.ne', Res.ok_bind]
  rw [M.ofRes_run, hc, hd, Res.ok_bind, subP_ok h]
  rfl

omit [LawfulElement E] in
theorem defaultRows_lt {b k : Nat} (hk : 1 ≤ k) (hf : FloatRows.ExactAt b k) :
    defaultRowsToDiscard (b ^ k) b < k := by
  unfold defaultRowsToDiscard
  rw [rowCount_pow hf]
  dsimp only
  split
  · omega
  · split
    · omega
    · split
      · omega
      · split <;> omega

theorem effectiveDiscard_lt {b k : Nat} (hk : 1 ≤ k) (hf : FloatRows.ExactAt b k) (rows : Option Nat) :
    BaseTree.effectiveDiscard (b ^ k) b rows < k := by
  have := defaultRows_lt hk hf
  unfold BaseTree.effectiveDiscard
  split <;> omega

theorem sizeValid_pow {b : Nat} (hb : Arity b) (k : Nat) : isMerkleTreeSizeValid (b ^ k) b = .ok true := by
  have hb2 := hb.two_le
  obtain ⟨v, hv, hval⟩ := C03_size_valid_exact_partial (b ^ k) b (by omega)
  rw [hv, hval.2 ⟨hb, k, rfl⟩]

/-- The temporary tree over a segment. -/
theorem buildPartialTree_ok {b h : Nat} (hb : Arity b) (hb' : b ≤ buildChunkNodes)
    (hh : 1 ≤ h) {σ : Sched} (hσ : σ.Valid) {seg : List E} (hn : seg.length = b ^ h) (fs : FS) :
    ∃ (pt : BaseTree (VecStore E) E) (g : Nat → E),
      BaseTree.buildPartialTree A b σ ⟨seg⟩ (b ^ h) (h + 1) fs = (.ok pt, fs) ∧
      pt.rowCount = h + 1 ∧ IsLayout A.nodeHash b h seg g ∧
      ∀ i, i < nodes b h → pt.readAt fs i = .ok (g i) := by
  have hne : 0 < seg.length := by rw [hn]; exact Nat.pow_pos (by have := hb.two_le; omega)
  set d := seg[0] with hd
  have hfill := VecStore.filled fs (nodes b h) seg d
  rw [hn] at hfill
  obtain ⟨s', fs', h1, h2, h3, _⟩ := LawfulStore.build_ok (S := VecStore E) (A := A) hb hb' hh
    (fun i => seg.getD i d) (Nat.le_refl _) hσ hfill none
  have hfs : fs' = fs := by
    cases fs; cases fs'
    obtain ⟨h3a, h3b⟩ := h3
    simp only at h3a h3b
    subst h3b
    congr 1
    funext g
    exact h3a g (fun h => h)
  subst hfs
  have hlen : s'.els.length = nodes b h := h2.len_eq
  refine ⟨⟨s', b ^ h, nodes b h, h + 1, root A.nodeHash b h fun i => seg.getD i d⟩,
    flat A.nodeHash b h fun i => seg.getD i d, ?_, rfl, flat_isLayout _ _ _ hn, fun i hi => ?_⟩
  · unfold BaseTree.buildPartialTree
    rw [M.bind_ok h1]
    dsimp only
    rw [M.bind_ok (a := nodes b h) (fs' := fs') (by rw [M.ofRes_run, merkleTreeLen_pow hb hh]),
      M.bind_ok (mEnsure_true hlen.symm _ _),
      M.bind_ok (a := true) (fs' := fs') (by rw [M.ofRes_run, sizeValid_pow hb]),
      M.bind_ok (mEnsure_true rfl _ _)]
    rfl
  · have := h2.vals i hi
    show idxP s'.els i = _
    have : s'.els[i]? = some (flat A.nodeHash b h (fun i => seg.getD i d) i) := this
    unfold idxP
    rw [this]

/-- `gen_cached_proof` runs the loop over the tree and the tree of the segment. -/
theorem genCachedProof_loop {b k d : Nat} (hb : Arity b) (hb' : b ≤ buildChunkNodes)
    (hk : 1 ≤ k) {rows : Option Nat} (hf : FloatRows.ExactAt b k)
    (hf' : FloatRows.ExactAt b (k - 1 - BaseTree.effectiveDiscard (b ^ k) b rows)) {σ : Sched} (hσ : σ.Valid)
    {fs : FS} {t : BaseTree S E} {leaves : List E} {f : Nat → E}
    (hl : IsLayout A.nodeHash b k leaves f)
    (h : t.ReadsCached fs b k d leaves f) {r : Nat} (hr' : r = BaseTree.effectiveDiscard (b ^ k) b rows)
    {i : Nat} (hi : i < b ^ k) :
    ∃ (pt : BaseTree (VecStore E) E) (g : Nat → E),
      (∀ i, i < nodes b (r + 1) → pt.readAt fs i = .ok (g i)) ∧
      (∀ l, l ≤ r + 1 → ∀ j, j < b ^ (r + 1 - l) →
        f (rowStart b k l + (i / b ^ (r + 1) * b ^ (r + 1 - l) + j)) = g (rowStart b (r + 1) l + j)) ∧
      t.genCachedProof A b 0 0 σ i rows fs = ((do
        let (sibs, path) ← BaseTree.cachedProofLoop (t.readAt fs) (pt.readAt fs) b (nodes b k) (b ^ k)
          (rowStart b k (r + 1)) (nodes b k + b ^ k + 2) 0 (b ^ k) 0 (b ^ (r + 1))
          (i / b ^ (r + 1) * b ^ (r + 1)) i
        let lem := f i :: sibs ++ [f (nodes b k - 1)]
        ensure (lem.length = 2 + (b - 1) * k) "Invalid proof lemma length"
        ensure (path.length = k + 1 - 1) "Invalid proof path length"
        Proof.new b 0 0 none lem path), fs) := by
  have hb2 := hb.two_le
  have hr := effectiveDiscard_lt hk hf rows
  rw [← hr'] at hr hf'
  have hm : nodes b (k - 1 - r) < nodes b k :=
    lt_of_lt_of_le (by
      have := nodes_mono b (show k - 1 - r ≤ k - 1 by omega)
      obtain ⟨n, rfl⟩ : ∃ n, k = n + 1 := ⟨k - 1, by omega⟩
      have hp : 0 < b ^ (n + 1) := Nat.pow_pos (by omega)
      show _ < nodes b n + b ^ (n + 1)
      simp only [Nat.add_sub_cancel] at this ⊢
      omega) (Nat.le_refl _)
  have hW : b ^ k / b ^ (k - 1 - r) = b ^ (r + 1) := by
    rw [Nat.pow_div (by omega) (by omega)]; congr 1; omega
  have hWpos : 0 < b ^ (r + 1) := Nat.pow_pos (by omega)
  set q := i / b ^ (r + 1) with hq
  have hkr : b ^ k = b ^ (k - (r + 1)) * b ^ (r + 1) := by rw [← Nat.pow_add]; congr 1; omega
  have hq1 : q + 1 ≤ b ^ (k - (r + 1)) := by
    rw [hq, Nat.succ_le_iff, Nat.div_lt_iff_lt_mul hWpos, ← hkr]; exact hi
  have hqk : (q + 1) * b ^ (r + 1) ≤ b ^ k := by rw [hkr]; exact Nat.mul_le_mul_right _ hq1
  have hqk' : q * b ^ (r + 1) + b ^ (r + 1) ≤ b ^ k := by rw [← Nat.succ_mul]; exact hqk
  set seg := (leaves.drop (q * b ^ (r + 1))).take (b ^ (r + 1)) with hseg
  have hsl : seg.length = b ^ (r + 1) := by
    rw [hseg, List.length_take, List.length_drop, hl.count]; omega
  obtain ⟨pt, g, hp1, hp2, hp3, hp4⟩ := buildPartialTree_ok (A := A) hb hb' (by omega : 1 ≤ r + 1) hσ hsl fs
  have hfg := segment_layout (b := b) (k := k) (h := r + 1) (q := q) (by omega) (by omega) hl hp3 hqk (by
    intro j hj
    have hjl : q * b ^ (r + 1) + j < leaves.length := by rw [hl.count]; omega
    rw [hl.leaf _ hjl]
    simp [hseg])
  obtain ⟨data, hread, hdl, hdec⟩ := h.seg (q * b ^ (r + 1)) (b ^ (r + 1)) hWpos hqk'
    (List.replicate (b ^ (r + 1) * Element.byteLen E) 0) (by simp)
  refine ⟨pt, g, hp4, hfg, ?_⟩
  have hpn := pow_le_nodes b k
  have hgen : BaseTree.genProofWithPartialTree b 0 0 fs t i r pt = (do
        let (sibs, path) ← BaseTree.cachedProofLoop (t.readAt fs) (pt.readAt fs) b (nodes b k) (b ^ k)
          (rowStart b k (r + 1)) (nodes b k + b ^ k + 2) 0 (b ^ k) 0 (b ^ (r + 1))
          (q * b ^ (r + 1)) i
        let lem := f i :: sibs ++ [f (nodes b k - 1)]
        ensure (lem.length = 2 + (b - 1) * k) "Invalid proof lemma length"
        ensure (path.length = k + 1 - 1) "Invalid proof path length"
        Proof.new b 0 0 none lem path) := by
    unfold BaseTree.genProofWithPartialTree
    rw [h.leafs, h.rows, h.len, h.root, ensure_true hi, Res.ok_bind,
      ensure_true ((eq_nextPow2_iff _).2 (hb.pow_isPow2 k)), Res.ok_bind,
      ensure_true ((eq_nextPow2_iff _).2 hb.pow2), Res.ok_bind]
    dsimp only
    rw [merkleTreeLen_pow hb hk, Res.ok_bind,
      merkleTreeCacheSize_pow hb hk hf hr, Res.ok_bind, subP_ok (by omega), Res.ok_bind,
      (merkleTreeLeafs_ok_iff hb _ _).2 ⟨k - 1 - r, rfl, Or.inl rfl⟩, Res.ok_bind,
      ensure_true ((eq_nextPow2_iff _).2 (hb.pow_isPow2 _)), Res.ok_bind,
      divP_ok (Nat.pow_pos (by omega)), Res.ok_bind, hW, divP_ok hWpos, Res.ok_bind]
    have h1 : merkleProofLemmaLen (k + 1) b = .ok (2 + (b - 1) * k) := by
      unfold merkleProofLemmaLen
      rw [subP_ok (by omega), Res.ok_bind, subP_ok (by omega), Res.ok_bind, Nat.add_sub_cancel]
    have hcis : nodes b k - nodes b (k - 1 - r) = rowStart b k (r + 1) := by
      have := LevelCacheStore.rowStart_cache (b := b) hr
      omega
    rw [h1, Res.ok_bind, subP_ok (by omega), Res.ok_bind, ensure_true rfl, Res.ok_bind, ensure_true rfl,
      Res.ok_bind, h.reads i (.inl hi) (by omega), Res.ok_bind, hcis]
  have hvec : (Store.newFromSlice (b ^ (r + 1)) data : M (VecStore E)) fs
      = (.ok ⟨seg⟩, fs) := newFromSlice_decode fs hdl hdec (by omega)
  unfold BaseTree.genCachedProof
  rw [M.bind_ok (mEnsure_true (by rw [h.leafs]; exact hi) _ _),
    M.bind_ok (mEnsure_true (by rw [h.leafs]; exact (eq_nextPow2_iff _).2 (hb.pow_isPow2 k)) _ _),
    M.bind_ok (a := nodes b k) (fs' := fs) (by rw [M.ofRes_run, h.leafs, merkleTreeLen_pow hb hk])]
  dsimp only
  rw [h.leafs, ← hr', M.bind_ok (a := nodes b (k - 1 - r)) (fs' := fs) (by
      rw [M.ofRes_run, merkleTreeCacheSize_pow hb hk hf hr]),
    M.bind_ok (mEnsure_true hm _ _),
    M.bind_ok (a := b ^ (k - 1 - r)) (fs' := fs) (by
      rw [M.ofRes_run, (merkleTreeLeafs_ok_iff hb _ _).2 ⟨k - 1 - r, rfl, Or.inl rfl⟩]),
    M.bind_ok (mEnsure_true ((eq_nextPow2_iff _).2 (hb.pow_isPow2 _)) _ _),
    M.bind_ok (a := r + 1) (fs' := fs) (by
      rw [M.ofRes_run, rowCount_pow hf', h.rows, subP_ok (by omega)]
      congr 2; omega),
    M.bind_ok (a := b ^ (r + 1)) (fs' := fs) (by
      rw [M.ofRes_run, divP_ok (Nat.pow_pos (by omega)), hW]),
    M.bind_ok (a := q) (fs' := fs) (by rw [M.ofRes_run, divP_ok hWpos]),
    M.bind_ok (a := data) (fs' := fs) (by rw [M.get_run, hread]),
    M.bind_ok hvec,
    M.bind_ok (mEnsure_true hsl _ _),
    M.bind_ok (a := nodes b (r + 1)) (fs' := fs) (by
      rw [M.ofRes_run, merkleTreeLen_pow hb (by omega)]),
    M.bind_ok hp1, M.bind_ok (mEnsure_true hp2.symm _ _), M.get_run, hgen]

section
variable {b k d : Nat} (hb : Arity b) (hb' : b ≤ buildChunkNodes) (hk : 1 ≤ k) {rows : Option Nat}
  (hf : FloatRows.ExactAt b k)
  (hf' : FloatRows.ExactAt b (k - 1 - BaseTree.effectiveDiscard (b ^ k) b rows)) {σ : Sched}
  (hσ : σ.Valid) {fs : FS} {t : BaseTree S E} {leaves : List E} {f : Nat → E}
  (hl : IsLayout A.nodeHash b k leaves f) (h : t.ReadsCached fs b k d leaves f)
include hb hb' hk hf hf' hσ hl h

/-- `gen_cached_proof` on a tree of which the rows it takes as discarded cover those that cannot be
read; the root is not read. -/
theorem genCachedProof_of_reads
    (hreads : ∀ i, rowStart b k (BaseTree.effectiveDiscard (b ^ k) b rows + 1) ≤ i → i + 1 < nodes b k →
      t.readAt fs i = .ok (f i)) {i : Nat} (hi : i < b ^ k) :
    t.genCachedProof A b 0 0 σ i rows fs = (.ok (honestProof f b k i), fs) := by
  have hb2 := hb.two_le
  obtain ⟨pt, g, hp, hfg, e⟩ := genCachedProof_loop hb hb' hk hf hf' hσ hl h rfl hi
  set r := BaseTree.effectiveDiscard (b ^ k) b rows
  have hpn := pow_le_nodes b k
  have hkl : k < b ^ k := Nat.lt_pow_self (by omega)
  have h2 := cachedProofLoop_eq (rd := t.readAt fs) (prd := pt.readAt fs) (q := i / b ^ (r + 1)) hb
    (fun i hi h1 => hi.elim (fun hi => h.reads i (.inl hi) (by omega)) fun hi => hreads i hi h1) hp hfg k (nodes b k + b ^ k + 2) i
    0 (b ^ (r + 1)) (i / b ^ (r + 1) * b ^ (r + 1)) (Nat.le_refl _) (by omega) hi (by
      intro _
      simp [rowStart])
  simp only [Nat.sub_self] at h2
  have h3 : rowStart b k 0 = 0 := rfl
  rw [h3] at h2
  rw [e, h2, Res.ok_bind]
  have hl : (f i :: auth f b k k i ++ [f (nodes b k - 1)]).length = 2 + (b - 1) * k := by
    simp only [List.length_append, List.length_cons, List.length_nil, auth_length f (by omega : 0 < b)]
    rw [Nat.mul_comm]; omega
  simp only []
  rw [ensure_true hl, Res.ok_bind, ensure_true (by rw [digits_length]; omega), Res.ok_bind,
    ← honest_new f hb2 hk i]

/-- `gen_cached_proof` on a tree whose discarded rows are among those it takes as discarded. -/
theorem genCachedProof_eq (hd : d ≤ BaseTree.effectiveDiscard (b ^ k) b rows) {i : Nat}
    (hi : i < b ^ k) :
    t.genCachedProof A b 0 0 σ i rows fs = (.ok (honestProof f b k i), fs) := by
  have hmono := rowStart_mono (b := b) (k := k) (Nat.succ_le_succ hd)
  exact genCachedProof_of_reads hb hb' hk hf hf' hσ hl h
    (fun i h1 h2 => h.reads i (.inr (by simp only [Nat.succ_eq_add_one] at hmono; omega)) (by omega)) hi

/-- `gen_cached_proof` on a tree of which it needs a row that cannot be read. -/
theorem genCachedProof_err (hd : BaseTree.effectiveDiscard (b ^ k) b rows < d) (hdk : d < k)
    (hbad : ∀ i, b ^ k ≤ i → i < rowStart b k (d + 1) → Res.IsErr (t.readAt fs i)) {i : Nat}
    (hi : i < b ^ k) :
    ∃ m, t.genCachedProof A b 0 0 σ i rows fs = (.error (.err m), fs) := by
  have hb2 := hb.two_le
  obtain ⟨pt, g, hp, hfg, e⟩ := genCachedProof_loop hb hb' hk hf hf' hσ hl h rfl hi
  set r := BaseTree.effectiveDiscard (b ^ k) b rows
  have hpn := pow_le_nodes b k
  have hkl : k < b ^ k := Nat.lt_pow_self (by omega)
  have hmono := rowStart_mono (b := b) (k := k) (show r + 2 ≤ d + 1 by omega)
  have hge := pow_le_rowStart b k r
  obtain ⟨m, h2⟩ := cachedProofLoop_err (rd := t.readAt fs) (prd := pt.readAt fs) (q := i / b ^ (r + 1)) hb
    (by omega : r + 1 < k)
    (fun i hi => h.reads i (.inl hi) (by omega)) hp hfg (fun i h1 h2 => hbad i (by omega) (by omega))
    k (nodes b k + b ^ k + 2) i
    0 (b ^ (r + 1)) (i / b ^ (r + 1) * b ^ (r + 1)) (Nat.le_refl _) (by omega) (by omega) hi (by
      intro _
      simp [rowStart])
  simp only [Nat.sub_self] at h2
  have h3 : rowStart b k 0 = 0 := rfl
  rw [h3] at h2
  exact ⟨m, by rw [e, h2]; rfl⟩

end

end
end Verif
