import Verif.Model.Cached64
import Verif.Lemmas.Source64
import Verif.Lemmas.CachedProof
/-!
Compaction, proofs from cached trees and compound trees on words do what they do on natural numbers.
-/
set_option linter.unusedSectionVars false
namespace Verif
open Spec Word StoreOps

variable {E : Type} [Element E] [LawfulElement E] [FloatRows] {o : Overflow}

/-! #### Compaction -/

/-- What compaction needs to know about the sizes: the bytes of the store can be numbered, the file is at
least as long as what the store holds, and there is a full tree with at least as many nodes. -/
theorem Disk64.compactPlan_eq {s : DiskStore E} {b : Nat} (hb : b ≤ 2 ^ 63) (hb1 : b ≠ 1)
    (hs : (s.len + 1) * Element.byteLen E < 2 ^ 63) (hz : s.len * Element.byteLen E ≤ s.storeSize)
    (hK : ∃ K, s.len ≤ nodes b K ∧ b ^ K < wordSize)
    (hr : ∀ m, b ≤ m → m < 2 ^ 63 → 1 ≤ merkleTreeRowCount m b) (c : StoreConfig) :
    Disk64.compactPlan (⟨s⟩ : Disk64 o E) b c = s.compactPlan b c ∧
    ∀ x, s.compactPlan b c = .ok x → x.1 + x.2.1 < wordSize ∧ x.1 ≤ s.len * Element.byteLen E ∧
      x.2.1 ≤ s.len * Element.byteLen E := by
  have h63 := half_lt_word
  have h64 := wordSize_eq
  have hp := LawfulElement.byteLen_pos (E := E)
  have hl : s.len + 1 ≤ (s.len + 1) * Element.byteLen E := Nat.le_mul_of_pos_right _ hp
  have hlm : s.len * Element.byteLen E < 2 ^ 63 :=
    Nat.lt_of_le_of_lt (Nat.mul_le_mul_right _ (by omega)) hs
  obtain ⟨K, hK1, hK2⟩ := hK
  unfold Disk64.compactPlan DiskStore.compactPlan
  simp only []
  rw [merkleTreeLeafs64_eq (by omega) (by omega) hK2 hK1 (by omega) (.inr hb)]
  cases hlf : merkleTreeLeafs s.len b with
  | error e => exact ⟨rfl, nofun⟩
  | ok m =>
    rw [Res.ok_bind, Res.ok_bind]
    have hA : Arity b := by
      refine arity_of_pow2 ?_ hb1
      unfold merkleTreeLeafs at hlf
      rw [ensure_bind_ok] at hlf
      exact (eq_nextPow2_iff b).1 hlf.1
    have hb2 := hA.two_le
    obtain ⟨k, rfl, hk⟩ := (merkleTreeLeafs_ok_iff hA _ _).1 hlf
    have hpn := pow_le_nodes b k
    have hml : b ^ k ≤ s.len + 1 := by rcases hk with hk | ⟨_, hk⟩ <;> omega
    have hmw : b ^ k * Element.byteLen E < 2 ^ 63 := Nat.lt_of_le_of_lt (Nat.mul_le_mul_right _ hml) hs
    rw [Word.mul_ok (by omega), Res.ok_bind]
    by_cases hk1 : 1 ≤ k
    · have hbk := (pow_le_iff hb2).2 hk1
      have hml' : b ^ k ≤ s.len := by
        rcases hk with hk | ⟨rfl, hk⟩
        · omega
        · have := nodes_two k
          omega
      rw [merkleTreeCacheSize64_eq (by omega) (.inr (.inl (by omega))) hb1 (hr _ hbk (by omega))]
      cases hc : merkleTreeCacheSize (b ^ k) b c.rowsToDiscard with
      | error e => exact ⟨rfl, nofun⟩
      | ok z =>
        obtain ⟨-, -, hz1⟩ := merkleTreeCacheSize_low hA (merkleTreeLen_pow hA hk1) hc
        have hzl : z ≤ s.len + 1 := by
          rcases hk with hk | ⟨rfl, hk⟩ <;> omega
        have hzw : z * Element.byteLen E < 2 ^ 63 := Nat.lt_of_le_of_lt (Nat.mul_le_mul_right _ hzl) hs
        rw [Res.ok_bind, Res.ok_bind, Word.mul_ok (by omega), Res.ok_bind, Word.mul_ok (by omega), Res.ok_bind]
        by_cases hcond : z * Element.byteLen E < s.len * Element.byteLen E ∧ z * Element.byteLen E ≠ 0
        · rw [ensure_true hcond, Res.ok_bind, Res.ok_bind, Word.sub_ok (by omega), subP_ok (by omega)]
          refine ⟨rfl, ?_⟩
          rintro x hx
          simp only [Res.ok_bind, Except.ok.injEq] at hx
          subst hx
          have := Nat.mul_le_mul_right (Element.byteLen E) hml'
          obtain ⟨hc1, -⟩ := hcond
          have hsum : b ^ k * Element.byteLen E + z * Element.byteLen E < wordSize := by omega
          exact ⟨hsum, this, Nat.le_of_lt hc1⟩
        · rw [ensure_false hcond]
          exact ⟨rfl, nofun⟩
    · have hk0 : k = 0 := by omega
      subst hk0
      have he : ∃ e, merkleTreeLen (b ^ 0) b = .error e := by
        unfold merkleTreeLen
        rw [ensure_false (by simp; omega)]
        exact ⟨_, rfl⟩
      obtain ⟨e, he⟩ := he
      have h1 : merkleTreeCacheSize64 o (b ^ 0) b c.rowsToDiscard = .error e := by
        unfold merkleTreeCacheSize64
        rw [merkleTreeLen64_eq (by omega) (.inr (.inl (by omega))), he]; rfl
      have h2 : merkleTreeCacheSize (b ^ 0) b c.rowsToDiscard = .error e := by
        unfold merkleTreeCacheSize
        dsimp only
        rw [he]; rfl
      rw [h1, h2]
      exact ⟨rfl, nofun⟩

theorem Disk64.compact_eq {s : DiskStore E} {b : Nat} (hb : b ≤ 2 ^ 63) (hb1 : b ≠ 1)
    (hs : (s.len + 1) * Element.byteLen E < 2 ^ 63) (hz : s.len * Element.byteLen E ≤ s.storeSize)
    (hK : ∃ K, s.len ≤ nodes b K ∧ b ^ K < wordSize)
    (hr : ∀ m, b ≤ m → m < 2 ^ 63 → 1 ≤ merkleTreeRowCount m b) (c : StoreConfig) (v : Nat) (fs : FS) :
    Disk64.compact (⟨s⟩ : Disk64 o E) b c v fs =
      ((s.compact b c v fs).1, ⟨(s.compact b c v fs).2.1⟩, (s.compact b c v fs).2.2) := by
  have h63 := half_lt_word
  have h64 := wordSize_eq
  have hp := LawfulElement.byteLen_pos (E := E)
  have hlm : s.len * Element.byteLen E < 2 ^ 63 :=
    Nat.lt_of_le_of_lt (Nat.mul_le_mul_right _ (by omega)) hs
  obtain ⟨h1, h2⟩ := Disk64.compactPlan_eq (o := o) hb hb1 hs hz hK hr c
  unfold Disk64.compact DiskStore.compact
  rw [h1]
  cases hpl : s.compactPlan b c with
  | error e => rfl
  | ok x =>
    obtain ⟨dw, cs, st⟩ := x
    obtain ⟨h3, h4, h5⟩ := h2 _ hpl
    dsimp only at h3 h4 h5 ⊢
    cases hf : fs.file c.file with
    | none => rfl
    | some bs =>
      dsimp only
      have key : Disk64.compactFile E o c.file (v == 1) dw cs st = DiskStore.compactFile E c.file (v == 1) dw cs st := by
        unfold Disk64.compactFile DiskStore.compactFile
        rw [Word.add_ok h3]
        cases (v == 1) <;> rfl
      rw [key]
      cases hcf : DiskStore.compactFile E c.file (v == 1) dw cs st fs with
      | mk r fs1 =>
        cases r with
        | error e => rfl
        | ok n =>
          dsimp only
          cases fs1.fileLen c.file with
          | error e => rfl
          | ok m =>
            have hn : n * Element.byteLen E < wordSize := by
              unfold DiskStore.compactFile at hcf
              simp only [M.bind_ok_iff] at hcf
              obtain ⟨_, _, _, _, _, _, _, _, _, _, _, _, h⟩ := hcf
              have hh : (if (v == 1) = true then dw + cs else cs) / Element.byteLen E = n := by
                have := congrArg Prod.fst h
                simpa [Pure.pure, M.pure] using this
              rw [← hh]
              refine Nat.lt_of_le_of_lt (Nat.div_mul_le_self _ _) ?_
              split <;> omega
            dsimp only
            rw [Word.mul_ok hn]
            dsimp only
            split <;> rfl

/-! #### Proofs from cached trees -/

theorem defaultRowsToDiscard64_eq {n b : Nat} (hn : n < 2 ^ 63) :
    defaultRowsToDiscard64 o n b = .ok (defaultRowsToDiscard n b) := by
  unfold defaultRowsToDiscard64 defaultRowsToDiscard
  rw [merkleTreeRowCount64_eq (Nat.le_of_lt hn) (.inr (.inl hn)), Res.ok_bind]
  dsimp only
  split
  · rfl
  · split
    · rfl
    · rw [Word.sub_ok (by omega), Res.ok_bind]
      split
      · rfl
      · split <;> rfl

theorem effectiveDiscard64_eq {n b : Nat} (hn : n < 2 ^ 63) (rows : Option Nat) :
    BaseTree.effectiveDiscard64 o n b rows = .ok (BaseTree.effectiveDiscard n b rows) := by
  cases rows with
  | none => exact defaultRowsToDiscard64_eq hn
  | some r =>
    unfold BaseTree.effectiveDiscard64
    rw [defaultRowsToDiscard64_eq hn]; rfl

omit [LawfulElement E] [FloatRows] in
theorem cachedSiblings64_eq {rd rd' prd : Nat → Res E} {dw cis base pb ss j total : Nat} (ht : total ≤ wordSize)
    (h : ∀ p, p < total → rd p = rd' p) : ∀ n k, base + (k + n) ≤ total →
    (∀ c, k ≤ c → c < k + n → ¬ (base + c < dw ∨ base + c ≥ cis) → pb + c < wordSize ∧ ss ≤ pb + c) →
    BaseTree.cachedSiblings64 o rd prd dw cis base pb ss j n k =
      BaseTree.siblings (fun k => if base + k < dw ∨ base + k ≥ cis then rd' (base + k)
        else do
          let p ← subP (pb + k) ss
          prd p) j n k
  | 0, _, _, _ => rfl
  | n + 1, k, hk, hc => by
    have ih := cachedSiblings64_eq (prd := prd) (j := j) ht h n (k + 1) (by omega) (fun c h1 h2 => hc c (by omega) (by omega))
    unfold BaseTree.cachedSiblings64 BaseTree.siblings
    rw [ih, Word.add_ok (by omega), Res.ok_bind]
    by_cases hcond : base + k < dw ∨ base + k ≥ cis
    · rw [if_pos hcond, if_pos hcond, h _ (by omega)]
    · obtain ⟨h1, h2⟩ := hc k (by omega) (by omega) hcond
      rw [if_neg hcond, if_neg hcond, Word.add_ok h1, Res.ok_bind, Word.sub_ok h2, Res.ok_bind, subP_ok h2,
        Res.ok_bind]

omit [LawfulElement E] [FloatRows] in
theorem cachedProofLoop64_eq {rd rd' prd : Nat → Res E} {b k r q : Nat} (hb : Arity b)
    (hw : nodes b k < 2 ^ 63) (hr : r < k) (h : ∀ p, p < nodes b k → rd p = rd' p) :
    ∀ (fuel n j pb sw ss : Nat), n ≤ k → j < b ^ n → pb + 2 * sw ≤ 2 * b ^ k →
    (k - n ≤ r → pb = rowStart b (r + 1) (k - n) ∧ sw = b ^ (r + 1 - (k - n)) ∧
      ss = q * b ^ (r + 1 - (k - n)) ∧ j / b ^ (r + 1 - (k - n)) = q) →
    BaseTree.cachedProofLoop64 o rd prd b (nodes b k) (b ^ k) (rowStart b k (r + 1)) fuel
        (rowStart b k (k - n)) (b ^ n) pb sw ss j
      = BaseTree.cachedProofLoop rd' prd b (nodes b k) (b ^ k) (rowStart b k (r + 1)) fuel
        (rowStart b k (k - n)) (b ^ n) pb sw ss j
  | 0, _, _, _, _, _, _, _, _, _ => rfl
  | fuel + 1, 0, j, _, _, _, _, _, _, _ => by
    have := rowStart_top b k
    have := half_lt_word
    rw [BaseTree.cachedProofLoop64, BaseTree.cachedProofLoop, Nat.sub_zero, Word.add_ok (by omega), Res.ok_bind,
      if_neg (by omega), if_neg (by omega)]
  | fuel + 1, n + 1, j, pb, sw, ss, hn, hj, hpb, hp => by
    have hb2 := hb.two_le
    have h63 := half_lt_word
    have h64 := wordSize_eq
    have hj' : j / b < b ^ n := by
      rw [Nat.div_lt_iff_lt_mul (by omega), ← Nat.pow_succ]; exact hj
    have hrs := rowStart_le_nodes b k (k - (n + 1)) (by omega)
    have hn3 := nodes_ge (b := b) (n := n + 1) (by omega) hb2
    have hpn := pow_le_nodes b (n + 1)
    have hpk := pow_le_nodes b k
    rw [show k - (k - (n + 1)) = n + 1 by omega] at hrs
    have hblk : j / b * b + b ≤ b ^ (n + 1) := by
      calc j / b * b + b = (j / b + 1) * b := by ring
        _ ≤ b ^ n * b := Nat.mul_le_mul_right _ hj'
        _ = b ^ (n + 1) := (Nat.pow_succ ..).symm
    have hrow : rowStart b k (k - (n + 1)) + b ^ (n + 1) = rowStart b k (k - n) := (cached_row hb2 hn).2
    have hsh : log2Pow2 b < 64 := by
      have : b ≤ b ^ k := (pow_le_iff hb2).2 (by omega)
      exact shift_lt hb.pow2 (by omega)
    have hswb : 2 * (sw / b) ≤ sw := by
      have := Nat.div_le_div_left hb2 (by omega) (a := sw)
      omega
    have ih := cachedProofLoop64_eq (prd := prd) (q := q) hb hw hr h fuel n (j / b) (pb + sw) (sw / b) (ss / b)
      (by omega) hj' (by omega) (cached_state (by omega) hn hp)
    have hsib : BaseTree.cachedSiblings64 o rd prd (b ^ k) (rowStart b k (r + 1)) (rowStart b k (k - (n + 1)))
        pb ss j b (j / b * b) = _ :=
      cachedSiblings64_eq (total := nodes b k) (by omega) h b _ (by omega) (by
        intro c hc1 hc2 hcond
        have hlr : k - (n + 1) ≤ r := by
          by_contra hh
          have := rowStart_mono (b := b) (k := k) (show r + 1 ≤ k - (n + 1) by omega)
          omega
        obtain ⟨h1, h2, h3, h4⟩ := hp hlr
        have hrr := rowStart_le_nodes b (r + 1) (k - (n + 1)) (by omega)
        have hmono := nodes_mono b (show r + 1 ≤ k by omega)
        set e := r + 1 - (k - (n + 1)) with he
        have he1 : 1 ≤ e := by omega
        have hpe : b ^ e = b ^ (e - 1) * b := by rw [← Nat.pow_succ]; congr 1; omega
        have hq2 : j / b / b ^ (e - 1) = q := by
          rw [Nat.div_div_eq_div_mul, Nat.mul_comm b, ← hpe]; exact h4
        have hlo : q * b ^ (e - 1) ≤ j / b := by rw [← hq2]; exact Nat.div_mul_le_self _ _
        have hlo' : q * b ^ e ≤ j / b * b := by
          rw [hpe, ← Nat.mul_assoc]; exact Nat.mul_le_mul_right _ hlo
        constructor <;> omega)
    rw [BaseTree.cachedProofLoop64, BaseTree.cachedProofLoop, Word.add_ok (by omega), Res.ok_bind, if_pos (by omega),
      if_pos (by omega), divP_ok (by omega), Res.ok_bind, Word.mul_ok (by omega), Res.ok_bind,
      Word.add_ok (by omega), Res.ok_bind, Nat.add_sub_cancel_left, hsib]
    simp only [modP_ok (show 0 < b by omega), Word.trailingZeros, Res.ok_bind,
      Word.add_ok (show rowStart b k (k - (n + 1)) + b ^ (n + 1) < wordSize by omega),
      Word.add_ok (show pb + sw < wordSize by omega), Word.shr_ok hsh, hrow,
      hb.shiftRight, show b ^ (n + 1) / b = b ^ n by rw [Nat.pow_succ, Nat.mul_div_cancel _ (by omega)], ih]

variable {S' S : Type} [StoreOps S' E] [StoreOps S E]

/-- Two trees of the same shape that read alike. -/
structure SameReads (b k : Nat) (t' : BaseTree S' E) (t : BaseTree S E) : Prop where
  leafs' : t'.leafs = b ^ k
  rows' : t'.rowCount = k + 1
  len' : t'.length = nodes b k
  leafs : t.leafs = b ^ k
  rows : t.rowCount = k + 1
  len : t.length = nodes b k
  root : t'.root = t.root
  reads : ∀ fs p, p < nodes b k → t'.readAt fs p = t.readAt fs p
  seg : ∀ fs a c buf, a ≤ c → c ≤ nodes b k → StoreOps.readRangeInto (E := E) fs t'.store a c buf =
    StoreOps.readRangeInto (E := E) fs t.store a c buf
  segLen : ∀ fs a c buf bs, StoreOps.readRangeInto (E := E) fs t.store a c buf = .ok bs → bs.length = buf.length

theorem genProofWithPartialTree64_eq {b k : Nat} (hb : Arity b) (hk : 1 ≤ k) (hf : FloatRows.ExactAt b k)
    (hw : nodes b k * Element.byteLen E < 2 ^ 63) {fs : FS} {t' : BaseTree S' E} {t : BaseTree S E}
    (h : SameReads b k t' t) {r : Nat} (hr : r < k) (pt : BaseTree (VecStore E) E) {i : Nat} (hi : i < b ^ k)
    (sub top : Nat) :
    BaseTree.genProofWithPartialTree64 b sub top fs t' i r (BaseTree.mapStore (Vec64.mk (o := o)) pt) =
      BaseTree.genProofWithPartialTree b sub top fs t i r pt := by
  have hb2 := hb.two_le
  have h63 := half_lt_word
  have hp := LawfulElement.byteLen_pos (E := E)
  have hw' : nodes b k < 2 ^ 63 := Nat.lt_of_le_of_lt (Nat.le_mul_of_pos_right _ hp) hw
  have hpn := pow_le_nodes b k
  have hbk : b ≤ b ^ k := (pow_le_iff hb2).2 hk
  have hlem := lemmaLen_le (b := b) (by omega) k hk
  have hW : b ^ k / b ^ (k - 1 - r) = b ^ (r + 1) := by
    rw [Nat.pow_div (by omega) (by omega)]; congr 1; omega
  have hWpos : 0 < b ^ (r + 1) := Nat.pow_pos (by omega)
  have hWk : b ^ (r + 1) ≤ b ^ k := Nat.pow_le_pow_right (by omega) (by omega)
  have hm : nodes b (k - 1 - r) ≤ nodes b k := nodes_mono b (by omega)
  have hml := pow_le_nodes b (k - 1 - r)
  have hseg := Nat.div_mul_le_self i (b ^ (r + 1))
  have hcis : nodes b k - nodes b (k - 1 - r) = rowStart b k (r + 1) := by
    have := LevelCacheStore.rowStart_cache (b := b) hr
    omega
  have hK : b ^ (k - 1 - r) < wordSize := by omega
  have e1 : merkleProofLemmaLen64 o (k + 1) b = .ok (2 + (b - 1) * k) := by
    unfold merkleProofLemmaLen64
    rw [Word.sub_ok (by omega), Res.ok_bind, Word.sub_ok (by omega), Res.ok_bind, Nat.add_sub_cancel,
      Word.mul_ok (by omega), Res.ok_bind, Word.add_ok (by omega)]
  have e2 : merkleProofLemmaLen (k + 1) b = .ok (2 + (b - 1) * k) := by
    unfold merkleProofLemmaLen
    rw [subP_ok (by omega), Res.ok_bind, subP_ok (by omega), Res.ok_bind, Nat.add_sub_cancel]
  have e3 := cachedProofLoop64_eq (o := o) (rd := t'.readAt fs) (rd' := t.readAt fs) (prd := pt.readAt fs)
    (q := i / b ^ (r + 1)) hb hw' hr (h.reads fs) (nodes b k + b ^ k + 2) k i 0 (b ^ (r + 1))
    (i / b ^ (r + 1) * b ^ (r + 1)) (Nat.le_refl _) hi (by omega)
    (fun _ => by rw [Nat.sub_self]; exact ⟨rfl, rfl, rfl, rfl⟩)
  rw [Nat.sub_self, show rowStart b k 0 = 0 from rfl] at e3
  have e4 : (BaseTree.mapStore (Vec64.mk (o := o)) pt).readAt fs = pt.readAt fs := rfl
  unfold BaseTree.genProofWithPartialTree64 BaseTree.genProofWithPartialTree
  rw [h.leafs', h.rows', h.len', h.leafs, h.rows, h.len, h.root, ensure_true hi, Res.ok_bind, Res.ok_bind,
    Word.npow2_ok (by omega), Res.ok_bind,
    ensure_true ((eq_nextPow2_iff _).2 (hb.pow_isPow2 k)), Res.ok_bind, Res.ok_bind,
    Word.npow2_ok (by omega), Res.ok_bind,
    ensure_true ((eq_nextPow2_iff _).2 hb.pow2), Res.ok_bind, Res.ok_bind]
  dsimp only
  rw [merkleTreeLen64_eq (by omega) (.inr (.inl (by omega))), merkleTreeLen_pow hb hk, Res.ok_bind, Res.ok_bind,
    merkleTreeCacheSize64_eq (by omega) (.inr (.inl (by omega))) (by omega) (by rw [rowCount_pow hf]; omega),
    merkleTreeCacheSize_pow hb hk hf hr, Res.ok_bind, Res.ok_bind, Word.sub_ok (by omega), subP_ok (by omega),
    Res.ok_bind, Res.ok_bind,
    merkleTreeLeafs64_eq (K := k - 1 - r) (by omega) (by omega) hK (Nat.le_refl _) (by omega) (.inr (by omega)),
    (merkleTreeLeafs_ok_iff hb _ _).2 ⟨k - 1 - r, rfl, Or.inl rfl⟩, Res.ok_bind, Res.ok_bind,
    Word.npow2_ok (by omega), Res.ok_bind,
    ensure_true ((eq_nextPow2_iff _).2 (hb.pow_isPow2 _)), Res.ok_bind, Res.ok_bind,
    divP_ok (Nat.pow_pos (by omega)), Res.ok_bind, Res.ok_bind, hW, divP_ok hWpos, Res.ok_bind, Res.ok_bind,
    Word.mul_ok (by omega), Res.ok_bind, e1, e2, Res.ok_bind, Res.ok_bind, Word.sub_ok (by omega), subP_ok (by omega),
    Res.ok_bind, Res.ok_bind, h.reads fs i (by omega), hcis, e4, e3]
  simp only [Nat.add_sub_cancel, Proof.ensure_new64 (show 1 ≤ b by omega) (show k + 1 < wordSize by
        have : k ≤ (b - 1) * k := Nat.le_mul_of_pos_left _ (by omega)
        omega)
    (show 2 + (b - 1) * k < wordSize by omega)]

/-- The store of a segment. -/
theorem Vec64.newFromSlice_any {m W : Nat} (hm : m ≤ W) (hW : W * Element.byteLen E < 2 ^ 63) {bs : Bytes}
    (hb : bs.length / Element.byteLen E ≤ m) :
    M.Sim NoFault (fun t' t => t' = ⟨t⟩ ∧ t.els.length ≤ m) (Store.newFromSlice (E := E) m bs : M (Vec64 o E))
      (Store.newFromSlice (E := E) m bs : M (VecStore E)) := by
  show M.Sim _ _ (newFromSlice m bs : M (Vec64 o E)) (VecStore.newFromSlice m bs)
  unfold newFromSlice VecStore.newFromSlice
  refine M.Sim.ofRes (Res.Sim.step fun _ => ?_)
  cases hmm : (chunksExact (Element.byteLen E) bs).mapM (Element.fromSlice (E := E)) with
  | error e => exact Res.Sim.error e
  | ok new =>
    have hn := chunksExact_length hmm
    rw [Res.ok_bind, Res.ok_bind, Word.sub_ok (by omega), subP_ok (by omega), Res.ok_bind, Res.ok_bind,
      show new.length + (m - new.length) = m by omega,
      allocLen_ok (Nat.lt_of_le_of_lt (Nat.mul_le_mul_right _ hm) hW), Res.ok_bind]
    exact Res.Sim.ok ⟨rfl, by show new.length ≤ m; omega⟩

theorem buildPartialTree64_sim {n b N W : Nat} (hF : SizesFit E n b N W) (A : Alg E) {σ : Sched} (hσ : σ.Valid)
    {s : VecStore E} (hs : s.els.length ≤ W) (rows : Nat) :
    M.Sim NoFault (fun t' t => t' = BaseTree.mapStore (Vec64.mk (o := o)) t)
      (BaseTree.buildPartialTree64 A b σ (⟨s⟩ : Vec64 o E) n rows) (BaseTree.buildPartialTree A b σ s n rows) := by
  have hW := hF.bound_lt
  have hl := hF.leaves
  have h1 := hF.arity_lt
  have := half_lt_word
  unfold BaseTree.buildPartialTree64 BaseTree.buildPartialTree
  refine M.Sim.bind (defaultBuild64_sim (o := o) (Vec64.opsSim hF) hF A hσ rows none (s' := ⟨s⟩) ⟨rfl, hs⟩
    (fun h => by cases h)) ?_
  rintro ⟨r', t'⟩ ⟨r, t⟩ ⟨h2, h3, h4⟩
  dsimp only at h2 h3 h4 ⊢
  subst h2 h3
  rw [hF.len64, isMerkleTreeSizeValid64_eq (by omega) (by omega) (.inr ⟨by omega, h1⟩)]
  refine M.Sim.step fun _ => M.Sim.step fun _ => M.Sim.step fun _ => M.Sim.step fun _ => M.Sim.pure rfl

theorem genCachedProof64_eq {b k : Nat} (hb : Arity b) (hk : 1 ≤ k) (hf : FloatRows.ExactAt b k)
    {rows : Option Nat} (hf' : FloatRows.ExactAt b (k - 1 - BaseTree.effectiveDiscard (b ^ k) b rows))
    (hw : 2 * b ^ k * Element.byteLen E ≤ 2 ^ 63) (hblk : buildDataBlockSize * Element.byteLen E < 2 ^ 63)
    (A : Alg E) {σ : Sched} (hσ : σ.Valid) {t' : BaseTree S' E} {t : BaseTree S E} (h : SameReads b k t' t)
    (sub top i : Nat) : t'.genCachedProof64 o A b sub top σ i rows = t.genCachedProof A b sub top σ i rows := by
  suffices hsim : M.Sim NoFault (fun a' a => a' = id a) (t'.genCachedProof64 o A b sub top σ i rows)
      (t.genCachedProof A b sub top σ i rows) by
    funext fs
    rw [hsim.run_eq fs]
    rcases t.genCachedProof A b sub top σ i rows fs with ⟨x, fs'⟩
    cases x <;> rfl
  have hb2 := hb.two_le
  have h63 := half_lt_word
  have hp := LawfulElement.byteLen_pos (E := E)
  have hnt := nodes_le_twice hb2 k
  have hnodes : nodes b k * Element.byteLen E < 2 ^ 63 := by
    have := Nat.mul_le_mul_right (Element.byteLen E) hnt
    rw [Nat.add_mul] at this
    omega
  have hpn := pow_le_nodes b k
  have hw' : nodes b k < 2 ^ 63 := Nat.lt_of_le_of_lt (Nat.le_mul_of_pos_right _ hp) hnodes
  have hbk : b ≤ b ^ k := (pow_le_iff hb2).2 hk
  have hkb : k < b ^ k := Nat.lt_pow_self (by omega)
  have hr := effectiveDiscard_lt hk hf rows
  unfold BaseTree.genCachedProof64 BaseTree.genCachedProof
  dsimp only
  rw [h.leafs', h.rows', h.leafs, h.rows, effectiveDiscard64_eq (by omega)]
  generalize hrr : BaseTree.effectiveDiscard (b ^ k) b rows = r at hr hf' ⊢
  by_cases hi : i < b ^ k
  swap
  · intro fs
    rw [M.bind_error (mEnsure_false hi _ fs), M.bind_error (mEnsure_false hi _ fs)]
    exact .inr rfl
  have hW : b ^ k / b ^ (k - 1 - r) = b ^ (r + 1) := by
    rw [Nat.pow_div (by omega) (by omega)]; congr 1; omega
  have hWpos : 0 < b ^ (r + 1) := Nat.pow_pos (by omega)
  have hWk : b ^ (r + 1) ≤ b ^ k := Nat.pow_le_pow_right (by omega) (by omega)
  have hWb : b ^ (r + 1) * Element.byteLen E < 2 ^ 63 :=
    Nat.lt_of_le_of_lt (Nat.mul_le_mul_right _ (by omega)) hnodes
  have hNr : nodes b (r + 1) ≤ nodes b k := nodes_mono b (by omega)
  have hNb : nodes b (r + 1) * Element.byteLen E < 2 ^ 63 :=
    Nat.lt_of_le_of_lt (Nat.mul_le_mul_right _ hNr) hnodes
  have hm : nodes b (k - 1 - r) ≤ nodes b k := nodes_mono b (by omega)
  have hml := pow_le_nodes b (k - 1 - r)
  have hseg := Nat.div_mul_le_self i (b ^ (r + 1))
  have hq : i / b ^ (r + 1) * b ^ (r + 1) + b ^ (r + 1) ≤ b ^ k := by
    have hkr : b ^ k = b ^ (k - (r + 1)) * b ^ (r + 1) := by rw [← Nat.pow_add]; congr 1; omega
    have hq1 : i / b ^ (r + 1) + 1 ≤ b ^ (k - (r + 1)) := by
      rw [Nat.succ_le_iff, Nat.div_lt_iff_lt_mul hWpos, ← hkr]; exact hi
    rw [← Nat.succ_mul]
    calc _ ≤ b ^ (k - (r + 1)) * b ^ (r + 1) := Nat.mul_le_mul_right _ hq1
      _ = _ := hkr.symm
  refine M.Sim.step fun _ => ?_
  rw [Word.npow2_ok (by omega), M.ofRes_ok_bind]
  refine M.Sim.step fun _ => ?_
  rw [merkleTreeLen64_eq (by omega) (.inr (.inl (by omega))), merkleTreeLen_pow hb hk, M.ofRes_ok_bind, M.ofRes_ok_bind,
    M.ofRes_ok_bind,
    merkleTreeCacheSize64_eq (by omega) (.inr (.inl (by omega))) (by omega) (by rw [rowCount_pow hf]; omega),
    merkleTreeCacheSize_pow hb hk hf hr, M.ofRes_ok_bind, M.ofRes_ok_bind]
  refine M.Sim.step fun _ => ?_
  rw [merkleTreeLeafs64_eq (K := k - 1 - r) (by omega) (by omega) (by omega) (Nat.le_refl _) (by omega) (.inr (by omega)),
    (merkleTreeLeafs_ok_iff hb _ _).2 ⟨k - 1 - r, rfl, Or.inl rfl⟩, M.ofRes_ok_bind, M.ofRes_ok_bind,
    Word.npow2_ok (by omega), M.ofRes_ok_bind]
  refine M.Sim.step fun _ => ?_
  rw [merkleTreeRowCount64_eq (by omega) (.inr (.inl (by omega))), M.ofRes_ok_bind, rowCount_pow hf',
    Word.sub_ok (by omega), subP_ok (by omega), M.ofRes_ok_bind, M.ofRes_ok_bind, Word.add_ok (by omega),
    M.ofRes_ok_bind, divP_ok (Nat.pow_pos (by omega)), M.ofRes_ok_bind, M.ofRes_ok_bind, hW, divP_ok hWpos,
    M.ofRes_ok_bind, M.ofRes_ok_bind, Word.mul_ok (by omega), M.ofRes_ok_bind, Word.add_ok (by omega), M.ofRes_ok_bind,
    Word.mul_ok (by omega), M.ofRes_ok_bind, allocLen_ok hWb, M.ofRes_ok_bind]
  refine M.Sim.bind (R := fun d' d => d' = d ∧ d.length = b ^ (r + 1) * Element.byteLen E) (M.Sim.get fun fs => ?_) ?_
  · rw [h.seg fs _ _ _ (by omega) (by omega)]
    cases hd : StoreOps.readRangeInto (E := E) fs t.store (i / b ^ (r + 1) * b ^ (r + 1))
        (i / b ^ (r + 1) * b ^ (r + 1) + b ^ (r + 1)) (List.replicate (b ^ (r + 1) * Element.byteLen E) 0) with
    | error e => exact Res.Sim.error e
    | ok bs =>
      have := h.segLen _ _ _ _ _ hd
      rw [List.length_replicate] at this
      exact Res.Sim.ok ⟨rfl, this⟩
  rintro data _ ⟨rfl, hdl⟩
  refine M.Sim.bind (Vec64.newFromSlice_any (o := o) (Nat.le_refl _) hWb (bs := data) (by
    rw [hdl, Nat.mul_div_cancel _ hp])) ?_
  rintro ps' ps ⟨rfl, hps⟩
  refine M.Sim.step fun _ => ?_
  have hlen := merkleTreeLen_pow hb (show 1 ≤ r + 1 by omega)
  rw [merkleTreeLen64_eq (by omega) (.inr (.inl (by omega))), hlen, M.ofRes_ok_bind, M.ofRes_ok_bind,
    Word.mul_ok (by omega), M.ofRes_ok_bind, allocLen_ok hNb, M.ofRes_ok_bind]
  have hF : SizesFit E (b ^ (r + 1)) b (nodes b (r + 1)) (2 * b ^ k - 1) := by
    refine ⟨hb, by omega, hlen, by omega, ?_, hblk⟩
    rw [Nat.sub_mul]; omega
  refine M.Sim.bind (buildPartialTree64_sim (o := o) hF A hσ (s := ps) (by omega) _) ?_
  rintro pt' pt rfl
  refine M.Sim.step fun _ => ?_
  refine M.Sim.get fun fs => ?_
  rw [genProofWithPartialTree64_eq hb hk hf hnodes h hr pt hi sub top]
  exact Res.Sim.rfl

end Verif
