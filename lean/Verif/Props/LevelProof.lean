import Verif.Lemmas.LevelProof
import Verif.Props.LevelRuns
import Verif.Props.CachedProof
/-! Property C61: `gen_proof` on compacted trees. -/
set_option linter.unusedSectionVars false
namespace Verif
open Spec StoreOps

section
variable {E : Type} [Element E] [LawfulElement E] [FloatRows] {A : Alg E} {b k : Nat} (hb : Arity b)
    (hk : 1 ≤ k) (hf : FloatRows.ExactAt b k)
    {leaves : List E} {f : Nat → E} {c : StoreConfig} {fs : FS} {t : BaseTree (DiskStore E) E}
    (ht : t.IsFileTree A b k leaves f c fs) (hd : c.rowsToDiscard < k)
include hb hk hf ht hd

/-- **C61**, version 2.  On a compacted tree opened with a reader that delivers the leaves, `gen_proof`
returns the proofs of the full tree when no row is discarded, and `Err` for every leaf otherwise. -/
theorem C61_v2 {version : Nat} (hv : version ≠ 1) {t' : BaseTree (DiskStore E) E} {fs' : FS}
    (h : t.compact b c version fs = (.ok true, t', fs')) (r : ExternalReader)
    (hr : r.Serves fs' leaves) :
    ∃ (s : LevelCacheStore E) (u : BaseTree (LevelCacheStore E) E),
      LevelCacheStore.newFromDiskWithReader t.length b c r fs' = (.ok s, fs') ∧
      BaseTree.fromDataStore b 0 0 s t.leafs fs' = .ok u ∧
      ∀ i, i < t.leafs →
        (c.rowsToDiscard = 0 → u.genProof b 0 0 fs' i = t.genProof b 0 0 fs i) ∧
        (1 ≤ c.rowsToDiscard → Res.IsErr (u.genProof b 0 0 fs' i)) := by
  obtain ⟨s, hs, hl, hsr, hfile, -⟩ := LevelCacheStore.open_v2 hb hk hf ht hd hv h r
  have hle := LevelCacheStore.rowStart_cache (b := b) hd
  have hp2 := nodes_pos b (k - 1 - c.rowsToDiscard)
  have hpk := pow_le_nodes b k
  have hpos : 0 < b ^ k := Nat.pow_pos (by have := hb.two_le; omega)
  obtain ⟨u, hu⟩ : ∃ u : BaseTree (LevelCacheStore E) E,
    u = ⟨s, b ^ k, nodes b k, k + 1, f (nodes b k - 1)⟩ := ⟨_, rfl⟩
  have hl' : u.store.View b k c.rowsToDiscard := by rw [hu]; exact hl
  have hsr' : u.store.reader = some r := by rw [hu]; exact hsr
  have hfile' : fs'.file u.store.file = some (encodeAll (cachedRows b k c.rowsToDiscard f)) := by
    rw [hu]; exact hfile
  refine ⟨s, u, hs, ?_, fun i hi => ⟨fun h0 => ?_, fun h1 => ?_⟩⟩
  · have := (BaseTree.reads_v2 hb hd ht.layout hl' hsr' hr hfile' (nodes b k - 1)).1 (by omega) (by omega)
    rw [hu] at this
    rw [ht.leafs, hu]; exact fromDataStore_view hb hk hf hl this
  · rw [ht.leafs] at hi
    rw [h0] at hl' hfile'
    obtain ⟨g, hg, hreads⟩ := ht.isTreeOf.exists_reads
    obtain ⟨g', hg', hreads'⟩ := (BaseTree.reads_v2_full hb hk ht.layout (by rw [hu]) (by rw [hu])
      (by rw [hu]) hl' hsr' hr hfile').exists_reads
    rw [BaseTree.genProof_eq hb hk hreads hi]
    refine BaseTree.genProof_eq hb hk ⟨hreads'.leafs, hreads'.len, hreads'.rows, fun n hn => ?_, ?_⟩ hi
    · rw [hreads'.reads n hn, layout_unique hg' hg n hn]
    · rw [hreads'.root, layout_unique hg' hg _ (by omega)]
  · rw [ht.leafs] at hi
    exact BaseTree.genProof_v2_err hb hd h1 ht.layout (by rw [hu]) (by rw [hu]) hl' hsr' hr hfile' hi

/-- **C61**, version 1, except for the second pair of leaves of a binary tree with exactly one discarded
row. -/
theorem C61_v1_partial {t' : BaseTree (DiskStore E) E} {fs' : FS}
    (h : t.compact b c 1 fs = (.ok true, t', fs')) :
    ∃ (s : LevelCacheStore E) (u : BaseTree (LevelCacheStore E) E),
      LevelCacheStore.newFromDisk t.length b c fs' = (.ok s, fs') ∧
      BaseTree.fromDataStore b 0 0 s t.leafs fs' = .ok u ∧
      ∀ i, i < t.leafs →
        (c.rowsToDiscard = 0 → u.genProof b 0 0 fs' i = t.genProof b 0 0 fs i) ∧
        (1 ≤ c.rowsToDiscard → ¬ (b = 2 ∧ c.rowsToDiscard = 1 ∧ i / 2 = 1) →
          Res.IsErr (u.genProof b 0 0 fs' i)) := by
  obtain ⟨s, hs, hl, hsr, hfile⟩ := LevelCacheStore.open_v1 hb hk hf ht hd h
  have hb2 := hb.two_le
  have hp := nodes_pos b k
  have hle := LevelCacheStore.rowStart_cache (b := b) hd
  have hp2 := nodes_pos b (k - 1 - c.rowsToDiscard)
  have hge := pow_le_rowStart b k c.rowsToDiscard
  have hcount := ht.layout.count
  have hlow : ∀ i, i < b ^ k → LevelCacheStore.readAt fs' s i = .ok (f i) := fun i hi => by
    rw [ht.layout.leaf i (by omega)]; exact hl.readAt_base_v1 hsr hcount hfile _
  have hhigh : ∀ i, rowStart b k (c.rowsToDiscard + 1) ≤ i → i < nodes b k →
      LevelCacheStore.readAt fs' s i = .ok (f i) := fun i h1 h2 =>
    hl.readAt_cached_v1 hd hsr hcount hfile h1 h2
  have hmid : ∀ i, b ^ k < i → i < rowStart b k (c.rowsToDiscard + 1) →
      Res.IsErr (LevelCacheStore.readAt fs' s i) := fun i h1 h2 => hl.discarded_err h1 h2 _
  have hlen : (⟨s, b ^ k, nodes b k, k + 1, f (nodes b k - 1)⟩ : BaseTree (LevelCacheStore E) E).length
      = nodes b k := hl.len
  refine ⟨s, ⟨s, b ^ k, nodes b k, k + 1, f (nodes b k - 1)⟩, hs, ?_, fun i hi => ⟨fun h0 => ?_, fun h1 hx => ?_⟩⟩
  · rw [ht.leafs]; exact fromDataStore_view hb hk hf hl (hhigh _ (by omega) (by omega))
  · rw [ht.leafs] at hi
    obtain ⟨g, hg, hreads⟩ := ht.isTreeOf.exists_reads
    rw [BaseTree.genProof_eq hb hk hreads hi]
    refine (BaseTree.genProof_eq (f := g) hb hk ⟨rfl, hlen, rfl, fun i hi => ?_, ?_⟩ hi)
    · show LevelCacheStore.readAt fs' s i = _
      rw [layout_unique hg ht.layout i hi]
      rcases Nat.lt_or_ge i (b ^ k) with h1 | h1
      · exact hlow i h1
      · refine hhigh i ?_ hi
        rw [h0]
        simpa [rowStart] using h1
    · show f _ = g _
      rw [layout_unique hg ht.layout _ (by omega)]
  · rw [ht.leafs] at hi
    have hret : ∀ i, Res.Returns (LevelCacheStore.readAt fs' s i) := fun i => by
      rcases Nat.lt_or_ge i (b ^ k) with h1' | h1'
      · exact .inl ⟨_, hlow i h1'⟩
      · rcases Nat.lt_or_ge i (rowStart b k (c.rowsToDiscard + 1)) with h2 | h2
        · rcases Nat.lt_or_ge (b ^ k) i with h3 | h3
          · exact .inr (hmid i h3 h2)
          · obtain rfl : i = b ^ k := by omega
            exact .inl ⟨_, hl.readAt_boundary_v1 hd h1 hsr hcount hb2 hfile⟩
        · rcases Nat.lt_or_ge i (nodes b k) with h3 | h3
          · exact .inl ⟨_, hhigh i h2 h3⟩
          · exact .inr (LevelCacheStore.readAt_err_len (by rw [hl.len]; exact h3) _)
    -- the rows above row `l` of a position
    have hblock : ∀ l, l < k → i / b ^ l / b * b + b ≤ b ^ (k - l) := fun l hlk => by
      have : i / b ^ l / b < b ^ (k - l - 1) := by
        rw [Nat.div_lt_iff_lt_mul (by omega), Nat.div_lt_iff_lt_mul (Nat.pow_pos (by omega)),
          ← Nat.pow_succ, ← Nat.pow_add]
        rwa [show k - l - 1 + 1 + l = k by omega]
      calc i / b ^ l / b * b + b = (i / b ^ l / b + 1) * b := by ring
        _ ≤ b ^ (k - l - 1) * b := Nat.mul_le_mul_right _ this
        _ = b ^ (k - l) := by rw [← Nat.pow_succ]; congr 1; omega
    have h6 := rowStart_mono (b := b) (k := k) (show 2 ≤ c.rowsToDiscard + 1 by omega)
    have h7 : rowStart b k 2 = b ^ k + b ^ (k - 1) := by simp [rowStart]
    have h8 : rowStart b k 1 = b ^ k := by simp [rowStart]
    have hrow1 : ∀ x, i / b ^ 1 / b * b ≤ x → x < i / b ^ 1 / b * b + b → x ≠ i / b ^ 1 → x ≠ 0 →
        Res.IsErr (BaseTree.genProof b 0 0 fs' (⟨s, b ^ k, nodes b k, k + 1, f (nodes b k - 1)⟩ : BaseTree _ E) i) :=
      fun x h2 h3 h4 h5 => by
        have := hblock 1 (by omega)
        exact BaseTree.genProof_dead (l := 1) hb rfl rfl hlen hret (by omega) hi
          ⟨x, h2, h3, h4, hmid _ (by omega) (by omega)⟩
    rw [Nat.pow_one] at hrow1
    by_cases hz : i / b / b = 0
    · rw [hz, Nat.zero_mul, Nat.zero_add] at hrow1
      by_cases h1i : i / b = 1
      · by_cases hb3 : b = 2
        · -- the sibling in row one is the boundary; row two is discarded as well
          subst hb3
          have hd2 : 2 ≤ c.rowsToDiscard := by omega
          have := hblock 2 (by omega)
          have h9 := rowStart_mono (b := 2) (k := k) (show 3 ≤ c.rowsToDiscard + 1 by omega)
          have h10 : rowStart 2 k 3 = rowStart 2 k 2 + 2 ^ (k - 2) := by simp [rowStart]
          have h11 : 0 < 2 ^ (k - 1) := Nat.pow_pos (by omega)
          have h12 : i / 2 ^ 2 = 0 := by
            rw [show (2 : Nat) ^ 2 = 2 * 2 from rfl, ← Nat.div_div_eq_div_mul]; exact hz
          rw [h12] at this
          refine BaseTree.genProof_dead (l := 2) hb rfl rfl hlen hret (by omega) hi
            ⟨1, by rw [h12]; simp, by rw [h12]; simp, by rw [h12]; simp, hmid _ (by omega) (by omega)⟩
        · exact hrow1 2 (by omega) (by omega) (by omega) (by omega)
      · exact hrow1 1 (by omega) (by omega) (fun h => h1i h.symm) (by omega)
    · have h5 : b ≤ i / b / b * b := Nat.le_mul_of_pos_left _ (Nat.pos_of_ne_zero hz)
      obtain ⟨x, h2, h3, h4⟩ := exists_sibling (j := i / b) hb2
      exact hrow1 x h2 h3 h4 (by omega)

end

section
variable {E : Type} [Element E] [LawfulElement E] [FloatRows] {A : Alg E} {k : Nat}

/-- **C61** fails for binary trees compacted to version 1 with one discarded row.  For the leaves 2 and
3, `gen_proof` returns a proof, not `Err`: the full tree's proof with the first cached node in place of
the discarded sibling, and this is not the full tree's proof unless those two nodes are equal. -/
theorem C61_v1_refuted (hk : 2 ≤ k) (hf : FloatRows.ExactAt 2 k) {leaves : List E} {f : Nat → E}
    {c : StoreConfig} {fs : FS} {t : BaseTree (DiskStore E) E}
    (ht : t.IsFileTree A 2 k leaves f c fs) (hd : c.rowsToDiscard = 1)
    {t' : BaseTree (DiskStore E) E} {fs' : FS} (h : t.compact 2 c 1 fs = (.ok true, t', fs')) :
    ∃ (s : LevelCacheStore E) (u : BaseTree (LevelCacheStore E) E),
      LevelCacheStore.newFromDisk t.length 2 c fs' = (.ok s, fs') ∧
      BaseTree.fromDataStore 2 0 0 s t.leafs fs' = .ok u ∧
      ∀ i, i / 2 = 1 → ∃ p q, u.genProof 2 0 0 fs' i = .ok p ∧ t.genProof 2 0 0 fs i = .ok q ∧
        p = honestProof (fun n => if n = 2 ^ k then f (rowStart 2 k 2) else f n) 2 k i ∧
        (f (2 ^ k) ≠ f (rowStart 2 k 2) → p ≠ q) := by
  have hb : Arity 2 := ⟨1, Nat.le_refl _, rfl⟩
  obtain ⟨s, hs, hl, hsr, hfile⟩ := LevelCacheStore.open_v1 hb (by omega) hf ht (by omega) h
  rw [hd] at hl hfile
  have hp := nodes_pos 2 k
  have hle : rowStart 2 k 2 + nodes 2 (k - 1 - 1) = nodes 2 k :=
    LevelCacheStore.rowStart_cache (b := 2) (k := k) (d := 1) (by omega)
  have hp2 := nodes_pos 2 (k - 1 - 1)
  have hcount := ht.layout.count
  have h7 : rowStart 2 k 2 = 2 ^ k + 2 ^ (k - 1) := by simp [rowStart]
  have h8 : rowStart 2 k 1 = 2 ^ k := by simp [rowStart]
  have hpw : 4 ≤ 2 ^ k := Nat.pow_le_pow_right (n := 2) (by omega) hk
  have hpw1 : 2 ≤ 2 ^ (k - 1) := Nat.pow_le_pow_right (n := 2) (i := 1) (by omega) (by omega)
  set f' : Nat → E := fun n => if n = 2 ^ k then f (rowStart 2 k 2) else f n with hf'
  have hlow : ∀ i, i < 2 ^ k → LevelCacheStore.readAt fs' s i = .ok (f' i) := fun i hi => by
    rw [hf']; dsimp only
    rw [if_neg (by omega), ht.layout.leaf i (by omega)]; exact hl.readAt_base_v1 hsr hcount hfile _
  have hhigh : ∀ i, rowStart 2 k 2 ≤ i → i < nodes 2 k →
      LevelCacheStore.readAt fs' s i = .ok (f' i) := fun i h1 h2 => by
    rw [hf']; dsimp only
    rw [if_neg (by omega)]
    exact hl.readAt_cached_v1 (by omega) hsr hcount hfile h1 h2
  have hbd : LevelCacheStore.readAt fs' s (2 ^ k) = .ok (f' (2 ^ k)) := by
    rw [hf']; dsimp only
    rw [if_pos rfl]
    exact hl.readAt_boundary_v1 (by omega) (Nat.le_refl _) hsr hcount (Nat.le_refl _) hfile
  have hlast : f' (nodes 2 k - 1) = f (nodes 2 k - 1) := by
    rw [hf']; dsimp only
    rw [if_neg (by omega)]
  have hlen : (⟨s, 2 ^ k, nodes 2 k, k + 1, f (nodes 2 k - 1)⟩ : BaseTree (LevelCacheStore E) E).length
      = nodes 2 k := hl.len
  refine ⟨s, ⟨s, 2 ^ k, nodes 2 k, k + 1, f (nodes 2 k - 1)⟩, hs, ?_, fun i hi => ?_⟩
  · rw [ht.leafs, ← hlast]; exact fromDataStore_view hb (by omega) hf hl (hhigh _ (by omega) (by omega))
  have hik : i < 2 ^ k := by omega
  obtain ⟨g, hg, hreads⟩ := ht.isTreeOf.exists_reads
  have hfull := BaseTree.genProof_eq hb (by omega) hreads hik
  refine ⟨_, _, ?_, hfull, rfl, ?_⟩
  · rw [BaseTree.genProof_unfold hb (by omega) rfl rfl hlen hik]
    show (LevelCacheStore.readAt fs' s i >>= _) = _
    rw [hlow i hik, Res.ok_bind]
    -- the reader that finds every node
    set rd' : Nat → Res E := fun n => if n < nodes 2 k then .ok (f' n) else LevelCacheStore.readAt fs' s n
      with hrd'
    have hloop := proofLoop_eq (rd := rd') (f := f') (fuel := nodes 2 k + 2 ^ k + 2) hb
      (fun n hn => by rw [hrd']; exact if_pos hn) k (j := i) (Nat.le_refl _)
      (by have := Nat.lt_pow_self (n := k) (show 1 < 2 by omega); omega) hik
    have hsame : BaseTree.proofLoop (LevelCacheStore.readAt fs' s) 2 (nodes 2 k) (nodes 2 k + 2 ^ k + 2) 0
        (2 ^ k) i = BaseTree.proofLoop rd' 2 (nodes 2 k) (nodes 2 k + 2 ^ k + 2) 0 (2 ^ k) i := by
      rw [show nodes 2 k + 2 ^ k + 2 = (nodes 2 k + 2 ^ k) + 1 + 1 by omega, BaseTree.proofLoop,
        BaseTree.proofLoop]
      simp only [Nat.zero_add]
      rw [siblings_congr (rd := fun c => LevelCacheStore.readAt fs' s c) (rd' := fun c => rd' c) 2 (i / 2 * 2)
        fun x h1 h2 _ => by
          have := pow_le_nodes 2 k
          rw [hlow x (by omega), hrd']
          exact (if_pos (by omega)).symm]
      have hw : (2 ^ k) >>> log2Pow2 2 = 2 ^ (k - 1) := by
        rw [hb.shiftRight, show 2 ^ k = 2 ^ (k - 1) * 2 by rw [← Nat.pow_succ]; congr 1; omega,
          Nat.mul_div_cancel _ (by omega)]
      have hj : i >>> log2Pow2 2 = 1 := by rw [hb.shiftRight, hi]
      rw [hw, hj]
      have hrest : BaseTree.proofLoop (LevelCacheStore.readAt fs' s) 2 (nodes 2 k) (nodes 2 k + 2 ^ k + 1)
          (2 ^ k) (2 ^ (k - 1)) 1 = BaseTree.proofLoop rd' 2 (nodes 2 k) (nodes 2 k + 2 ^ k + 1)
          (2 ^ k) (2 ^ (k - 1)) 1 := by
        rw [BaseTree.proofLoop, BaseTree.proofLoop]
        simp only []
        rw [siblings_congr (rd := fun c => LevelCacheStore.readAt fs' s (2 ^ k + c))
          (rd' := fun c => rd' (2 ^ k + c)) 2 (1 / 2 * 2) fun x h1 h2 h3 => by
            obtain rfl : x = 0 := by omega
            rw [Nat.add_zero, hbd, hrd']
            exact (if_pos (by omega)).symm,
          proofLoop_congr (rd := LevelCacheStore.readAt fs' s) (rd' := rd') (lo := rowStart 2 k 2)
            (fun n hn => by
              rw [hrd']
              dsimp only
              by_cases h : n < nodes 2 k
              · rw [if_pos h, hhigh n hn h]
              · rw [if_neg h]) _ _ _ _ (by omega)]
      rw [hrest]
    have hrs : rowStart 2 k 0 = 0 := rfl
    rw [Nat.sub_self, hrs] at hloop
    have hsame' : BaseTree.proofLoop (BaseTree.readAt fs' (⟨s, 2 ^ k, nodes 2 k, k + 1, f (nodes 2 k - 1)⟩ :
        BaseTree _ E)) 2 (nodes 2 k) (nodes 2 k + 2 ^ k + 2) 0 (2 ^ k) i
        = .ok (auth f' 2 k k i, digits 2 k i) := hsame.trans hloop
    rw [hsame', Res.ok_bind]
    have hlen : (f' i :: auth f' 2 k k i ++ [f (nodes 2 k - 1)]).length = 2 + (2 - 1) * k := by
      simp only [List.length_append, List.length_cons, List.length_nil, auth_length f' (by omega : 0 < 2)]
      omega
    simp only []
    rw [ensure_true hlen, Res.ok_bind, ensure_true (by rw [digits_length]), Res.ok_bind, ← hlast,
      ← honest_new f' (Nat.le_refl 2) (by omega) i]
  · intro hne heq
    apply hne
    have hg' : ∀ n, n < nodes 2 k → g n = f n := layout_unique hg ht.layout
    simp only [honestProof, Proof.base.injEq, true_and] at heq
    obtain ⟨n, rfl⟩ : ∃ n, k = n + 2 := ⟨k - 2, by omega⟩
    have h1 := congrArg (fun l => l[2]?) heq.1
    have hs1 : ∀ x : Nat → E, sibs x 2 (rowStart 2 (n + 2) 1) 1 = [x (2 ^ (n + 2))] := fun x => by
      simp [sibs, rowStart, List.range_succ]
    have hs0 : ∀ x : Nat → E, ∃ e, sibs x 2 0 i = [e] := fun x => by
      rcases (show i = 2 ∨ i = 3 by omega) with rfl | rfl
      · exact ⟨x 3, by simp [sibs, List.range_succ]⟩
      · exact ⟨x 2, by simp [sibs, List.range_succ]⟩
    have ha : ∀ x : Nat → E, ∃ e rest, auth x 2 (n + 2) (n + 2) i = e :: x (2 ^ (n + 2)) :: rest := fun x => by
      obtain ⟨e, he⟩ := hs0 x
      refine ⟨e, auth x 2 (n + 2) n (1 / 2), ?_⟩
      rw [auth, auth, hi, show n + 2 - (n + 1) = 1 by omega, hs1, show n + 2 - (n + 1 + 1) = 0 by omega]
      show sibs x 2 0 i ++ _ = _
      rw [he]
      rfl
    obtain ⟨e1, r1, a1⟩ := ha f'
    obtain ⟨e2, r2, a2⟩ := ha g
    rw [a1, a2] at h1
    simp only [List.cons_append, List.getElem?_cons_succ, List.getElem?_cons_zero, Option.some.injEq] at h1
    rw [hg' _ (by omega), hf'] at h1
    simp only [↓reduceIte] at h1
    exact h1.symm

end

/-! Concrete instances. -/
section
attribute [local instance] idealRows

/-- `gen_proof` of every leaf: whether it is the full tree's, and whether it validates. -/
def toyGenProofV1 (d : Nat) : List (Option (Bool × Res Bool)) :=
  let c := StoreConfig.new "d" "t" d
  let fs := ((toyFull d).compact 2 c 1 (toyReplicaFs d)).2.2
  match LevelCacheStore.newFromDisk (E := UInt8) 7 2 c fs with
  | (.ok s, fs) => (List.range 4).map fun i =>
      match BaseTree.fromDataStore 2 0 0 s 4 fs with
      | .ok u => match u.genProof 2 0 0 fs i with
        | .ok p => some (decide ((toyFull d).genProof 2 0 0 (toyReplicaFs d) i = .ok p),
            p.validate toyAlg 2)
        | .error _ => none
      | .error _ => none
  | _ => []

def toyGenProofV2 (d : Nat) : List (Option Bool) :=
  let c := StoreConfig.new "d" "t" d
  let fs := ((toyFull d).compact 2 c 2 (toyReplicaFs d)).2.2
  match LevelCacheStore.newFromDiskWithReader (E := UInt8) 7 2 c (.ofFile (.named "r") 2) fs with
  | (.ok s, fs) => (List.range 4).map fun i =>
      match BaseTree.fromDataStore 2 0 0 s 4 fs with
      | .ok u => match u.genProof 2 0 0 fs i with
        | .ok p => some (decide ((toyFull d).genProof 2 0 0 (toyReplicaFs d) i = .ok p))
        | .error _ => none
      | .error _ => none
  | _ => []

example : toyGenProofV2 0 = [some true, some true, some true, some true] := by decide +kernel
example : toyGenProofV2 1 = [none, none, none, none] := by decide +kernel
example : toyGenProofV1 0 = List.replicate 4 (some (true, .ok true)) := by decide +kernel
-- the proofs for leaves 2 and 3 are returned and do not validate
example : toyGenProofV1 1 = [none, none, some (false, .ok false), some (false, .ok false)] := by decide +kernel

end
end Verif
