import Verif.Lemmas.Sources
import Verif.Lemmas.ProofCompound
import Verif.Spec.Honest
/-!
`gen_proof` of a base tree produces the honest proof, and the honest proof validates.
-/
set_option linter.unusedSectionVars false
namespace Verif
open Spec

variable {E : Type}

theorem digits_length (b : Nat) : ∀ n j, (digits b n j).length = n
  | 0, _ => rfl
  | n + 1, j => by simp [digits, digits_length b n]

theorem digits_lt {b : Nat} (hb : 0 < b) : ∀ n j, ∀ d ∈ digits b n j, d < b
  | 0, _ => by simp [digits]
  | n + 1, j => by
    intro d hd
    simp only [digits, List.mem_cons] at hd
    rcases hd with rfl | hd
    · exact Nat.mod_lt _ hb
    · exact digits_lt hb n _ d hd

theorem digits_getElem (b : Nat) : ∀ n j l (h : l < (digits b n j).length), (digits b n j)[l] = j / b ^ l % b
  | 0, _, _, h => by simp [digits] at h
  | n + 1, j, 0, _ => by simp [digits]
  | n + 1, j, l + 1, h => by
    simp only [digits, List.getElem_cons_succ]
    rw [digits_getElem b n (j / b) l, Nat.div_div_eq_div_mul, Nat.pow_succ, Nat.mul_comm b]

theorem range_filter_split {b p : Nat} (hp : p < b) :
    (List.range b).filter (· ≠ p) = List.range p ++ (List.range' (p + 1) (b - p - 1)) := by
  have h : List.range b = List.range p ++ p :: List.range' (p + 1) (b - p - 1) := by
    have hb : b = p + (1 + (b - p - 1)) := by omega
    conv_lhs => rw [List.range_eq_range', hb, ← List.range'_append_1, Nat.add_comm 1, List.range'_succ,
      ← List.range_eq_range']
    simp
  rw [h, List.filter_append, List.filter_cons]
  have h1 : (List.range p).filter (· ≠ p) = List.range p := by
    apply List.filter_eq_self.2
    intro a ha
    have := List.mem_range.1 ha
    simp; omega
  have h2 : (List.range' (p + 1) (b - p - 1)).filter (· ≠ p) = List.range' (p + 1) (b - p - 1) := by
    apply List.filter_eq_self.2
    intro a ha
    have := List.mem_range'_1.1 ha
    simp; omega
  rw [h1, h2]; simp

theorem sibs_length (f : Nat → E) {b : Nat} (hb : 0 < b) (base j : Nat) : (sibs f b base j).length = b - 1 := by
  have hp := Nat.mod_lt j hb
  rw [sibs, List.length_map, range_filter_split hp]
  simp; omega

theorem insertAt_sibs (f : Nat → E) {b : Nat} (hb : 0 < b) (base j : Nat) :
    insertAt (j % b) (f (base + j)) (sibs f b base j)
      = (List.range b).map fun c => f (base + (j / b * b + c)) := by
  have hp := Nat.mod_lt j hb
  have hj : j / b * b + j % b = j := by rw [Nat.mul_comm]; exact Nat.div_add_mod j b
  have h : List.range b = List.range (j % b) ++ j % b :: List.range' (j % b + 1) (b - j % b - 1) := by
    have hb : b = j % b + (1 + (b - j % b - 1)) := by omega
    conv_lhs => rw [List.range_eq_range', hb, ← List.range'_append_1, Nat.add_comm 1, List.range'_succ,
      ← List.range_eq_range']
    simp
  rw [sibs, range_filter_split hp, List.map_append, insertAt,
    List.take_left' (by simp), List.drop_left' (by simp)]
  conv_rhs => rw [h]
  simp [hj]

theorem auth_length (f : Nat → E) {b : Nat} (hb : 0 < b) (k : Nat) :
    ∀ n j, (auth f b k n j).length = n * (b - 1)
  | 0, _ => by simp [auth]
  | n + 1, j => by
    rw [auth, List.length_append, sibs_length f hb, auth_length f hb k n, Nat.succ_mul, Nat.add_comm]

/-- Climbing along the honest siblings reaches the root. -/
theorem climb_auth {H : List E → Nat → E} {hgt : Nat → Nat} {b k : Nat} (hb : 0 < b) {leaves : List E}
    {f : Nat → E} (hf : IsLayout H b k leaves f) (hh : ∀ l, l < k → ∀ ns, H ns (hgt l) = H ns l) :
    ∀ n j, n ≤ k → j < b ^ n →
    climb H hgt (k - n) (f (rowStart b k (k - n) + j)) (steps b (digits b n j) (auth f b k n j))
      = f (nodes b k - 1)
  | 0, j, _, hj => by
    obtain rfl : j = 0 := by simpa using hj
    simp only [digits, steps, climb, Nat.sub_zero, Nat.add_zero]
    rw [← rowStart_top, Nat.add_sub_cancel]
  | n + 1, j, hn, hj => by
    have hj' : j / b < b ^ n := by
      rw [Nat.div_lt_iff_lt_mul hb, ← Nat.pow_succ]; exact hj
    have ih := climb_auth hb hf hh n (j / b) (by omega) hj'
    simp only [digits, auth, steps, climb]
    rw [List.take_left' (sibs_length f hb _ _), List.drop_left' (sibs_length f hb _ _),
      insertAt_sibs f hb, hh _ (by omega)]
    have hs := hf.step (k - (n + 1)) (j / b) (by omega) (by
      rw [show k - (k - (n + 1) + 1) = n by omega]; exact hj')
    rw [show k - (n + 1) + 1 = k - n by omega] at hs ⊢
    rw [← ih, hs]
    simp only [Nat.mul_comm b]

theorem honest_new (f : Nat → E) {b k : Nat} (hb : 2 ≤ b) (hk : 1 ≤ k) (i : Nat) :
    Proof.new b 0 0 none (f i :: auth f b k k i ++ [f (nodes b k - 1)]) (digits b k i)
      = .ok (honestProof f b k i) := by
  have hl : (f i :: auth f b k k i ++ [f (nodes b k - 1)]).length = 2 + (b - 1) * k := by
    simp only [List.length_append, List.length_cons, List.length_nil, auth_length f (by omega : 0 < b)]
    rw [Nat.mul_comm]; omega
  have hkb : 1 ≤ (b - 1) * k := Nat.mul_pos (by omega) hk
  unfold Proof.new
  rw [if_pos ⟨rfl, rfl⟩, ensure_true (by rw [hl]; omega), Res.ok_bind]
  have : merkleProofLemmaLen ((digits b k i).length + 1) b = .ok (2 + (b - 1) * k) := by
    unfold merkleProofLemmaLen
    rw [digits_length, subP_ok (by omega), Res.ok_bind, subP_ok (by omega), Res.ok_bind,
      Nat.add_sub_cancel]
  rw [this, Res.ok_bind, ensure_true hl]
  rfl

theorem Alg.HeightsAgree.eq {A : Alg E} {b : Nat} (h : A.HeightsAgree b) (l : Nat) (ns : List E) :
    A.nodeHash ns (l * (b - 1)) = A.nodeHash ns l := by
  rcases h with h | h
  · exact h _ _ _
  · subst h; simp

theorem honest_validates [DecidableEq E] {A : Alg E} (hA : A.LawfulReset) {b k : Nat} (hb : 2 ≤ b)
    (hh : A.HeightsAgree b) {leaves : List E} {f : Nat → E} (hf : IsLayout A.nodeHash b k leaves f)
    {i : Nat} (hi : i < b ^ k) : (honestProof f b k i).validate A b = .ok true := by
  unfold honestProof
  rw [validateBase_spec A hA hb _ _ _ _ (by
    rw [auth_length f (by omega : 0 < b), digits_length])]
  congr 1
  simp only [decide_eq_true_eq]
  refine ⟨digits_lt (by omega) _ _, ?_⟩
  have := climb_auth (hgt := fun j => j * (b - 1)) (by omega : 0 < b) hf (fun l _ ns => hh.eq l ns) k i (Nat.le_refl _) hi
  simpa [rowStart] using this

/-! ### `gen_proof` -/

theorem siblings_eq {rd : Nat → Res E} {g : Nat → E} (j : Nat) : ∀ (n k : Nat),
    (∀ c, k ≤ c → c < k + n → rd c = .ok (g c)) →
    BaseTree.siblings rd j n k = .ok (((List.range' k n).filter (· ≠ j)).map g)
  | 0, _, _ => rfl
  | n + 1, k, h => by
    have ih := siblings_eq (rd := rd) (g := g) j n (k + 1) (fun c h1 h2 => h c (by omega) (by omega))
    rw [BaseTree.siblings, List.range'_succ]
    by_cases hk : k = j
    · subst hk
      rw [if_neg (by simp), ih]
      simp
    · rw [if_pos hk, h k (Nat.le_refl _) (by omega), Res.ok_bind, ih, Res.ok_bind]
      simp [hk]

theorem siblings_sibs {rd : Nat → Res E} {f : Nat → E} {b base j : Nat}
    (h : ∀ c, c < b → rd (j / b * b + c) = .ok (f (base + (j / b * b + c)))) :
    BaseTree.siblings rd j b (j / b * b) = .ok (sibs f b base j) := by
  rw [siblings_eq (g := fun c => f (base + c)) j b _ (fun c h1 h2 => by
    have := h (c - j / b * b) (by omega)
    rwa [show j / b * b + (c - j / b * b) = c by omega] at this)]
  congr 1
  have hj : j / b * b + j % b = j := by rw [Nat.mul_comm]; exact Nat.div_add_mod j b
  rw [sibs, List.range'_eq_map_range, List.filter_map, List.map_map]
  have : ((fun x => decide (x ≠ j)) ∘ fun x => j / b * b + x) = fun x => decide (x ≠ j % b) := by
    funext x
    simp only [Function.comp_apply, decide_eq_decide]
    omega
  rw [this]
  rfl

theorem nodes_ge {b n : Nat} (hn : 1 ≤ n) (hb : 2 ≤ b) : 3 ≤ nodes b n := by
  obtain ⟨m, rfl⟩ : ∃ m, n = m + 1 := ⟨n - 1, by omega⟩
  have h1 := nodes_pos b m
  have h2 : 2 ≤ b ^ (m + 1) := le_trans hb (Nat.le_self_pow (by omega) b)
  simp only [nodes]; omega

theorem proofLoop_eq {rd : Nat → Res E} {f : Nat → E} {b k : Nat} (hb : Arity b)
    (h : ∀ i, i < nodes b k → rd i = .ok (f i)) :
    ∀ (n fuel j : Nat), n ≤ k → n < fuel → j < b ^ n →
    BaseTree.proofLoop rd b (nodes b k) fuel (rowStart b k (k - n)) (b ^ n) j
      = .ok (auth f b k n j, digits b n j)
  | n, 0, j, _, hf, _ => by omega
  | 0, fuel + 1, j, _, _, _ => by
    rw [BaseTree.proofLoop, if_neg (by have := rowStart_top b k; simp only [Nat.sub_zero]; omega)]
    rfl
  | n + 1, fuel + 1, j, hn, hf, hj => by
    have hb2 := hb.two_le
    have hj' : j / b < b ^ n := by
      rw [Nat.div_lt_iff_lt_mul (by omega), ← Nat.pow_succ]; exact hj
    have hrs := rowStart_le_nodes b k (k - (n + 1)) (by omega)
    have hn3 := nodes_ge (b := b) (n := n + 1) (by omega) hb2
    have hpn := pow_le_nodes b (n + 1)
    rw [show k - (k - (n + 1)) = n + 1 by omega] at hrs
    rw [BaseTree.proofLoop, if_pos (by omega)]
    simp only []
    rw [siblings_sibs (f := f) (base := rowStart b k (k - (n + 1))) (by
      intro c hc
      apply h
      have : j / b * b + c < b ^ (n + 1) := by
        calc j / b * b + c < j / b * b + b := by omega
          _ = (j / b + 1) * b := by ring
          _ ≤ b ^ n * b := Nat.mul_le_mul_right _ hj'
          _ = b ^ (n + 1) := (Nat.pow_succ ..).symm
      omega), Res.ok_bind]
    have ih := proofLoop_eq hb h n fuel (j / b) (by omega) (by omega) hj'
    have hrow : rowStart b k (k - (n + 1)) + b ^ (n + 1) = rowStart b k (k - n) := by
      rw [show k - n = (k - (n + 1)) + 1 by omega, rowStart]
      congr 2; omega
    rw [hrow, hb.shiftRight, hb.shiftRight, Nat.pow_succ, Nat.mul_div_cancel _ (by omega), ih, Res.ok_bind]
    rfl

/-- What `gen_proof` needs to know about a tree: its sizes, and that every node can be read. -/
structure BaseTree.Reads {S : Type} [StoreOps S E] (fs : FS) (t : BaseTree S E) (b k : Nat) (f : Nat → E) : Prop where
  leafs : t.leafs = b ^ k
  len : t.length = nodes b k
  rows : t.rowCount = k + 1
  reads : ∀ i, i < nodes b k → t.readAt fs i = .ok (f i)
  root : t.root = f (nodes b k - 1)

theorem BaseTree.IsTreeOf.exists_reads {S : Type} [StoreOps S E] {A : Alg E} {b k : Nat} {leaves : List E} {fs : FS}
    {t : BaseTree S E} (h : t.IsTreeOf A b k leaves fs) :
    ∃ f, IsLayout A.nodeHash b k leaves f ∧ t.Reads fs b k f := by
  obtain ⟨f, h1, h2, h3⟩ := h.nodes
  exact ⟨f, h1, h.leafs, h.len, h.rows, h2, h3⟩

variable [Element E]

theorem BaseTree.genProof_eq {S : Type} [StoreOps S E] {fs : FS} {t : BaseTree S E} {b k : Nat} {f : Nat → E}
    (hb : Arity b) (hk : 1 ≤ k) (h : t.Reads fs b k f) {i : Nat} (hi : i < b ^ k) :
    t.genProof b 0 0 fs i = .ok (honestProof f b k i) := by
  have hb2 := hb.two_le
  have hpn := pow_le_nodes b k
  have hkl : k < b ^ k := Nat.lt_pow_self (by omega)
  unfold BaseTree.genProof
  rw [h.leafs, h.rows, h.len, h.root, ensure_true hi, Res.ok_bind, ensure_true ((eq_nextPow2_iff _).2 (hb.pow_isPow2 k)),
    Res.ok_bind, ensure_true ((eq_nextPow2_iff _).2 hb.pow2), Res.ok_bind]
  have h1 : merkleProofLemmaLen (k + 1) b = .ok (2 + (b - 1) * k) := by
    unfold merkleProofLemmaLen
    rw [subP_ok (by omega), Res.ok_bind, subP_ok (by omega), Res.ok_bind, Nat.add_sub_cancel]
  have h2 := proofLoop_eq (fuel := nodes b k + b ^ k + 2) hb h.reads k (j := i) (Nat.le_refl _) (by omega) hi
  simp only [Nat.sub_self, rowStart] at h2
  rw [h1, Res.ok_bind, subP_ok (by omega), Res.ok_bind, ensure_true rfl, Res.ok_bind, ensure_true rfl,
    Res.ok_bind, h.reads i (by omega), Res.ok_bind, h2, Res.ok_bind]
  have hl : (f i :: auth f b k k i ++ [f (nodes b k - 1)]).length = 2 + (b - 1) * k := by
    simp only [List.length_append, List.length_cons, List.length_nil, auth_length f (by omega : 0 < b)]
    rw [Nat.mul_comm]; omega
  simp only []
  rw [ensure_true hl, Res.ok_bind, ensure_true (by rw [digits_length]; omega), Res.ok_bind]
  exact honest_new f hb2 hk i

end Verif
