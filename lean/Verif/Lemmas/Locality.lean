import Verif.Spec.Locality
import Verif.Lemmas.LevelProof
import Verif.Lemmas.WholeTrees
/-! The nodes a proof is made of. -/
set_option linter.unusedSectionVars false
namespace Verif
open Spec StoreOps

section
variable {E : Type}

/-! ### Positions -/

theorem sibs_map (f : Nat → E) (b base j : Nat) : sibs f b base j = (sibs id b base j).map f := by
  simp [sibs, List.map_map, Function.comp_def]

theorem auth_map (f : Nat → E) (b k : Nat) : ∀ n j, auth f b k n j = (auth id b k n j).map f
  | 0, _ => rfl
  | n + 1, j => by rw [auth, auth, List.map_append, ← auth_map f b k n, ← sibs_map]

/-- The positions are those of nodes of the tree below the root. -/
theorem mem_auth_lt {b k : Nat} (hb : 2 ≤ b) : ∀ {n j p : Nat}, n ≤ k → j < b ^ n →
    p ∈ auth id b k n j → rowStart b k (k - n) ≤ p ∧ p + 1 < nodes b k
  | 0, _, _, _, _, h => by simp [auth] at h
  | n + 1, j, p, hn, hj, h => by
    obtain ⟨hlt, hrow⟩ := cached_row hb hn
    have hj' : j / b < b ^ n := by
      rw [Nat.div_lt_iff_lt_mul (by omega), ← Nat.pow_succ]; exact hj
    have htop := rowStart_top b k
    have hle := rowStart_mono (b := b) (k := k) (show k - n ≤ k by omega)
    rw [auth, List.mem_append] at h
    rcases h with h | h
    · simp only [sibs, List.mem_map, List.mem_filter, List.mem_range, id] at h
      obtain ⟨c, ⟨hc, -⟩, rfl⟩ := h
      have : j / b * b + c < b ^ (n + 1) := by
        calc j / b * b + c < j / b * b + b := by omega
          _ = (j / b + 1) * b := by ring
          _ ≤ b ^ n * b := Nat.mul_le_mul_right _ hj'
          _ = b ^ (n + 1) := (Nat.pow_succ ..).symm
      omega
    · obtain ⟨h1, h2⟩ := mem_auth_lt hb (by omega) hj' h
      exact ⟨by omega, h2⟩

theorem siblings_mapM (rd : Nat → Res E) (j : Nat) : ∀ n k,
    BaseTree.siblings rd j n k = ((List.range' k n).filter (· ≠ j)).mapM rd
  | 0, _ => rfl
  | n + 1, k => by
    rw [BaseTree.siblings, List.range'_succ, siblings_mapM rd j n (k + 1)]
    by_cases hk : k = j
    · rw [if_neg (by simpa using hk), List.filter_cons_of_neg (by simpa using hk)]
    · rw [if_pos hk, List.filter_cons_of_pos (by simpa using hk), List.mapM_cons]
      rfl

theorem siblings_positions (rd : Nat → Res E) (b base j : Nat) :
    BaseTree.siblings (fun c => rd (base + c)) j b (j / b * b) = (sibs id b base j).mapM rd := by
  have hj : j / b * b + j % b = j := by rw [Nat.mul_comm]; exact Nat.div_add_mod j b
  rw [siblings_mapM, sibs, List.range'_eq_map_range, List.filter_map, List.mapM_map, List.mapM_map]
  have : ((fun x => decide (x ≠ j)) ∘ fun x => j / b * b + x) = fun x => decide (x ≠ j % b) := by
    funext x
    simp only [Function.comp_apply, decide_eq_decide]
    omega
  rw [this]
  rfl

theorem proofLoop_positions (rd : Nat → Res E) {b k : Nat} (hb : Arity b) :
    ∀ (n fuel j : Nat), n ≤ k → n < fuel →
    BaseTree.proofLoop rd b (nodes b k) fuel (rowStart b k (k - n)) (b ^ n) j
      = (do let es ← (auth id b k n j).mapM rd
            .ok (es, digits b n j))
  | _, 0, _, _, hf => by omega
  | 0, fuel + 1, j, _, _ => by
    rw [BaseTree.proofLoop, if_neg (by have := rowStart_top b k; simp only [Nat.sub_zero]; omega)]
    rfl
  | n + 1, fuel + 1, j, hn, hf => by
    have hb2 := hb.two_le
    obtain ⟨hlt, hrow⟩ := cached_row hb2 hn
    have hsh : b ^ (n + 1) >>> log2Pow2 b = b ^ n := by
      rw [hb.shiftRight, Nat.pow_succ, Nat.mul_div_cancel _ (by omega)]
    rw [BaseTree.proofLoop, if_pos hlt]
    simp only []
    rw [siblings_positions, hrow, hsh, hb.shiftRight,
      proofLoop_positions rd hb n fuel (j / b) (by omega) (by omega), auth, List.mapM_append]
    cases (sibs id b (rowStart b k (k - (n + 1))) j).mapM rd with
    | error e => rfl
    | ok xs =>
      cases (auth id b k n (j / b)).mapM rd with
      | error e => rfl
      | ok ys => rfl

theorem mapM_ok_length {α β : Type} {f : α → Res β} : ∀ {xs : List α} {ys : List β},
    xs.mapM f = .ok ys → ys.length = xs.length
  | [], ys, h => by cases h; rfl
  | x :: xs, ys, h => by
    rw [List.mapM_cons, bind_ok_iff] at h
    obtain ⟨y, -, h⟩ := h
    rw [bind_ok_iff] at h
    obtain ⟨zs, h2, h⟩ := h
    cases h
    rw [List.length_cons, List.length_cons, mapM_ok_length h2]

theorem mapM_congr {α β : Type} {f g : α → Res β} : ∀ {xs : List α},
    (∀ x ∈ xs, f x = g x) → xs.mapM f = xs.mapM g
  | [], _ => rfl
  | x :: xs, h => by
    rw [List.mapM_cons, List.mapM_cons, h x (by simp), mapM_congr fun y hy => h y (by simp [hy])]

variable [Element E]

/-- A proof is made of the nodes at `proofPositions`, read one after the other, and the root. -/
theorem BaseTree.genProof_positions {S : Type} [StoreOps S E] {b k : Nat} (hb : Arity b) (hk : 1 ≤ k)
    {fs : FS} {t : BaseTree S E} (ht : t.FullSizes b k) {i : Nat} (hi : i < b ^ k) :
    t.genProof b 0 0 fs i = (do
      let es ← (proofPositions b k i).mapM (t.readAt fs)
      .ok (.base 0 0 (es ++ [t.root]) (digits b k i))) := by
  have hb2 := hb.two_le
  have hkl : k < b ^ k := Nat.lt_pow_self (by omega)
  rw [genProof_unfold hb hk ht.leafs ht.rows ht.len hi]
  have h2 := proofLoop_positions (t.readAt fs) hb (k := k) k (nodes b k + b ^ k + 2) i (Nat.le_refl _) (by omega)
  simp only [Nat.sub_self, rowStart] at h2
  rw [h2, proofPositions, List.mapM_cons]
  cases t.readAt fs i with
  | error e => rfl
  | ok x =>
    rw [Res.ok_bind, Res.ok_bind]
    cases hm : (auth id b k k i).mapM (t.readAt fs) with
    | error e => rfl
    | ok ys =>
      have hl := mapM_ok_length hm
      rw [auth_length id (by omega : 0 < b)] at hl
      simp only [Res.ok_bind]
      have hl2 : (x :: ys ++ [t.root]).length = 2 + (b - 1) * k := by
        simp only [List.length_append, List.length_cons, List.length_nil, hl]
        rw [Nat.mul_comm]; omega
      rw [ensure_true hl2, Res.ok_bind, ensure_true (digits_length _ _ _), Res.ok_bind]
      have hkb : 1 ≤ (b - 1) * k := Nat.mul_pos (by omega) hk
      unfold Proof.new
      rw [if_pos ⟨rfl, rfl⟩, ensure_true (by rw [hl2]; omega), Res.ok_bind]
      have : merkleProofLemmaLen ((digits b k i).length + 1) b = .ok (2 + (b - 1) * k) := by
        unfold merkleProofLemmaLen
        rw [digits_length, subP_ok (by omega), Res.ok_bind, subP_ok (by omega), Res.ok_bind,
          Nat.add_sub_cancel]
      rw [this, Res.ok_bind, ensure_true hl2]
      rfl

/-! ### Cached proofs -/

/-- The cached-proof loop reads from the tree only the positions of the proof that are leaves or lie in
the rows it takes as cached. -/
theorem cachedProofLoop_local {rd rd' prd : Nat → Res E} {b k dw r : Nat} (hb : Arity b) :
    ∀ (n fuel j pb sw ss : Nat), n ≤ k →
    (∀ p ∈ auth id b k n j, p < dw ∨ r ≤ p → rd' p = rd p) →
    BaseTree.cachedProofLoop rd' prd b (nodes b k) dw r fuel (rowStart b k (k - n)) (b ^ n) pb sw ss j
      = BaseTree.cachedProofLoop rd prd b (nodes b k) dw r fuel (rowStart b k (k - n)) (b ^ n) pb sw ss j
  | _, 0, _, _, _, _, _, _ => rfl
  | 0, fuel + 1, j, _, _, _, _, _ => by
    have : ¬ rowStart b k (k - 0) + 1 < nodes b k := by
      have := rowStart_top b k; simp only [Nat.sub_zero]; omega
    rw [BaseTree.cachedProofLoop, if_neg this, BaseTree.cachedProofLoop, if_neg this]
  | n + 1, fuel + 1, j, pb, sw, ss, hn, h => by
    have hb2 := hb.two_le
    obtain ⟨hlt, hrow⟩ := cached_row hb2 hn
    have hsh : b ^ (n + 1) >>> log2Pow2 b = b ^ n := by
      rw [hb.shiftRight, Nat.pow_succ, Nat.mul_div_cancel _ (by omega)]
    rw [BaseTree.cachedProofLoop, if_pos hlt, BaseTree.cachedProofLoop, if_pos hlt]
    simp only []
    rw [hrow, hsh, hb.shiftRight j, cachedProofLoop_local (rd := rd) (rd' := rd') hb n fuel (j / b) _ _ _ (by omega)
      fun p hp => h p (by rw [auth, List.mem_append]; exact .inr hp)]
    rw [siblings_congr b (j / b * b) fun c h1 h2 h3 => ?_]
    split
    · rename_i hin
      refine h _ ?_ hin
      rw [auth, List.mem_append]
      refine .inl ?_
      simp only [sibs, List.mem_map, List.mem_filter, List.mem_range, id, decide_eq_true_eq]
      have hj : j / b * b + j % b = j := by rw [Nat.mul_comm]; exact Nat.div_add_mod j b
      exact ⟨c - j / b * b, ⟨by omega, by omega⟩, by omega⟩
    · rfl

theorem M.Twin.mEnsure {fs fs' : FS} {p q : Prop} [Decidable p] [Decidable q] (h : p ↔ q) {msg : String} :
    M.Twin fs fs' (Verif.mEnsure p msg) (Verif.mEnsure q msg) := by
  by_cases hp : p
  · exact ⟨.ok (), mEnsure_true hp _ _, mEnsure_true (h.1 hp) _ _⟩
  · exact ⟨_, mEnsure_false hp _ _, mEnsure_false (fun hq => hp (h.2 hq)) _ _⟩

/-- A cached proof depends on the leaf segment of the leaf, and on the nodes at `proofPositions` that are
leaves or lie in the rows taken as cached. -/
theorem BaseTree.genCachedProof_local {S S' : Type} [StoreOps S E] [StoreOps S' E] [FloatRows] {b k : Nat} (hb : Arity b)
    (hk : 1 ≤ k) (hf : FloatRows.ExactAt b k) {t : BaseTree S E} {t' : BaseTree S' E} {fs fs' : FS}
    (ht : t.FullSizes b k) (ht' : t'.FullSizes b k) (ho : t'.root = t.root)
    {rows : Option Nat} {r : Nat} (hr : r = BaseTree.effectiveDiscard (b ^ k) b rows) {i : Nat}
    (hi : i < b ^ k)
    (h1 : ∀ p ∈ proofPositions b k i, p < b ^ k ∨ rowStart b k (r + 1) ≤ p → t'.readAt fs' p = t.readAt fs p)
    (h2 : ∀ buf, StoreOps.readRangeInto (E := E) fs' t'.store (i / b ^ (r + 1) * b ^ (r + 1))
        (i / b ^ (r + 1) * b ^ (r + 1) + b ^ (r + 1)) buf
      = StoreOps.readRangeInto (E := E) fs t.store (i / b ^ (r + 1) * b ^ (r + 1))
        (i / b ^ (r + 1) * b ^ (r + 1) + b ^ (r + 1)) buf)
    (A : Alg E) (σ : Sched) :
    M.Twin fs fs' (t.genCachedProof A b 0 0 σ i rows) (t'.genCachedProof A b 0 0 σ i rows) := by
  have hb2 := hb.two_le
  have hrk := effectiveDiscard_lt hk hf rows
  rw [← hr] at hrk
  have hpow : 0 < b ^ (k - 1 - r) := Nat.pow_pos (by omega)
  have hW : b ^ k / b ^ (k - 1 - r) = b ^ (r + 1) := by
    rw [Nat.pow_div (by omega) (by omega)]; congr 1; omega
  have hWpos : 0 < b ^ (r + 1) := Nat.pow_pos (by omega)
  have hcis : nodes b k - nodes b (k - 1 - r) = rowStart b k (r + 1) := by
    have := LevelCacheStore.rowStart_cache (b := b) hrk
    omega
  unfold BaseTree.genCachedProof
  simp only [ht.leafs, ht'.leafs, ht.rows, ht'.rows, ← hr]
  have hlf := (merkleTreeLeafs_ok_iff hb (nodes b (k - 1 - r)) _).2 ⟨k - 1 - r, rfl, Or.inl rfl⟩
  simp only [merkleTreeCacheSize_pow hb hk hf hrk, hlf, M.ofRes_ok_bind, divP_ok hpow, hW, divP_ok hWpos]
  refine .bind (.mEnsure (by rw [ht.leafs, ht'.leafs])) fun _ => .bind (.mEnsure (by rw [ht.leafs, ht'.leafs])) fun _ =>
    .bind (.steady (.ofRes _)) fun _ => .bind (.steady (.mEnsure _ _)) fun _ => .bind (.steady (.mEnsure _ _)) fun _ =>
    .bind (.steady (.ofRes _)) fun _ => .bind (.get (h2 _).symm) fun _ =>
    .bind (.steady (.ofRes _)) fun _ => .bind (.steady (.mEnsure _ _)) fun _ => .bind (.steady (.ofRes _)) fun _ =>
    .bind (.steady (BaseTree.buildPartialTree_steady _ _ _ _ _ _)) fun pt => .bind (.steady (.mEnsure _ _)) fun _ =>
    .get ?_
  unfold BaseTree.genProofWithPartialTree
  rw [ht.leafs, ht'.leafs, ht.rows, ht'.rows, ht.len, ht'.len, ho]
  dsimp only
  rw [merkleTreeLen_pow hb hk, merkleTreeCacheSize_pow hb hk hf hrk]
  simp only [Res.ok_bind]
  rw [subP_ok (by have := nodes_mono b (show k - 1 - r ≤ k by omega); omega), hcis,
    h1 i (by simp [proofPositions]) (.inl hi)]
  have h3 : ∀ fuel pb sw ss, _ := fun fuel pb sw ss => cachedProofLoop_local (rd := t.readAt fs) (rd' := t'.readAt fs')
    (prd := pt.readAt fs) (dw := b ^ k) (r := rowStart b k (r + 1)) hb k fuel i pb sw ss (Nat.le_refl _)
    fun p hp => h1 p (by rw [proofPositions]; exact List.mem_cons_of_mem _ hp)
  have h0 : rowStart b k 0 = 0 := rfl
  simp only [Nat.sub_self, h0] at h3
  have h4 : pt.readAt fs' = pt.readAt fs := rfl
  simp only [Res.ok_bind, h4, h3]

/-! ### Compound trees -/

section
variable {C : Type} {leafsOf : C → Nat}

theorem holder_even {m : Nat} (hm : 0 < m) : ∀ {cs : List C} {i : Nat}, (∀ c ∈ cs, leafsOf c = m) →
    holder leafsOf cs i = (cs[i / m]?).map fun c => (c, i % m)
  | [], i, _ => by simp [holder]
  | c :: cs, i, h => by
    rw [holder, h c (by simp)]
    by_cases hi : i < m
    · rw [if_pos hi, Nat.div_eq_of_lt hi, Nat.mod_eq_of_lt hi]; rfl
    · rw [if_neg hi, holder_even hm fun c hc => h c (by simp [hc])]
      have : i / m = (i - m) / m + 1 := by
        rw [← Nat.add_div_right _ hm, Nat.sub_add_cancel (by omega)]
      rw [this, List.getElem?_cons_succ, Nat.mod_eq_sub_mod (by omega : m ≤ i)]

theorem holder_append {cs ds : List C} : ∀ {i : Nat},
    holder leafsOf (cs ++ ds) i = if i < (cs.map leafsOf).sum then holder leafsOf cs i
      else holder leafsOf ds (i - (cs.map leafsOf).sum) := by
  induction cs with
  | nil => intro i; simp
  | cons c cs ih =>
    intro i
    rw [List.cons_append, holder, holder, ih, List.map_cons, List.sum_cons]
    by_cases h1 : i < leafsOf c
    · rw [if_pos h1, if_pos h1, if_pos (by omega)]
    · rw [if_neg h1, if_neg h1, Nat.sub_sub]
      congr 1
      exact propext ⟨fun h => by omega, fun h => by omega⟩

theorem holder_flatMap {D : Type} {g : D → List C} {sizeOf : D → Nat} : ∀ {ds : List D} {i : Nat},
    (∀ d ∈ ds, ((g d).map leafsOf).sum = sizeOf d) →
    holder leafsOf (ds.flatMap g) i = (holder sizeOf ds i).bind fun x => holder leafsOf (g x.1) x.2
  | [], i, _ => rfl
  | d :: ds, i, h => by
    rw [List.flatMap_cons, holder_append, h d (by simp), holder]
    by_cases h1 : i < sizeOf d
    · rw [if_pos h1, if_pos h1]; rfl
    · rw [if_neg h1, if_neg h1, holder_flatMap fun d hd => h d (by simp [hd])]

namespace Node
variable {E : Type} {t : Node C E} {arity i j : Nat} {c : C}

theorem Even.locate (h : t.Even leafsOf arity) (hc : holder leafsOf t.children i = some (c, j)) :
    i < t.leafs ∧ 0 < arity ∧ divP t.leafs arity = .ok (leafsOf c) ∧ 0 < leafsOf c ∧
      t.children[i / leafsOf c]? = some c ∧ j = i % leafsOf c := by
  obtain ⟨hn, m, hm, hl, hall⟩ := h
  rw [holder_even hm hall, Option.map_eq_some_iff] at hc
  obtain ⟨c', hc', he⟩ := hc
  obtain ⟨rfl, rfl⟩ := Prod.mk.inj he
  have hcm := hall c' (List.mem_of_getElem? hc')
  obtain ⟨hlt, -⟩ := List.getElem?_eq_some_iff.1 hc'
  rw [hn] at hlt
  have ha : 0 < arity := by have := Nat.zero_le (i / m); omega
  rw [hcm]
  refine ⟨?_, ha, ?_, hm, hc', rfl⟩
  · rw [hl]; exact (Nat.div_lt_iff_lt_mul hm).1 hlt
  · rw [divP_ok ha, hl, Nat.mul_div_cancel_left _ ha]

variable {C' : Type} {leafsOf' : C' → Nat} {g : C → C'} (hg : ∀ c, leafsOf' (g c) = leafsOf c)
include hg

theorem readAt_local (h : t.Even leafsOf arity) (hc : holder leafsOf t.children i = some (c, j))
    {rd : C → Nat → Res E} {rd' : C' → Nat → Res E} (hrd : rd' (g c) j = rd c j) :
    (t.mapChildren g).readAt leafsOf' rd' arity i = t.readAt leafsOf rd arity i := by
  obtain ⟨-, -, h2, h3, h4, rfl⟩ := h.locate hc
  have h4' : (t.mapChildren g).children[i / leafsOf c]? = some (g c) := by
    simp [mapChildren, h4]
  unfold readAt Node.locate
  have hlen : (t.mapChildren g).children.length = t.children.length := by simp [mapChildren]
  have hle : (t.mapChildren g).leafs = t.leafs := rfl
  rw [hlen, hle, h2]
  simp only [Res.ok_bind, divP_ok h3, idxP, h4, h4', modP, hg, Nat.pos_iff_ne_zero.1 h3, if_false, hrd]

theorem genSubTreeProof_local (h : t.Even leafsOf arity) (hc : holder leafsOf t.children i = some (c, j))
    {rootOf : C → E} {rootOf' : C' → E} (hroot : ∀ c, rootOf' (g c) = rootOf c)
    {gen : C → Nat → Res (Proof E)} {gen' : C' → Nat → Res (Proof E)} (hgen : gen' (g c) j = gen c j)
    (b pTop pSub : Nat) :
    (t.mapChildren g).genSubTreeProof leafsOf' rootOf' gen' b pTop pSub arity i
      = t.genSubTreeProof leafsOf rootOf gen b pTop pSub arity i := by
  obtain ⟨-, -, h2, h3, h4, rfl⟩ := h.locate hc
  have h4' : (t.mapChildren g).children[i / leafsOf c]? = some (g c) := by
    simp [mapChildren, h4]
  unfold genSubTreeProof
  have hlen : (t.mapChildren g).children.length = t.children.length := by simp [mapChildren]
  have hle : (t.mapChildren g).leafs = t.leafs := rfl
  have hlem : ∀ ti, layerLemma rootOf' (t.mapChildren g) ti arity 0 = layerLemma rootOf t ti arity 0 :=
    fun ti => layerLemma_congr (R := fun c d => rootOf' d = rootOf c)
      (forall₂_map_right (g := g) fun c _ => hroot c) (fun _ _ h => h) rfl ti _ _
  rw [hlen, hle, h2]
  simp only [Res.ok_bind, divP_ok h3, idxP, h4, h4', modP, hg, Nat.pos_iff_ne_zero.1 h3, if_false, hgen, hlem]

theorem genCachedLayerProof_local (h : t.Even leafsOf arity) (hc : holder leafsOf t.children i = some (c, j))
    {rootOf : C → E} {rootOf' : C' → E} (hroot : ∀ c, rootOf' (g c) = rootOf c) {fs fs' : FS}
    {gen : C → Nat → M (Proof E)} {gen' : C' → Nat → M (Proof E)}
    (hgen : M.Twin fs fs' (gen c j) (gen' (g c) j)) (b pTop pSub : Nat) :
    M.Twin fs fs' (t.genCachedLayerProof leafsOf rootOf gen b pTop pSub arity i)
      ((t.mapChildren g).genCachedLayerProof leafsOf' rootOf' gen' b pTop pSub arity i) := by
  obtain ⟨-, -, h2, h3, h4, rfl⟩ := h.locate hc
  have h4' : (t.mapChildren g).children[i / leafsOf c]? = some (g c) := by
    simp [mapChildren, h4]
  have hle : (t.mapChildren g).leafs = t.leafs := rfl
  have hlem : ∀ ti, layerLemma rootOf' (t.mapChildren g) ti arity 0 = layerLemma rootOf t ti arity 0 :=
    fun ti => layerLemma_congr (R := fun c d => rootOf' d = rootOf c)
      (forall₂_map_right (g := g) fun c _ => hroot c) (fun _ _ h => h) rfl ti _ _
  unfold genCachedLayerProof Node.locate
  rw [hle, h2]
  simp only [Res.ok_bind, divP_ok h3, idxP, h4, h4', modP, hg, Nat.pos_iff_ne_zero.1 h3, if_false, hlem,
    M.ofRes_ok_bind]
  exact .bind (.steady (.mEnsure _ _)) fun _ => .bind (.steady (.mEnsure _ _)) fun _ => .bind hgen fun _ =>
    .bind (.steady (.ofRes _)) fun _ => .steady (.ofRes _)

end Node
end

section
variable {S S' : Type} {f : S → S'}

theorem Node.Even.sum {C : Type} {leafsOf : C → Nat} {arity : Nat} {t : Node C E} (h : t.Even leafsOf arity) :
    (t.children.map leafsOf).sum = t.leafs := by
  obtain ⟨hn, m, hm, hl, hall⟩ := h
  rw [hl, ← hn, List.map_congr_left hall]
  simp

theorem Tree1.Shaped.sum {sub : Nat} : ∀ {t : Tree1 S E}, t.Shaped sub →
    (t.bases.map BaseTree.leafs).sum = t.leafs
  | .base t, _ => by simp [Tree1.bases, Tree1.leafs]
  | .sub t, h => by
    have : t.Even BaseTree.leafs sub := h
    exact this.sum

theorem Tree1.leafs_mapStore : ∀ (t : Tree1 S E), (t.mapStore f).leafs = t.leafs
  | .base _ => rfl
  | .sub _ => rfl
theorem Tree1.root_mapStore : ∀ (t : Tree1 S E), (t.mapStore f).root = t.root
  | .base _ => rfl
  | .sub _ => rfl

theorem holder_lt {C : Type} {leafsOf : C → Nat} : ∀ {cs : List C} {i j : Nat} {c : C},
    holder leafsOf cs i = some (c, j) → j < leafsOf c
  | [], _, _, _, h => by cases h
  | d :: cs, i, j, c, h => by
    rw [holder] at h
    split at h
    · cases h; assumption
    · exact holder_lt h

theorem holder_single {C : Type} {leafsOf : C → Nat} {t c : C} {i j : Nat} (h : holder leafsOf [t] i = some (c, j)) :
    c = t ∧ j = i := by
  rw [holder, holder] at h
  split at h
  · cases h; exact ⟨rfl, rfl⟩
  · cases h

variable [StoreOps S E] [StoreOps S' E] {fs fs' : FS} {sub top i j : Nat} {u : BaseTree S E}

/-! An element or a proof of a whole tree depends on the base tree that holds the leaf only. -/

theorem Tree1.readAt_local : ∀ {t : Tree1 S E}, t.Shaped sub → holder BaseTree.leafs t.bases i = some (u, j) →
    (u.mapStore f).readAt fs' j = u.readAt fs j → (t.mapStore f).readAt sub fs' i = t.readAt sub fs i
  | .base t, _, hu, h => by obtain ⟨rfl, rfl⟩ := holder_single hu; exact h
  | .sub t, ht, hu, h => Node.readAt_local (leafsOf' := BaseTree.leafs) (g := BaseTree.mapStore f) (fun _ => rfl) ht hu h

theorem Tree1.genProof_local {b : Nat} : ∀ {t : Tree1 S E}, t.Shaped sub →
    holder BaseTree.leafs t.bases i = some (u, j) →
    (u.mapStore f).genProof b 0 0 fs' j = u.genProof b 0 0 fs j →
    (t.mapStore f).genProof b sub fs' i = t.genProof b sub fs i
  | .base t, ht, hu, h => by
    obtain ⟨rfl, rfl⟩ := holder_single hu
    obtain rfl : sub = 0 := ht
    exact h
  | .sub t, ht, hu, h => Node.genSubTreeProof_local (leafsOf' := BaseTree.leafs) (g := BaseTree.mapStore f)
      (fun _ => rfl) ht hu (rootOf' := BaseTree.root) (fun _ => rfl) h _ _ _

theorem Tree1.genCachedProof_local [FloatRows] {A : Alg E} {b : Nat} {σ : Sched} {rows : Option Nat} :
    ∀ {t : Tree1 S E}, t.Shaped sub → holder BaseTree.leafs t.bases i = some (u, j) →
    M.Twin fs fs' (u.genCachedProof A b 0 0 σ j rows) ((u.mapStore f).genCachedProof A b 0 0 σ j rows) →
    M.Twin fs fs' (t.genCachedProof A b sub σ i rows) ((t.mapStore f).genCachedProof A b sub σ i rows)
  | .base t, ht, hu, h => by
    obtain ⟨rfl, rfl⟩ := holder_single hu
    obtain rfl : sub = 0 := ht
    exact h
  | .sub t, ht, hu, h => Node.genCachedLayerProof_local (leafsOf := BaseTree.leafs) (rootOf := BaseTree.root) (leafsOf' := BaseTree.leafs) (g := BaseTree.mapStore f)
      (fun _ => rfl) ht hu (rootOf' := BaseTree.root) (fun _ => rfl)
      (gen := fun c i => c.genCachedProof A b 0 0 σ i rows)
      (gen' := fun c i => c.genCachedProof A b 0 0 σ i rows) h _ _ _

theorem Tree2.Shaped.holder_top {t : Node (Tree1 S E) E} (ht : (Tree2.top t).Shaped sub top)
    (hu : holder BaseTree.leafs (Tree2.top t).bases i = some (u, j)) :
    ∃ c l, holder Tree1.leafs t.children i = some (c, l) ∧ c.Shaped sub ∧
      holder BaseTree.leafs c.bases l = some (u, j) := by
  obtain ⟨h1, h2⟩ : t.Even Tree1.leafs top ∧ ∀ c ∈ t.children, c.Shaped sub := ht
  rw [Tree2.bases, holder_flatMap (sizeOf := Tree1.leafs) fun c hc => (h2 c hc).sum, Option.bind_eq_some_iff] at hu
  obtain ⟨⟨c, l⟩, h3, h4⟩ := hu
  obtain ⟨-, -, -, -, h5, -⟩ := h1.locate h3
  exact ⟨c, l, h3, h2 c (List.mem_of_getElem? h5), h4⟩

theorem Tree2.readAt_local : ∀ {t : Tree2 S E}, t.Shaped sub top → holder BaseTree.leafs t.bases i = some (u, j) →
    (u.mapStore f).readAt fs' j = u.readAt fs j → (t.mapStore f).readAt sub top fs' i = t.readAt sub top fs i
  | .base t, _, hu, h => by obtain ⟨rfl, rfl⟩ := holder_single hu; exact h
  | .sub t, ht, hu, h => Node.readAt_local (leafsOf' := BaseTree.leafs) (g := BaseTree.mapStore f) (fun _ => rfl) ht hu h
  | .top t, ht, hu, h => by
    obtain ⟨c, l, h1, h2, h3⟩ := ht.holder_top hu
    exact Node.readAt_local (leafsOf' := Tree1.leafs) (g := Tree1.mapStore f) Tree1.leafs_mapStore ht.1 h1
      (Tree1.readAt_local h2 h3 h)

theorem Tree2.genProof_local {b : Nat} : ∀ {t : Tree2 S E}, t.Shaped sub top →
    holder BaseTree.leafs t.bases i = some (u, j) →
    (u.mapStore f).genProof b 0 0 fs' j = u.genProof b 0 0 fs j →
    (t.mapStore f).genProof b sub top fs' i = t.genProof b sub top fs i
  | .base t, ht, hu, h => by
    obtain ⟨rfl, rfl⟩ := holder_single hu
    obtain ⟨rfl, rfl⟩ : sub = 0 ∧ top = 0 := ht
    exact h
  | .sub t, ht, hu, h => Node.genSubTreeProof_local (leafsOf' := BaseTree.leafs) (g := BaseTree.mapStore f)
      (fun _ => rfl) ht hu (rootOf' := BaseTree.root) (fun _ => rfl) h _ _ _
  | .top t, ht, hu, h => by
    obtain ⟨c, l, h1, h2, h3⟩ := ht.holder_top hu
    exact Node.genSubTreeProof_local (leafsOf' := Tree1.leafs) (g := Tree1.mapStore f)
      Tree1.leafs_mapStore ht.1 h1 (rootOf' := Tree1.root) Tree1.root_mapStore (Tree1.genProof_local h2 h3 h) _ _ _

theorem Tree2.genCachedProof_local [FloatRows] {A : Alg E} {b : Nat} {σ : Sched} {rows : Option Nat} :
    ∀ {t : Tree2 S E}, t.Shaped sub top → holder BaseTree.leafs t.bases i = some (u, j) →
    M.Twin fs fs' (u.genCachedProof A b 0 0 σ j rows) ((u.mapStore f).genCachedProof A b 0 0 σ j rows) →
    M.Twin fs fs' (t.genCachedProof A b sub top σ i rows) ((t.mapStore f).genCachedProof A b sub top σ i rows)
  | .base t, ht, hu, h => by
    obtain ⟨rfl, rfl⟩ := holder_single hu
    obtain ⟨rfl, rfl⟩ : sub = 0 ∧ top = 0 := ht
    exact h
  | .sub t, ht, hu, h => Node.genCachedLayerProof_local (leafsOf := BaseTree.leafs) (rootOf := BaseTree.root) (leafsOf' := BaseTree.leafs) (g := BaseTree.mapStore f)
      (fun _ => rfl) ht hu (rootOf' := BaseTree.root) (fun _ => rfl)
      (gen := fun c i => c.genCachedProof A b 0 0 σ i rows)
      (gen' := fun c i => c.genCachedProof A b 0 0 σ i rows) h _ _ _
  | .top t, ht, hu, h => by
    obtain ⟨c, l, h1, h2, h3⟩ := ht.holder_top hu
    exact Node.genCachedLayerProof_local (leafsOf' := Tree1.leafs) (g := Tree1.mapStore f)
      Tree1.leafs_mapStore ht.1 h1 (rootOf' := Tree1.root) Tree1.root_mapStore
      (gen := fun c i => c.genCachedProof A b sub σ i rows)
      (gen' := fun c i => c.genCachedProof A b sub σ i rows) (Tree1.genCachedProof_local h2 h3 h) _ _ _

end

/-! ### Trees the constructors return -/

theorem Node.Even.of_assemble {C : Type} {A : Alg E} {leafsOf lenOf rowsOf : C → Nat} {rootOf : C → E}
    {arity n : Nat} {cs : List C} {t : Node C E} (hn0 : 0 < n)
    (h : assemble A leafsOf lenOf rowsOf rootOf arity cs = .ok t) (hn : ∀ c ∈ cs, leafsOf c = n) :
    t.Even leafsOf arity := by
  obtain ⟨c0, h0, h1, -, -, rfl⟩ := Node.assemble_ok_iff.1 h
  refine ⟨h1, n, hn0, ?_, hn⟩
  simp only
  rw [List.map_congr_left hn, ← h1]
  simp

/-! ### Reads of part of a file -/

theorem FS.readExactAt_region {fs fs' : FS} {g : FileId} {off n : Nat}
    (h : (fs'.file g).map (region · off n) = (fs.file g).map (region · off n)) :
    fs'.readExactAt g off n = fs.readExactAt g off n := by
  unfold FS.readExactAt FS.contents
  cases h1 : fs.file g <;> cases h2 : fs'.file g <;> rw [h1, h2] at h
  · cases h
  · cases h
  · rename_i bs bs'
    simp only [Option.map_some, Option.some.injEq] at h
    simp only [Res.ok_bind]
    by_cases hn : n = 0
    · rw [if_pos hn, if_pos hn]
    · have hlen := congrArg List.length h
      simp only [region, List.length_take, List.length_drop] at hlen
      have : (off + n ≤ bs'.length) = (off + n ≤ bs.length) := propext ⟨fun _ => by omega, fun _ => by omega⟩
      rw [if_neg hn, if_neg hn, h]
      simp only [this]

theorem DiskStore.readAt_region {fs fs' : FS} {s : DiskStore E} {p : Nat}
    (h : (fs'.file s.file).map (region · (p * Element.byteLen E) (Element.byteLen E))
      = (fs.file s.file).map (region · (p * Element.byteLen E) (Element.byteLen E))) :
    s.readAt fs' p = s.readAt fs p := by
  unfold DiskStore.readAt DiskStore.storeReadRange
  simp only [subP_ok (Nat.le_add_right _ _), Res.ok_bind, Nat.add_sub_cancel_left, FS.readExactAt_region h]

theorem MmapStore.readAt_region {fs fs' : FS} {s : MmapStore E} {p : Nat} (h0 : 0 < Element.byteLen E)
    (h : (fs'.file s.file).map (region · (p * Element.byteLen E) (Element.byteLen E))
      = (fs.file s.file).map (region · (p * Element.byteLen E) (Element.byteLen E))) :
    s.readAt fs' p = s.readAt fs p := by
  have key : s.mapRead fs' (p * Element.byteLen E) (p * Element.byteLen E + Element.byteLen E)
      = s.mapRead fs (p * Element.byteLen E) (p * Element.byteLen E + Element.byteLen E) := by
    unfold MmapStore.mapRead
    cases s.map with
    | none => rfl
    | some n =>
      simp only
      split
      · unfold FS.contents
        cases h1 : fs.file s.file <;> cases h2 : fs'.file s.file <;> rw [h1, h2] at h
        · cases h
        · cases h
        · rename_i bs bs'
          simp only [Option.map_some, Option.some.injEq] at h
          simp only [Res.ok_bind, Nat.add_sub_cancel_left]
          have hlen := congrArg List.length h
          simp only [region, List.length_take, List.length_drop] at hlen
          have : (p * Element.byteLen E + Element.byteLen E ≤ bs'.length)
              = (p * Element.byteLen E + Element.byteLen E ≤ bs.length) :=
            propext ⟨fun _ => by omega, fun _ => by omega⟩
          rw [h]
          simp only [this]
      · rfl
  unfold MmapStore.readAt
  simp only [key]

end
end Verif
