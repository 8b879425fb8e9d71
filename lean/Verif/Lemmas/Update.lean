import Verif.Spec.Update
import Verif.Lemmas.Locality
/-! What changes in a tree when a leaf changes. -/
set_option linter.unusedSectionVars false
namespace Verif
open Spec

theorem rowStart_add_lt (b k l j : Nat) (hl : l ≤ k) (hj : j < b ^ (k - l)) : rowStart b k l + j < nodes b k := by
  have := rowStart_le_nodes b k l hl
  have := pow_le_nodes b (k - l)
  omega

section
variable {E : Type} {H : List E → Nat → E} {b k : Nat} {xs ys : List E} {f g : Nat → E}

/-- A node depends on the leaves below it only. -/
theorem layout_local (hb : 0 < b) (hf : IsLayout H b k xs f) (hg : IsLayout H b k ys g) : ∀ (l j : Nat), l ≤ k →
    j < b ^ (k - l) → (∀ d, d / b ^ l = j → xs[d]? = ys[d]?) →
    f (rowStart b k l + j) = g (rowStart b k l + j)
  | 0, j, _, hj, h => by
    have h1 : j < xs.length := by rw [hf.count]; exact hj
    have h2 : j < ys.length := by rw [hg.count]; exact hj
    have := h j (by simp)
    rw [List.getElem?_eq_getElem h1, List.getElem?_eq_getElem h2, Option.some.injEq] at this
    have e1 := hf.leaf j h1
    have e2 := hg.leaf j h2
    simp only [rowStart, Nat.zero_add]
    rw [e1, e2, this]
  | l + 1, j, hl, hj, h => by
    rw [hf.step l j (by omega) hj, hg.step l j (by omega) hj]
    congr 1
    refine List.map_congr_left fun c hc => ?_
    have hc := List.mem_range.1 hc
    refine layout_local hb hf hg l (b * j + c) (by omega) ?_ fun d hd => h d ?_
    · have : k - l = k - (l + 1) + 1 := by omega
      rw [this, Nat.pow_succ, Nat.mul_comm _ b]
      calc b * j + c < b * (j + 1) := by rw [Nat.mul_succ]; omega
        _ ≤ _ := Nat.mul_le_mul_left _ hj
    · rw [Nat.pow_succ, ← Nat.div_div_eq_div_mul, hd, Nat.mul_add_div hb, Nat.div_eq_of_lt hc, Nat.add_zero]

/-- If the leaves agree except for leaf `i`, the nodes agree except on its path. -/
theorem layout_off_path (hb : 0 < b) (hf : IsLayout H b k xs f) (hg : IsLayout H b k ys g) {i : Nat}
    (h : ∀ d, d ≠ i → xs[d]? = ys[d]?) {p : Nat} (hp : p < nodes b k) (hi : p ∉ pathPositions b k i) :
    f p = g p := by
  obtain ⟨l, j, hl, hj, rfl⟩ := row_of_pos b k p hp
  refine layout_local hb hf hg l j hl hj fun d hd => h d fun hdi => hi ?_
  rw [pathPositions, List.mem_map]
  exact ⟨l, List.mem_range.2 (by omega), by rw [← hdi, hd]⟩

/-- Where two rows of siblings of `j` agree if the trees agree off the path of `i`. -/
theorem sibs_agree {base i j : Nat} (hb : 0 < b) (h : ∀ c, c / b = j / b → c ≠ i → f (base + c) = g (base + c)) :
    (i / b ≠ j / b ∨ i = j → sibs f b base j = sibs g b base j) ∧
      ∃ m, AgreeBut m (sibs f b base j) (sibs g b base j) := by
  have hd : ∀ c, c < b → (j / b * b + c) / b = j / b := fun c hc => by
    rw [Nat.mul_comm, Nat.mul_add_div hb, Nat.div_eq_of_lt hc, Nat.add_zero]
  have hjj : j / b * b + j % b = j := by rw [Nat.mul_comm]; exact Nat.div_add_mod j b
  have hii : i / b * b + i % b = i := by rw [Nat.mul_comm]; exact Nat.div_add_mod i b
  constructor
  · intro hij
    unfold sibs
    refine List.map_congr_left fun c hc => ?_
    rw [List.mem_filter, List.mem_range, decide_eq_true_eq] at hc
    refine h _ (hd c hc.1) fun he => ?_
    rcases hij with hij | rfl
    · exact hij (by rw [← he, hd c hc.1])
    · exact hc.2 (by omega)
  · -- the siblings are distinct, so at most one of them is `i`
    set L := ((List.range b).filter (· ≠ j % b)) with hL
    have hnd : L.Nodup := List.nodup_range.sublist List.filter_sublist
    refine ⟨L.idxOf (i % b), by simp [sibs], fun n hn => ?_⟩
    unfold sibs
    rw [← hL, List.getElem?_map, List.getElem?_map]
    cases hc : L[n]? with
    | none => rfl
    | some c =>
      have hcL := List.mem_of_getElem? hc
      rw [hL, List.mem_filter, List.mem_range] at hcL
      simp only [Option.map_some, Option.some.injEq]
      refine h _ (hd c hcL.1) fun he => hn ?_
      have : c = i % b := by rw [← he, Nat.add_comm, Nat.mul_comm, Nat.add_mul_mod_self_left, Nat.mod_eq_of_lt hcL.1]
      obtain ⟨hlt, hcn⟩ := List.getElem?_eq_some_iff.1 hc
      rw [← this, ← hcn, hnd.idxOf_getElem]

theorem Spec.AgreeBut.refl {α : Type} (m : Nat) (xs : List α) : AgreeBut m xs xs := ⟨rfl, fun _ _ => rfl⟩

theorem Spec.AgreeBut.append_right {α : Type} {m : Nat} {xs ys zs : List α} (h : AgreeBut m xs ys) :
    AgreeBut (if m < xs.length then m else (xs ++ zs).length) (xs ++ zs) (ys ++ zs) := by
  refine ⟨by simp [h.1], fun n hn => ?_⟩
  rw [List.getElem?_append, List.getElem?_append, h.1]
  split at hn
  · rw [h.2 n hn]
  · split
    · rw [h.2 n (by rw [← h.1] at *; omega)]
    · rfl

theorem Spec.AgreeBut.append_left {α : Type} {m : Nat} {xs ys zs : List α} (h : AgreeBut m xs ys) :
    AgreeBut (zs.length + m) (zs ++ xs) (zs ++ ys) := by
  refine ⟨by simp [h.1], fun n hn => ?_⟩
  rw [List.getElem?_append, List.getElem?_append]
  split
  · rfl
  · exact h.2 _ (by omega)

/-- The siblings along the way from `j` agree except for at most one if the trees agree off the path of `i`. -/
theorem auth_agree (hb : 0 < b) {i : Nat} : ∀ (n j : Nat), n ≤ k → 
    (∀ l, k - n ≤ l → l < k → ∀ c, c ≠ i / b ^ l → c < b ^ (k - l) → f (rowStart b k l + c) = g (rowStart b k l + c)) →
    j < b ^ n →
    (j = i / b ^ (k - n) → auth f b k n j = auth g b k n j) ∧
      ∃ m, AgreeBut m (auth f b k n j) (auth g b k n j)
  | 0, j, _, _, _ => ⟨fun _ => rfl, 0, .refl _ _⟩
  | n + 1, j, hn, h, hj => by
    have hj' : j / b < b ^ n := by
      rw [Nat.div_lt_iff_lt_mul hb, ← Nat.pow_succ]; exact hj
    have hdiv : i / b ^ (k - n) = i / b ^ (k - (n + 1)) / b := by
      rw [Nat.div_div_eq_div_mul, ← Nat.pow_succ]; congr 2; omega
    obtain ⟨h1, h2⟩ := auth_agree hb (i := i) n (j / b) (by omega) (fun l hl => h l (by omega)) hj'
    obtain ⟨h3, m, h4⟩ := sibs_agree (f := f) (g := g) (b := b) (base := rowStart b k (k - (n + 1)))
      (i := i / b ^ (k - (n + 1))) (j := j) hb fun c hc hci => h _ (Nat.le_refl _) (by omega) c hci (by
        rw [show k - (k - (n + 1)) = n + 1 by omega]
        have : c < (j / b + 1) * b := by
          rw [← hc]; exact Nat.lt_mul_of_div_lt (Nat.lt_succ_self _) hb
        calc c < (j / b + 1) * b := this
          _ ≤ b ^ n * b := Nat.mul_le_mul_right _ hj'
          _ = b ^ (n + 1) := (Nat.pow_succ ..).symm)
    simp only [auth]
    constructor
    · intro he
      rw [h3 (.inr he.symm), h1 (by rw [hdiv, ← he])]
    · by_cases he : j / b = i / b ^ (k - n)
      · rw [h1 he]
        exact ⟨_, h4.append_right⟩
      · rw [h3 (.inl fun hh => he (by rw [hdiv, hh]))]
        obtain ⟨m', h5⟩ := h2
        exact ⟨_, h5.append_left⟩

end
end Verif
