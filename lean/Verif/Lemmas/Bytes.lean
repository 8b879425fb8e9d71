import Verif.Model.Store
import Verif.Model.VecStore
import Verif.Lemmas.Res
import Verif.Lemmas.Sizing
/-! Lemmas about byte lists, chunking and element encoding. -/
namespace Verif

section chunks
variable {α : Type}

theorem chunks.go_eq (n : Nat) (hn : 0 < n) : ∀ (f m : Nat) (xs : List α), xs.length = n * m →
    xs.length ≤ f → chunks.go n f xs = (List.range m).map fun k => (xs.drop (n * k)).take n
  | 0, m, xs, h, hf => by
    have : m = 0 := by
      rcases Nat.eq_zero_or_pos m with h0 | h0
      · exact h0
      · have := Nat.mul_pos hn h0; omega
    subst this; simp [chunks.go]
  | f + 1, 0, xs, h, _ => by
    have : xs = [] := List.eq_nil_of_length_eq_zero (by simpa using h)
    subst this; simp [chunks.go]
  | f + 1, m + 1, xs, h, hf => by
    have h1 : xs.length = n * m + n := by rw [h]; ring
    have hne : xs.isEmpty = false := by
      cases xs with
      | nil => simp at h1; omega
      | cons _ _ => rfl
    unfold chunks.go
    rw [hne, chunks.go_eq n hn f m (xs.drop n) (by simp; omega) (by simp; omega)]
    simp only [Bool.false_eq_true, ↓reduceIte, List.range_succ_eq_map, List.map_cons, List.map_map]
    simp only [Nat.mul_zero, List.drop_zero]
    congr 1
    apply List.map_congr_left
    intro k _
    simp only [Function.comp, List.drop_drop]
    congr 2; rw [Nat.succ_eq_add_one]; ring

theorem chunks_eq {n : Nat} (hn : 0 < n) {m : Nat} {xs : List α} (h : xs.length = n * m) :
    chunks n xs = (List.range m).map fun k => (xs.drop (n * k)).take n :=
  chunks.go_eq n hn _ m xs h (Nat.le_refl _)

theorem take_drop_map_range (g : Nat → α) (N a n : Nat) (h : a + n ≤ N) :
    (((List.range N).map g).drop a).take n = (List.range n).map fun c => g (a + c) := by
  apply List.ext_getElem
  · simp; omega
  · intro i h1 h2
    simp

/-- Chunks of a list given by a function. -/
theorem chunks_map_range (g : Nat → α) {n : Nat} (hn : 0 < n) (m : Nat) :
    chunks n ((List.range (n * m)).map g)
      = (List.range m).map fun k => (List.range n).map fun c => g (n * k + c) := by
  rw [chunks_eq hn (m := m) (by simp)]
  apply List.map_congr_left
  intro k hk
  rw [take_drop_map_range]
  have := List.mem_range.1 hk
  calc n * k + n = n * (k + 1) := by ring
    _ ≤ n * m := Nat.mul_le_mul_left n this

end chunks

section region

theorem region_length (bs : Bytes) (off n : Nat) : (region bs off n).length = min n (bs.length - off) := by
  simp [region]

theorem region_add (bs : Bytes) (off n m : Nat) :
    region bs off (n + m) = region bs off n ++ region bs (off + n) m := by
  simp only [region]
  rw [List.take_add, List.drop_drop]

theorem patch_length {bs : Bytes} {off : Nat} {data : Bytes} (h : off + data.length ≤ bs.length) :
    (patch bs off data).length = bs.length := by
  simp [patch]; omega

theorem patch_eq {bs : Bytes} {off : Nat} {data : Bytes} (h : off ≤ bs.length) :
    patch bs off data = bs.take off ++ data ++ bs.drop (off + data.length) := by
  simp [patch, show off - bs.length = 0 by omega]

theorem patch_getElem? {bs : Bytes} {off : Nat} {data : Bytes} (h : off + data.length ≤ bs.length)
    (i : Nat) : (patch bs off data)[i]? =
      if off ≤ i ∧ i < off + data.length then data[i - off]? else bs[i]? := by
  rw [patch_eq (by omega)]
  by_cases h1 : i < off
  · rw [List.append_assoc, List.getElem?_append_left (by simp; omega)]
    simp [show ¬ off ≤ i by omega, h1]
  · by_cases h2 : i < off + data.length
    · rw [List.getElem?_append_left (by simp; omega), List.getElem?_append_right (by simp; omega)]
      simp [show off ≤ i by omega, h2, show min off bs.length = off by omega]
    · rw [List.getElem?_append_right (by simp; omega)]
      simp [h2]
      congr 1; omega

theorem region_patch_disjoint {bs : Bytes} {off : Nat} {data : Bytes}
    (h : off + data.length ≤ bs.length) {a n : Nat} (hd : a + n ≤ off ∨ off + data.length ≤ a) :
    region (patch bs off data) a n = region bs a n := by
  apply List.ext_getElem?
  intro i
  simp only [region, List.getElem?_take, List.getElem?_drop]
  split
  · rw [patch_getElem? h, if_neg (by omega)]
  · rfl

theorem region_patch_inside {bs : Bytes} {off : Nat} {data : Bytes}
    (h : off + data.length ≤ bs.length) {a n : Nat} (hd : a + n ≤ data.length) :
    region (patch bs off data) (off + a) n = region data a n := by
  apply List.ext_getElem?
  intro i
  simp only [region, List.getElem?_take, List.getElem?_drop]
  split
  · rw [patch_getElem? h, if_pos (by omega)]
    congr 1; omega
  · rfl

end region

section elements
variable {E : Type} [Element E] [LawfulElement E]

theorem length_encodeAll (es : List E) :
    (encodeAll es).length = es.length * Element.byteLen E := by
  induction es with
  | nil => simp [encodeAll]
  | cons e es ih =>
    simp only [encodeAll, List.flatMap_cons, List.length_append, List.length_cons,
      LawfulElement.length_toBytes] at *
    rw [ih]; ring

omit [LawfulElement E] in
theorem encodeAll_cons (e : E) (es : List E) :
    encodeAll (e :: es) = Element.toBytes e ++ encodeAll es := rfl

omit [LawfulElement E] in
theorem encodeAll_append (es fs : List E) : encodeAll (es ++ fs) = encodeAll es ++ encodeAll fs := by
  simp [encodeAll]

theorem region_encodeAll (es : List E) (j : Nat) (h : j < es.length) :
    region (encodeAll es) (j * Element.byteLen E) (Element.byteLen E) = Element.toBytes es[j] := by
  induction es generalizing j with
  | nil => simp at h
  | cons e es ih =>
    have hl := LawfulElement.length_toBytes e
    rw [encodeAll_cons]
    cases j with
    | zero => simp [region, ← hl]
    | succ j =>
      have h' : j < es.length := by simpa using h
      rw [show (j + 1) * Element.byteLen E = (Element.toBytes e).length + j * Element.byteLen E by
        rw [hl]; ring]
      simp only [region, List.drop_append, List.getElem_cons_succ]
      rw [List.drop_eq_nil_of_le (by omega), List.nil_append, Nat.add_sub_cancel_left]
      exact ih j h'

theorem fromSlice_toBytes (e : E) : Element.fromSlice (Element.toBytes e) = .ok e := by
  simp [Element.fromSlice, LawfulElement.length_toBytes, LawfulElement.decode_toBytes]

theorem mapM_ok {α β : Type} (f : α → Res β) (xs : List α) (g : α → β)
    (h : ∀ x ∈ xs, f x = .ok (g x)) : xs.mapM f = .ok (xs.map g) := by
  induction xs with
  | nil => rfl
  | cons x xs ih =>
    rw [List.mapM_cons, h x (by simp), Res.ok_bind, ih (fun y hy => h y (by simp [hy]))]
    rfl

theorem mapM_range_ok {β : Type} (f : Bytes → Res β) (c : Nat → Bytes) (g : Nat → β) (m : Nat)
    (h : ∀ k, k < m → f (c k) = .ok (g k)) :
    ((List.range m).map c).mapM f = .ok ((List.range m).map g) := by
  rw [List.mapM_map]
  exact mapM_ok _ _ _ (fun k hk => h k (List.mem_range.1 hk))

/-- Bytes whose pieces are the encodings of given elements decode to these elements. -/
theorem decodeAll_eq (bs : Bytes) (m : Nat) (g : Nat → E) (hl : bs.length = m * Element.byteLen E)
    (h : ∀ j, j < m → region bs (j * Element.byteLen E) (Element.byteLen E) = Element.toBytes (g j)) :
    decodeAll bs = .ok ((List.range m).map g) := by
  unfold decodeAll
  rw [chunks_eq (LawfulElement.byteLen_pos (E := E)) (m := m) (by rw [hl]; ring)]
  apply mapM_range_ok
  intro k hk
  have := h k hk
  rw [region, Nat.mul_comm] at this
  rw [this, fromSlice_toBytes]

theorem list_eq_map_range {α : Type} (xs : List α) (d : α) :
    xs = (List.range xs.length).map fun j => xs.getD j d := by
  apply List.ext_getElem
  · simp
  · intro i h1 h2; simp [h1]

theorem decodeAll_encodeAll (es : List E) : decodeAll (encodeAll es) = .ok es := by
  have h := decodeAll_eq (encodeAll es) es.length (fun j => es.getD j Element.default)
    (length_encodeAll es) (fun j hj => by
      rw [region_encodeAll es j hj]; simp [hj])
  rw [h, ← list_eq_map_range]

theorem chunksExact_encodeAll (es : List E) :
    (chunksExact (Element.byteLen E) (encodeAll es)).mapM Element.fromSlice = .ok es := by
  have hp := LawfulElement.byteLen_pos (E := E)
  rw [chunksExact, length_encodeAll, Nat.mul_div_cancel _ hp, ← length_encodeAll, List.take_length]
  exact decodeAll_encodeAll es

theorem region_region (bs : Bytes) (a n b m : Nat) (h : b + m ≤ n) :
    region (region bs a n) b m = region bs (a + b) m := by
  apply List.ext_getElem?
  intro i
  simp only [region, List.getElem?_take, List.getElem?_drop]
  split
  · rw [if_pos (by omega)]; congr 1; omega
  · rfl

end elements
end Verif
