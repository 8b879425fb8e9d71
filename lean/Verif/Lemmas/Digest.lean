import Verif.Spec.Digest
import Verif.Lemmas.Sources
/-
Helper lemmas: the byte strings hashed for leaves and nodes, and how they bind the items of a tree.
-/
set_option linter.unusedSectionVars false
namespace Verif
open Spec
variable {E : Type} [Element E]

theorem Streaming.foldl {σ : Type} {write : σ → Bytes → σ} (h : Streaming write) :
    ∀ (ns : List E) s, ns.foldl (fun s n => write s (Element.toBytes n)) s = write s (encodeAll ns)
  | [], s => (h.2 s).symm
  | n :: ns, s => by
    rw [List.foldl_cons, Streaming.foldl h ns, h.1]
    rfl

theorem leafHash_ofHasher {σ : Type} (init : σ) {write : σ → Bytes → σ} (hash : σ → E × σ)
    (h : Streaming write) (e : E) :
    (Alg.ofHasher σ init write hash).leafHash e = digest init write hash (leafInput e) := by
  show (hash (write (write init [leafPrefix]) (Element.toBytes e))).1 = _
  rw [h.1]
  rfl

theorem nodeHash_ofHasher {σ : Type} (init : σ) {write : σ → Bytes → σ} (hash : σ → E × σ)
    (h : Streaming write) (ns : List E) (height : Nat) :
    (Alg.ofHasher σ init write hash).nodeHash ns height = digest init write hash (nodeInput ns) := by
  show (hash (ns.foldl (fun s n => write s (Element.toBytes n)) (write init [interiorPrefix]))).1 = _
  rw [Streaming.foldl h, h.1]
  rfl

theorem leafInput_ne_nodeInput (e : E) (ns : List E) : leafInput e ≠ nodeInput ns := by
  intro h
  exact absurd (List.cons.inj h).1 (by decide)

section
variable [LawfulElement E]

theorem toBytes_inj {x y : E} (h : Element.toBytes x = Element.toBytes y) : x = y := by
  rw [← LawfulElement.decode_toBytes x, h, LawfulElement.decode_toBytes]

theorem leafInput_inj {x y : E} (h : leafInput x = leafInput y) : x = y :=
  toBytes_inj (List.cons.inj h).2

theorem encodeAll_inj {xs ys : List E} (h : encodeAll xs = encodeAll ys) : xs = ys := by
  have := decodeAll_encodeAll xs
  rw [h, decodeAll_encodeAll] at this
  exact (Except.ok.inj this).symm

theorem nodeInput_inj {xs ys : List E} (h : nodeInput xs = nodeInput ys) : xs = ys :=
  encodeAll_inj (List.cons.inj h).2

/-- Without collisions, equal nodes of two trees have the same height, arity and items below. -/
theorem node_binds {D : Bytes → E} {b b' k k' : Nat} {xs ys : List E} (hb : 0 < b)
    (hb' : 0 < b') (hx : xs.length = b ^ k) (hy : ys.length = b' ^ k')
    (hcf : ∀ x y, Hashed D b k xs x → Hashed D b' k' ys y → D x = D y → x = y) :
    ∀ l l' j j', l ≤ k → l' ≤ k' → j < b ^ (k - l) → j' < b' ^ (k' - l') →
      node (fun ns _ => D (nodeInput ns)) b (fun i => D (leafInput (xs.getD i Element.default))) l j
        = node (fun ns _ => D (nodeInput ns)) b' (fun i => D (leafInput (ys.getD i Element.default)))
          l' j' →
      l = l' ∧ (1 ≤ l → b = b') ∧ ∀ i, i < b ^ l →
        xs.getD (b ^ l * j + i) Element.default = ys.getD (b ^ l * j' + i) Element.default := by
  have hleafx : ∀ j, j < b ^ k → Hashed D b k xs (leafInput (xs.getD j Element.default)) := by
    intro j hj
    refine Or.inl ⟨_, ?_, rfl⟩
    rw [List.getD_eq_getElem?_getD, List.getElem?_eq_getElem (by omega), Option.getD_some]
    exact List.getElem_mem _
  have hleafy : ∀ j, j < b' ^ k' → Hashed D b' k' ys (leafInput (ys.getD j Element.default)) := by
    intro j hj
    refine Or.inl ⟨_, ?_, rfl⟩
    rw [List.getD_eq_getElem?_getD, List.getElem?_eq_getElem (by omega), Option.getD_some]
    exact List.getElem_mem _
  intro l
  induction l with
  | zero =>
    intro l' j j' _ hl' hj hj' h
    cases l' with
    | zero =>
      refine ⟨rfl, by omega, fun i hi => ?_⟩
      have := hcf _ _ (hleafx j (by simpa using hj)) (hleafy j' (by simpa using hj')) h
      obtain rfl : i = 0 := by simpa using hi
      simpa using leafInput_inj this
    | succ l' =>
      exact absurd (hcf _ _ (hleafx j (by simpa using hj))
        (Or.inr ⟨l', j', by omega, hj', rfl⟩) h) (leafInput_ne_nodeInput _ _)
  | succ l ih =>
    intro l' j j' hl hl' hj hj' h
    cases l' with
    | zero =>
      exact absurd (hcf _ _ (Or.inr ⟨l, j, by omega, hj, rfl⟩)
        (hleafy j' (by simpa using hj')) h).symm (leafInput_ne_nodeInput _ _)
    | succ l' =>
      have e := nodeInput_inj (hcf _ _ (Or.inr ⟨l, j, by omega, hj, rfl⟩)
        (Or.inr ⟨l', j', by omega, hj', rfl⟩) h)
      have hbb : b = b' := by simpa using congrArg List.length e
      subst hbb
      have hc : ∀ c, c < b → l = l' ∧ ∀ i, i < b ^ l →
          xs.getD (b ^ l * (b * j + c) + i) Element.default
            = ys.getD (b ^ l * (b * j' + c) + i) Element.default := by
        intro c hc
        have e1 := congrArg (fun z => z[c]?) e
        simp only [List.getElem?_map, List.getElem?_range hc, Option.map_some, Option.some.injEq] at e1
        have hm : ∀ {q m n : Nat}, q < b ^ (m - (n + 1)) → n + 1 ≤ m → b * q + c < b ^ (m - n) := by
          intro q m n h1 h2
          rw [show m - n = (m - (n + 1)) + 1 by omega, Nat.pow_succ, Nat.mul_comm _ b]
          calc b * q + c < b * q + b := by omega
            _ = b * (q + 1) := by rw [Nat.mul_succ]
            _ ≤ b * b ^ (m - (n + 1)) := Nat.mul_le_mul_left _ h1
        obtain ⟨a1, _, a3⟩ := ih l' (b * j + c) (b * j' + c) (by omega) (by omega) (hm hj hl)
          (hm hj' hl') e1
        exact ⟨a1, a3⟩
      refine ⟨by rw [(hc 0 hb).1], fun _ => rfl, fun i hi => ?_⟩
      have hp : 0 < b ^ l := Nat.pow_pos hb
      have h1 : i / b ^ l < b := Nat.div_lt_of_lt_mul (by rw [← Nat.pow_succ]; exact hi)
      have h2 := (hc (i / b ^ l) h1).2 (i % b ^ l) (Nat.mod_lt _ hp)
      have hi' : ∀ q, b ^ (l + 1) * q + i = b ^ l * (b * q + i / b ^ l) + i % b ^ l := by
        intro q
        rw [Nat.mul_add, Nat.add_assoc, Nat.div_add_mod, Nat.pow_succ, Nat.mul_assoc]
      rw [hi', hi']
      exact h2

/-- Two trees with the same root have the same items, or two of the byte strings hashed in them
collide. -/
theorem root_binds {D : Bytes → E} {b b' k k' : Nat} {xs ys : List E} (hb : 0 < b) (hb' : 0 < b')
    (hk : 1 ≤ k) (hx : xs.length = b ^ k) (hy : ys.length = b' ^ k')
    (h : root (fun ns _ => D (nodeInput ns)) b k (fun i => D (leafInput (xs.getD i Element.default)))
      = root (fun ns _ => D (nodeInput ns)) b' k'
        (fun i => D (leafInput (ys.getD i Element.default)))) :
    (b = b' ∧ xs = ys) ∨
      ∃ x y, Hashed D b k xs x ∧ Hashed D b' k' ys y ∧ x ≠ y ∧ D x = D y := by
  by_cases hcf : ∀ x y, Hashed D b k xs x → Hashed D b' k' ys y → D x = D y → x = y
  · obtain ⟨h1, h2, h3⟩ := node_binds hb hb' hx hy hcf k k' 0 0 (le_refl _) (le_refl _) (by simp)
      (by simp) h
    have hbb := h2 hk
    subst hbb; subst h1
    refine Or.inl ⟨rfl, ?_⟩
    apply List.ext_getElem (by rw [hx, hy])
    intro i g1 g2
    have := h3 i (by omega)
    simpa [List.getD_eq_getElem?_getD, g1, g2] using this
  · push Not at hcf
    obtain ⟨x, y, a1, a2, a3, a4⟩ := hcf
    exact Or.inr ⟨x, y, a1, a2, a4, a3⟩

end

omit [Element E] in
theorem Source.leaves_of_items {A : Alg E} {src : Source A} {xs : List E} (h : src.items = some xs) :
    src.leaves = xs.map A.leafHash := by
  cases src <;> simp only [Source.items, Option.some.injEq, reduceCtorEq] at h <;> subst h <;>
    simp [Source.leaves]

omit [Element E] in
theorem Spec.IsLayout.root_eq {H : List E → Nat → E} {b k : Nat} {leaves : List E} {f : Nat → E}
    (hf : IsLayout H b k leaves f) (d : E) :
    f (nodes b k - 1) = root H b k (fun i => leaves.getD i d) := by
  have hp := nodes_pos b k
  rw [layout_unique hf (flat_isLayout H leaves d hf.count) (nodes b k - 1) (by omega), flat_root]

omit [Element E] in
/-- A node depends only on the leaves below it. -/
theorem node_congr_leaves {H : List E → Nat → E} {b : Nat} {f g : Nat → E} :
    ∀ {l j : Nat}, (∀ i, i < b ^ l → f (b ^ l * j + i) = g (b ^ l * j + i)) →
      node H b f l j = node H b g l j
  | 0, j, h => by simpa [node] using h 0 (by simp)
  | l + 1, j, h => by
    rw [node, node]
    congr 1
    apply List.map_congr_left
    intro c hc
    have hc := List.mem_range.1 hc
    apply node_congr_leaves
    intro i hi
    have e : b ^ l * (b * j + c) + i = b ^ (l + 1) * j + (b ^ l * c + i) := by
      rw [Nat.mul_add, Nat.pow_succ, Nat.mul_assoc, Nat.add_assoc]
    rw [e]
    apply h
    calc b ^ l * c + i < b ^ l * c + b ^ l := by omega
      _ = b ^ l * (c + 1) := by rw [Nat.mul_succ]
      _ ≤ b ^ l * b := Nat.mul_le_mul_left _ hc
      _ = b ^ (l + 1) := (Nat.pow_succ ..).symm

omit [Element E] in
/-- Row 1 taken for the leaves gives the same nodes above. -/
theorem node_above {H : List E → Nat → E} (hH : ∀ ns l l', H ns l = H ns l') {b : Nat} {f : Nat → E} :
    ∀ l j, node H b (node H b f 1) l j = node H b f (l + 1) j
  | 0, j => rfl
  | l + 1, j => by
    rw [node, node, hH _ l (l + 1)]
    congr 1
    apply List.map_congr_left
    intro c _
    exact node_above hH l _

end Verif
