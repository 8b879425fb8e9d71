import Verif.Lemmas.RunSteps
import Verif.Lemmas.Tree
/-!
What the stores guarantee, as laws, and the default tree build for every store obeying them.
-/
set_option linter.unusedSectionVars false
namespace Verif
open Spec StoreOps

/-- Only files in `own` may differ. -/
def SameOutside (own : FileId → Prop) (fs fs' : FS) : Prop :=
  (∀ f, ¬ own f → fs'.file f = fs.file f) ∧ fs'.nextTemp = fs.nextTemp

theorem SameOutside.refl (own : FileId → Prop) (fs : FS) : SameOutside own fs fs :=
  ⟨fun _ _ => rfl, rfl⟩

theorem SameOutside.trans {own : FileId → Prop} {a b c : FS} (h1 : SameOutside own a b)
    (h2 : SameOutside own b c) : SameOutside own a c :=
  ⟨fun f hf => (h2.1 f hf).trans (h1.1 f hf), h2.2.trans h1.2⟩

/-- Laws of the writing operations.  `Inv fs s cap`: the store is in good order and has room for
`cap` elements.  `holds fs s i e`: position `i` holds `e`. `owns s f`: the store uses file `f`. -/
class LawfulWrite (S : Type) (E : outParam Type) [Element E] [StoreOps S E] where
  Inv : FS → S → Nat → Prop
  holds : FS → S → Nat → E → Prop
  owns : S → FileId → Prop
  inv_frame : ∀ {fs fs' : FS} {s : S} {cap : Nat}, (∀ f, owns s f → fs'.file f = fs.file f) →
    Inv fs s cap → Inv fs' s cap
  holds_frame : ∀ {fs fs' : FS} {s : S} {i : Nat} {e : E},
    (∀ f, owns s f → fs'.file f = fs.file f) → holds fs s i e → holds fs' s i e
  copy : ∀ {fs : FS} {s : S} {cap : Nat} (es : List E) {start : Nat}, Inv fs s cap →
    start + es.length ≤ cap →
    ∃ s' fs', copyFromSlice s (encodeAll es) start fs = (.ok s', fs') ∧ Inv fs' s' cap ∧
      len (E := E) s' = max (len (E := E) s) (start + es.length) ∧
      (∀ j (h : j < es.length), holds fs' s' (start + j) es[j]) ∧
      (∀ i e, (i < start ∨ start + es.length ≤ i) → holds fs s i e → holds fs' s' i e) ∧
      SameOutside (owns s) fs fs' ∧ owns s' = owns s ∧
      loadedFromDisk (E := E) s' = loadedFromDisk (E := E) s
  write : ∀ {fs : FS} {s : S} {cap : Nat} (e : E) {i : Nat}, Inv fs s cap → i < cap →
    ∃ s' fs', writeAt s e i fs = (.ok s', fs') ∧ Inv fs' s' cap ∧
      len (E := E) s' = max (len (E := E) s) (i + 1) ∧ holds fs' s' i e ∧
      (∀ j e', j ≠ i → holds fs s j e' → holds fs' s' j e') ∧
      SameOutside (owns s) fs fs' ∧ owns s' = owns s

/-- Laws of the reading operations. -/
class LawfulRead (S : Type) (E : outParam Type) [Element E] [StoreOps S E] extends
    LawfulWrite S E where
  readAt_ok : ∀ {fs : FS} {s : S} {cap i : Nat} {e : E}, Inv fs s cap → i < len (E := E) s →
    holds fs s i e → readAt fs s i = .ok e
  readRange_ok : ∀ {fs : FS} {s : S} {cap a m : Nat} {g : Nat → E}, Inv fs s cap → 0 < m →
    a + m ≤ len (E := E) s → (∀ i, a ≤ i → i < a + m → holds fs s i (g i)) →
    readRange fs s a (a + m) = .ok ((List.range m).map fun c => g (a + c))

section filled
variable {S E : Type} [Element E] [StoreOps S E] [LawfulWrite S E]
open LawfulWrite

/-- What building leaves in the store: every node of the tree at its place. -/
structure Filled (fs : FS) (s : S) (cap n : Nat) (g : Nat → E) : Prop where
  inv : Inv fs s cap
  len_eq : len (E := E) s = n
  vals : ∀ i, i < n → holds fs s i (g i)

end filled

section build
variable {S E : Type} [Element E] [LawfulElement E] [StoreOps S E] [LawfulRead S E]
open LawfulWrite LawfulRead

theorem processLayer_ok {A : Alg E} {b q w level rs ws cap : Nat} (hb : 0 < b)
    (hq : b * q = buildChunkNodes) (hw : 0 < w) (hrsws : rs + b * w ≤ ws) (hcap : ws + w ≤ cap)
    {σ : Sched} (hσ : σ.Valid) {g : Nat → E}
    (hg : ∀ j, j < w → g (ws + j) = A.nodeHash ((List.range b).map fun c => g (rs + (b * j + c))) level)
    {s : S} {fs : FS} (hs : Filled fs s cap ws g) :
    ∃ s' fs', processLayer A b σ s (b * w) level rs ws fs = (.ok s', fs') ∧
      Filled fs' s' cap (ws + w) g ∧ SameOutside (owns s) fs fs' ∧ owns s' = owns s := by
  have hq0 : 0 < q := by
    rcases Nat.eq_zero_or_pos q with h | h
    · subst h; simp [buildChunkNodes] at hq
    · exact h
  obtain ⟨s', fs', hrun, ⟨hinv, hlen1, hlen2, hsame, howns⟩, hK, hvals⟩ :=
    layer_ok (S := S) (A := A) (w := w) (level := level) (rs := rs) (ws := ws) hb hq
    (holds := holds) (J := fun fs1 s1 => Inv fs1 s1 cap ∧ ws ≤ len (E := E) s1 ∧
      len (E := E) s1 ≤ ws + w ∧ SameOutside (owns s) fs fs1 ∧ owns s1 = owns s)
    (K := fun t s1 => ws + t * q + min q (w - t * q) ≤ len (E := E) s1)
    (rdRange := readRange) (rd := layerRead A b (b * w) level rs)
    (wr := fun t bs s => copyFromSlice s bs (ws + t * buildChunkNodes / b)) (g := g) hg
    (fun t s fs => rfl)
    (by
      intro fs1 s1 a m ⟨h1, h2, h3, h4⟩ hm ha hle hh
      exact readRange_ok h1 hm (by omega) hh)
    (by
      intro fs1 s1 t es ⟨h1, h2, h3, h4, h5⟩ ht hle hle2 hpos
      have e : t * buildChunkNodes / b = t * q := by
        rw [← hq, show t * (b * q) = b * (t * q) by ring, Nat.mul_div_cancel_left _ hb]
      obtain ⟨s2, fs2, hc, hi, hl, hin, hout, hso, how, _⟩ := copy (start := ws + t * q) es h1
        (by omega)
      refine ⟨s2, fs2, by simp only [e]; exact hc, ⟨hi, by omega, by omega, ?_, how.trans h5⟩, ?_,
        ?_, hin, hout⟩
      · exact h4.trans (h5 ▸ hso)
      · intro hlen; omega
      · intro u hu; omega)
    (hσ level (numChunks (b * w))) (s := s) (fs := fs)
    ⟨hs.inv, by rw [hs.len_eq], by rw [hs.len_eq]; omega, SameOutside.refl _ _, rfl⟩
    (P := fun i => i < ws) (fun i _ h => by omega) (fun i h => h) hs.vals
  refine ⟨s', fs', ?_, ⟨hinv, ?_, ?_⟩, hsame, howns⟩
  · unfold processLayer
    rw [M.bind_ok (mEnsure_true (by rw [← hq]; exact Nat.mul_mod_right b q) _ _)]
    exact hrun
  · obtain ⟨t, ht1, ht2, ht3⟩ := chunk_cover (w := w) (j := w - 1) hb hq (by omega)
    have := hK t ht1
    omega
  · intro i hi
    apply hvals
    omega

omit [LawfulElement E] in
theorem writeLayer_ok {cap ws : Nat} {own : FileId → Prop} :
    ∀ (ns : List E) (i : Nat) (s : S) (fs : FS), Inv fs s cap → ws + i + ns.length ≤ cap →
    len (E := E) s = ws + i → owns s = own →
    ∃ s' fs', writeLayer ws ns i s fs = (.ok s', fs') ∧ Inv fs' s' cap ∧
      len (E := E) s' = ws + i + ns.length ∧
      (∀ j (h : j < ns.length), holds fs' s' (ws + i + j) ns[j]) ∧
      (∀ j e, j < ws + i → holds fs s j e → holds fs' s' j e) ∧
      SameOutside own fs fs' ∧ owns s' = own
  | [], i, s, fs, hinv, _, hl, ho => ⟨s, fs, rfl, hinv, by simpa using hl, fun j h => by simp at h,
      fun _ _ _ h => h, SameOutside.refl _ _, ho⟩
  | n :: ns, i, s, fs, hinv, hcap, hl, ho => by
    simp only [List.length_cons] at hcap
    obtain ⟨s1, fs1, h1, h2, h3, h4, h5, h6, h7⟩ := write n (i := ws + i) hinv (by omega)
    obtain ⟨s2, fs2, g1, g2, g3, g4, g5, g6, g7⟩ := writeLayer_ok (own := own) (ws := ws) ns (i + 1) s1 fs1 h2
      (by omega) (by omega) (h7.trans ho)
    refine ⟨s2, fs2, ?_, g2, ?_, ?_, ?_, ?_, g7⟩
    · rw [writeLayer, M.bind_ok h1, g1]
    · rw [g3]; simp; omega
    · intro j hj
      cases j with
      | zero => exact g5 _ _ (by omega) h4
      | succ j =>
        have := g4 j (by simpa using hj)
        rw [show ws + i + (j + 1) = ws + (i + 1) + j by omega]
        simpa using this
    · intro j e hj he
      exact g5 j e (by omega) (h5 j e (by omega) he)
    · exact (ho ▸ h6).trans g6

theorem smallTreeLoop_ok {A : Alg E} {b k cap : Nat} (hb : Arity b) (leaf : Nat → E)
    (hcap : nodes b k ≤ cap) (own : FileId → Prop) : ∀ (f l : Nat) (s : S) (fs : FS), l ≤ k → k - l < f →
    Filled fs s cap (rowStart b k (l + 1)) (flat A.nodeHash b k leaf) → owns s = own →
    ∃ s' fs', smallTreeLoop A b f (b ^ (k - l)) l (rowStart b k l) s fs = (.ok (s', k), fs') ∧
      Filled fs' s' cap (nodes b k) (flat A.nodeHash b k leaf) ∧ SameOutside own fs fs' ∧
      owns s' = own := by
  have hb2 := hb.two_le
  intro f
  induction f with
  | zero => intro l s fs _ h; omega
  | succ f ih =>
    intro l s fs hl hf hs ho
    unfold smallTreeLoop
    rcases Nat.eq_or_lt_of_le hl with h | h
    · subst h
      simp only [Nat.sub_self, Nat.pow_zero, gt_iff_lt, Nat.lt_irrefl, ↓reduceIte]
      refine ⟨s, fs, rfl, ?_, SameOutside.refl _ _, ho⟩
      rw [rowStart_end] at hs
      exact hs
    · have hpw : b ^ (k - l) = b * b ^ (k - (l + 1)) := by
        rw [show k - l = (k - (l + 1)) + 1 by omega, Nat.pow_succ]; ring
      have hp : 0 < b ^ (k - (l + 1)) := Nat.pow_pos (by omega)
      have hgt : b ^ (k - l) > 1 := by
        rw [hpw]; calc 1 < 2 * 1 := by omega
          _ ≤ b * b ^ (k - (l + 1)) := Nat.mul_le_mul hb2 hp
      have hrs : rowStart b k (l + 1) = rowStart b k l + b ^ (k - l) := rfl
      simp only [hgt, ↓reduceIte]
      have hrw : (if l = 0 then (0, len (E := E) s) else
          (rowStart b k l, rowStart b k l + b ^ (k - l))) = (rowStart b k l, rowStart b k (l + 1)) := by
        split
        · rename_i h0; subst h0; rw [hs.len_eq]; rfl
        · rw [hrs]
      rw [hrw]
      dsimp only
      have hread : readRange fs s (rowStart b k l) (rowStart b k l + b ^ (k - l)) = .ok
          ((List.range (b ^ (k - l))).map fun c => flat A.nodeHash b k leaf (rowStart b k l + c)) :=
        readRange_ok hs.inv (by omega) (by rw [hs.len_eq, hrs])
          (fun i _ hi => hs.vals i (by omega))
      rw [M.bind_ok (a := _) (fs' := fs) (by rw [M.get_run, hread])]
      rw [hpw, chunks_map_range _ (by omega), List.map_map]
      have hnext : nodes b k = rowStart b k (l + 1) + nodes b (k - (l + 1)) :=
        (rowStart_le_nodes b k (l + 1) h).symm
      have hpn := pow_le_nodes b (k - (l + 1))
      obtain ⟨s1, fs1, h1, h2, h3, h4, h5, h6, h7⟩ := writeLayer_ok (ws := rowStart b k (l + 1))
        (own := own) (cap := cap)
        ((List.range (b ^ (k - (l + 1)))).map ((fun ns => A.nodeHash ns l) ∘ fun k_1 =>
          (List.range b).map fun c => flat A.nodeHash b k leaf (rowStart b k l + (b * k_1 + c))))
        0 s fs hs.inv (by simp; omega) (by rw [hs.len_eq]; rfl) ho
      rw [M.bind_ok h1]
      rw [← hpw, hb.shiftRight, hpw, Nat.mul_div_cancel_left _ (by omega), ← hpw, ← hrs]
      have hfill : Filled fs1 s1 cap (rowStart b k (l + 1 + 1)) (flat A.nodeHash b k leaf) := by
        refine ⟨h2, ?_, ?_⟩
        · rw [h3]; simp [rowStart]
        · intro i hi
          rcases Nat.lt_or_ge i (rowStart b k (l + 1)) with hlt | hge
          · exact h5 i _ (by omega) (hs.vals i hlt)
          · have hi' : i - rowStart b k (l + 1) < b ^ (k - (l + 1)) := by
              rw [rowStart] at hi; omega
            have := h4 (i - rowStart b k (l + 1)) (by simpa using hi')
            simp only [List.getElem_map, List.getElem_range, Function.comp] at this
            rw [← flat_step A.nodeHash leaf h (by rwa [show k - l - 1 = k - (l + 1) by omega])] at this
            rw [← hrs, Nat.add_zero, show rowStart b k (l + 1) + (i - rowStart b k (l + 1)) = i by omega] at this
            exact this
      obtain ⟨s2, fs2, g1, g2, g3, g4⟩ := ih (l + 1) s1 fs1 h (by omega) hfill h7
      exact ⟨s2, fs2, g1, g2, h6.trans g3, g4⟩

omit [LawfulElement E] in
theorem Filled.last {fs : FS} {s : S} {cap n : Nat} {g : Nat → E} (h : Filled fs s cap n g)
    (hn : 0 < n) : StoreOps.last fs s = .ok (g (n - 1)) := by
  unfold StoreOps.last
  rw [h.len_eq, subP_ok hn, Res.ok_bind]
  exact readAt_ok h.inv (by rw [h.len_eq]; omega) (h.vals _ (by omega))

theorem buildLoop_ok {A : Alg E} {b k cap q : Nat} (hb : Arity b) (hq : b * q = buildChunkNodes)
    (leaf : Nat → E) (hcap : nodes b k ≤ cap) {σ : Sched} (hσ : σ.Valid) (own : FileId → Prop) :
    ∀ (f l : Nat) (s : S) (fs : FS), l ≤ k → k - l < f →
    Filled fs s cap (rowStart b k (l + 1)) (flat A.nodeHash b k leaf) → owns s = own →
    ∃ s' fs', buildLoop A b σ f (b ^ (k - l)) l (rowStart b k l) s fs = (.ok (s', k), fs') ∧
      Filled fs' s' cap (nodes b k) (flat A.nodeHash b k leaf) ∧ SameOutside own fs fs' ∧
      owns s' = own := by
  have hb2 := hb.two_le
  intro f
  induction f with
  | zero => intro l s fs _ h; omega
  | succ f ih =>
    intro l s fs hl hf hs ho
    unfold buildLoop
    rcases Nat.eq_or_lt_of_le hl with h | h
    · subst h
      simp only [Nat.sub_self, Nat.pow_zero, gt_iff_lt, Nat.lt_irrefl, ↓reduceIte]
      refine ⟨s, fs, rfl, ?_, SameOutside.refl _ _, ho⟩
      rw [rowStart_end] at hs
      exact hs
    · have hpw : b ^ (k - l) = b * b ^ (k - (l + 1)) := by
        rw [show k - l = (k - (l + 1)) + 1 by omega, Nat.pow_succ]; ring
      have hp : 0 < b ^ (k - (l + 1)) := Nat.pow_pos (by omega)
      have hgt : b ^ (k - l) > 1 := by
        rw [hpw]; calc 1 < 2 * 1 := by omega
          _ ≤ b * b ^ (k - (l + 1)) := Nat.mul_le_mul hb2 hp
      have hrs : rowStart b k (l + 1) = rowStart b k l + b ^ (k - l) := rfl
      simp only [hgt, ↓reduceIte]
      have hrw : (if l = 0 then (0, len (E := E) s) else
          (rowStart b k l, rowStart b k l + b ^ (k - l))) = (rowStart b k l, rowStart b k (l + 1)) := by
        split
        · rename_i h0; subst h0; rw [hs.len_eq]; rfl
        · rw [hrs]
      rw [hrw]
      dsimp only
      have hnext : nodes b k = rowStart b k (l + 1) + nodes b (k - (l + 1)) :=
        (rowStart_le_nodes b k (l + 1) h).symm
      have hpn := pow_le_nodes b (k - (l + 1))
      obtain ⟨s1, fs1, h1, h2, h3, h4⟩ := processLayer_ok (A := A) (w := b ^ (k - (l + 1)))
        (level := l) (rs := rowStart b k l) (ws := rowStart b k (l + 1)) (by omega) hq hp
        (by omega) (by omega) hσ (g := flat A.nodeHash b k leaf)
        (fun j hj => flat_step A.nodeHash leaf h (by rwa [show k - l - 1 = k - (l + 1) by omega])) hs
      rw [hpw, M.bind_ok h1]
      rw [← hpw, hb.shiftRight, hpw, Nat.mul_div_cancel_left _ (by omega), ← hpw, ← hrs]
      obtain ⟨s2, fs2, g1, g2, g3, g4⟩ := ih (l + 1) s1 fs1 h (by omega) h2 (h4.trans ho)
      exact ⟨s2, fs2, g1, g2, (ho ▸ h3).trans g3, g4⟩

/-- The default build: for every store obeying the laws that holds the `b^k` leaves, and every
schedule, the tree is built. -/
theorem defaultBuild_ok {A : Alg E} {b k cap : Nat} (hb : Arity b) (hb' : b ≤ buildChunkNodes)
    (hk : 1 ≤ k) (leaf : Nat → E) (hcap : nodes b k ≤ cap) {σ : Sched} (hσ : σ.Valid)
    {s : S} {fs : FS} (hs : Filled fs s cap (b ^ k) leaf) (cfg : Option StoreConfig) :
    ∃ s' fs', defaultBuild A b σ s (b ^ k) (k + 1) cfg fs
        = (.ok (root A.nodeHash b k leaf, s'), fs') ∧
      Filled fs' s' cap (nodes b k) (flat A.nodeHash b k leaf) ∧ SameOutside (owns s) fs fs' ∧
      owns s' = owns s := by
  have hb2 := hb.two_le
  have hq : ∃ q, b * q = buildChunkNodes := by
    obtain ⟨m, hm1, rfl⟩ := hb
    have : m ≤ 12 := by
      by_contra h
      have : 2 ^ 13 ≤ 2 ^ m := Nat.pow_le_pow_right (by omega) (by omega)
      simp only [buildChunkNodes] at hb'; omega
    exact ⟨2 ^ (12 - m), by rw [← Nat.pow_add, show m + (12 - m) = 12 by omega]; rfl⟩
  obtain ⟨q, hq⟩ := hq
  have heven : b ^ k % 2 = 0 := by
    obtain ⟨m, hm1, rfl⟩ := hb
    rw [← Nat.pow_mul, show m * k = (m * k - 1) + 1 by
      have : 1 * 1 ≤ m * k := Nat.mul_le_mul hm1 hk
      omega, Nat.pow_succ]
    omega
  have hs' : Filled fs s cap (rowStart b k (0 + 1)) (flat A.nodeHash b k leaf) := by
    refine ⟨hs.inv, by rw [hs.len_eq]; simp [rowStart], fun i hi => ?_⟩
    have hi : i < b ^ k := by simpa [rowStart] using hi
    rw [flat_leaf _ _ _ hi]
    exact hs.vals i hi
  have hfuel := le_pow_of_two_le hb2 k
  have hn : 0 < nodes b k := Nat.lt_of_lt_of_le (Nat.pow_pos (by omega)) (pow_le_nodes b k)
  unfold defaultBuild
  rw [M.bind_ok (mEnsure_true ((eq_nextPow2_iff b).2 hb.pow2).symm _ _),
    M.bind_ok (mEnsure_true hs.len_eq _ _), M.bind_ok (mEnsure_true heven _ _)]
  split
  · obtain ⟨s1, fs1, h1, h2, h3, h4⟩ := smallTreeLoop_ok (A := A) (k := k) hb leaf hcap (owns s)
      (b ^ k + 1) 0 s fs (by omega) (by omega) hs' rfl
    refine ⟨s1, fs1, ?_, h2, h3, h4⟩
    simp only [Nat.sub_zero, rowStart] at h1
    unfold buildSmallTree
    rw [M.bind_ok (mEnsure_true heven _ _), M.bind_ok h1]
    dsimp only
    rw [M.bind_ok (mEnsure_true rfl _ _),
      M.bind_ok (a := _) (fs' := fs1) (by rw [M.get_run, h2.last hn])]
    rw [flat_root]; rfl
  · obtain ⟨s1, fs1, h1, h2, h3, h4⟩ := buildLoop_ok (A := A) (k := k) hb hq leaf hcap hσ (owns s)
      (b ^ k + 1) 0 s fs (by omega) (by omega) hs' rfl
    refine ⟨s1, fs1, ?_, h2, h3, h4⟩
    simp only [Nat.sub_zero, rowStart] at h1
    rw [M.bind_ok h1]
    dsimp only
    rw [M.bind_ok (mEnsure_true rfl _ _),
      M.bind_ok (a := _) (fs' := fs1) (by rw [M.get_run, h2.last hn])]
    rw [flat_root]; rfl

end build
end Verif
