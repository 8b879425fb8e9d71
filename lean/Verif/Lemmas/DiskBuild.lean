import Verif.Lemmas.FileStore
/-! The builds of `DiskStore` and `LevelCacheStore`. -/
set_option linter.unusedSectionVars false
namespace Verif
open Spec

variable {E : Type} [Element E] [LawfulElement E]

theorem exists_quot {b : Nat} (hb : Arity b) (hb' : b ≤ buildChunkNodes) :
    ∃ q, b * q = buildChunkNodes := by
  obtain ⟨m, hm1, rfl⟩ := hb
  have : m ≤ 12 := by
    by_contra h
    have : 2 ^ 13 ≤ 2 ^ m := Nat.pow_le_pow_right (by omega) (by omega)
    simp only [buildChunkNodes] at hb'; omega
  exact ⟨2 ^ (12 - m), by rw [← Nat.pow_add, show m + (12 - m) = 12 by omega]; rfl⟩

theorem even_pow {b k : Nat} (hb : Arity b) (hk : 1 ≤ k) : b ^ k % 2 = 0 := by
  obtain ⟨m, hm1, rfl⟩ := hb
  rw [← Nat.pow_mul, show m * k = (m * k - 1) + 1 by
    have : 1 * 1 ≤ m * k := Nat.mul_le_mul hm1 hk
    omega, Nat.pow_succ]
  omega

theorem writeChunkWidth_eq {b q : Nat} (hb : Arity b) (hq : b * q = buildChunkNodes) :
    writeChunkWidth E b = q * Element.byteLen E := by
  unfold writeChunkWidth
  rw [hb.shiftRight, ← hq, Nat.mul_div_cancel_left _ (by have := hb.two_le; omega)]

theorem mmapTasks_eq {b q w : Nat} (hb : Arity b) (hq : b * q = buildChunkNodes) (hw : 0 < w) :
    mmapTasks E b (b * w) = numChunks (b * w) := by
  have hb2 := hb.two_le
  have hp := LawfulElement.byteLen_pos (E := E)
  have hq0 : 0 < q := by
    rcases Nat.eq_zero_or_pos q with h | h
    · subst h; simp [buildChunkNodes] at hq
    · exact h
  unfold mmapTasks
  dsimp only
  rw [writeChunkWidth_eq hb hq]
  apply Nat.min_eq_left
  rw [Nat.le_div_iff_mul_le (Nat.mul_pos hq0 hp)]
  obtain ⟨n, hn⟩ : ∃ n, numChunks (b * w) = n := ⟨_, rfl⟩
  rw [hn]
  have hW : 0 < b * w := Nat.mul_pos (by omega) hw
  rcases n with _ | n
  · simp
  · have h1 : n * buildChunkNodes < b * w := by
      unfold numChunks at hn
      simp only [buildChunkNodes] at hn ⊢
      omega
    have h2 : n * q ≤ n * buildChunkNodes := Nat.mul_le_mul_left n (by
      rw [← hq]; exact Nat.le_mul_of_pos_left q (by omega))
    have h3 : n * q + 1 ≤ b * w := by omega
    have h4 := Nat.mul_le_mul_right (Element.byteLen E) h3
    have e1 : (n * q + 1) * Element.byteLen E = n * q * Element.byteLen E + Element.byteLen E := by
      ring
    have e2 : (n + 1) * (q * Element.byteLen E)
        = n * q * Element.byteLen E + q * Element.byteLen E := by ring
    omega

/-- A write of a memory-mapped task. -/
theorem mmapTaskWrite_ok {b q w ws t : Nat} {es : List E} {fs : FS} {f : FileId} {bs : Bytes}
    (hb : Arity b) (hq : b * q = buildChunkNodes) (hes : es.length ≤ q)
    (hw : t * q + es.length ≤ w) (hbs : fs.file f = some bs)
    (hroom : (ws + w) * Element.byteLen E ≤ bs.length) :
    ∃ fs', mmapTaskWrite E b (b * w) ws f t (encodeAll es) fs = (.ok (), fs') ∧
      fs'.file f = some (patch bs ((ws + t * q) * Element.byteLen E) (encodeAll es)) ∧
      (ws + t * q) * Element.byteLen E + (encodeAll es).length ≤ bs.length ∧
      SameOutside (fun g => g = f) fs fs' := by
  have hb2 := hb.two_le
  have hlen := length_encodeAll es
  have h1 : es.length * Element.byteLen E ≤ q * Element.byteLen E := Nat.mul_le_mul_right _ hes
  have h2 : (t * q + es.length) * Element.byteLen E ≤ w * Element.byteLen E :=
    Nat.mul_le_mul_right _ hw
  have h3 : w * Element.byteLen E ≤ b * w * Element.byteLen E :=
    Nat.mul_le_mul_right _ (Nat.le_mul_of_pos_left w (by omega))
  have e1 : (t * q + es.length) * Element.byteLen E
      = t * (q * Element.byteLen E) + es.length * Element.byteLen E := by ring
  have e2 : (ws + t * q) * Element.byteLen E
      = ws * Element.byteLen E + t * (q * Element.byteLen E) := by ring
  have e3 : (ws + w) * Element.byteLen E = ws * Element.byteLen E + w * Element.byteLen E := by ring
  unfold mmapTaskWrite
  rw [writeChunkWidth_eq hb hq, if_pos (by omega), ← e2]
  obtain ⟨fs', g1, g2, g3⟩ := mmapWrite_ok (off := (ws + t * q) * Element.byteLen E)
    (data := encodeAll es) hbs (by omega)
  exact ⟨fs', g1, g2, by omega, g3⟩

namespace DiskStore
open LawfulWrite

theorem processLayer_ok {A : Alg E} {b q w level rs ws cap : Nat} (hb : Arity b)
    (hq : b * q = buildChunkNodes) (hw : 0 < w) (hrsws : rs + b * w ≤ ws) (hcap : ws + w ≤ cap)
    {σ : Sched} (hσ : σ.Valid) {g : Nat → E}
    (hg : ∀ j, j < w → g (ws + j) = A.nodeHash ((List.range b).map fun c => g (rs + (b * j + c))) level)
    {s : DiskStore E} {fs : FS} (hs : Filled fs s cap ws g) :
    ∃ fs', DiskStore.processLayer A b σ s (b * w) level rs ws fs = (.ok s, fs') ∧
      Filled fs' ({ s with len := ws + w } : DiskStore E) cap (ws + w) g ∧
      SameOutside (fun f => f = s.file) fs fs' := by
  have hb2 := hb.two_le
  have hlen : s.len = ws := hs.len_eq
  obtain ⟨bs0, hbs0, hsz0, hcap0⟩ := hs.inv
  obtain ⟨s', fs', hrun, ⟨rfl, ⟨bs, hbs, hsz⟩, hsame⟩, hK, hvals⟩ :=
    layer_ok (S := DiskStore E) (A := A) (w := w) (level := level) (rs := rs) (ws := ws) (by omega) hq
    (holds := fun fs s i e => FileHolds fs s.file i e)
    (J := fun fs1 s1 => s1 = s ∧ (∃ bs, fs1.file s.file = some bs ∧ bs.length = s.storeSize) ∧
      SameOutside (fun f => f = s.file) fs fs1)
    (K := fun _ _ => True)
    (rdRange := DiskStore.readRange) (rd := DiskStore.layerRead A b (b * w) level rs)
    (wr := fun t bs s => do
      mmapTaskWrite E b (b * w) ws s.file t bs
      pure s) (g := g) hg
    (fun t s fs => rfl)
    (by
      rintro fs1 s1 a m ⟨rfl, _⟩ hm ha hle hh
      exact DiskStore.readRange_eq hm (by omega) hh)
    (by
      rintro fs1 s1 t es ⟨rfl, ⟨bs, h1, h2⟩, h4⟩ ht hle hle2 hpos
      have hroom : (ws + w) * Element.byteLen E ≤ bs.length := by
        rw [h2]; exact (Nat.mul_le_mul_right _ hcap).trans hcap0.ge
      obtain ⟨fs2, w1, w2, w3, w4⟩ := mmapTaskWrite_ok (ws := ws) hb hq hle2 hle h1 hroom
      refine ⟨s1, fs2, ?_, ⟨rfl, ⟨_, w2, by rw [patch_length w3]; exact h2⟩, h4.trans w4⟩,
        fun _ => trivial, fun _ _ => trivial, ?_, ?_⟩
      · rw [M.bind_ok w1]; rfl
      · intro j hj; exact FileHolds.patch_in w3 w2 j hj
      · intro i e hi he; exact FileHolds.patch_out h1 w3 w2 hi he)
    (hσ level (numChunks (b * w))) (s := s) (fs := fs)
    ⟨rfl, ⟨bs0, hbs0, hsz0⟩, SameOutside.refl _ _⟩
    (P := fun i => i < ws) (fun i _ h => by omega) (fun i h => h) hs.vals
  refine ⟨fs', ?_, ⟨⟨bs, hbs, hsz, hcap0⟩, rfl, ?_⟩, hsame⟩
  · unfold DiskStore.processLayer
    rw [M.bind_ok (a := ()) (fs' := fs) (by
        unfold FS.openFile; rw [M.get_run, FS.contents_ok hbs0]; rfl),
      M.bind_ok (mEnsure_true (by rw [← hq]; exact Nat.mul_mod_right b q) _ _), mmapTasks_eq hb hq hw]
    exact hrun
  · intro i hi
    exact hvals i (by omega)

theorem buildLoop_ok {A : Alg E} {b k cap q : Nat} (hb : Arity b) (hq : b * q = buildChunkNodes)
    (leaf : Nat → E) (hcap : nodes b k ≤ cap) {σ : Sched} (hσ : σ.Valid) :
    ∀ (f l : Nat) (s : DiskStore E) (fs : FS), l ≤ k → k - l < f →
    Filled fs s cap (rowStart b k (l + 1)) (flat A.nodeHash b k leaf) →
    ∃ fs', DiskStore.buildLoop A b σ f (b ^ (k - l)) l (rowStart b k l) s fs
        = (.ok ({ s with len := nodes b k }, k), fs') ∧
      Filled fs' ({ s with len := nodes b k } : DiskStore E) cap (nodes b k) (flat A.nodeHash b k leaf) ∧
      SameOutside (fun f => f = s.file) fs fs' := by
  have hb2 := hb.two_le
  intro f
  induction f with
  | zero => intro l s fs _ h; omega
  | succ f ih =>
    intro l s fs hl hf hs
    have hlen : s.len = rowStart b k (l + 1) := hs.len_eq
    unfold DiskStore.buildLoop
    rcases Nat.eq_or_lt_of_le hl with h | h
    · subst h
      simp only [Nat.sub_self, Nat.pow_zero, gt_iff_lt, Nat.lt_irrefl, ↓reduceIte]
      rw [rowStart_end] at hs hlen
      have : ({ s with len := nodes b l } : DiskStore E) = s := by rw [← hlen]
      rw [this]
      exact ⟨fs, rfl, hs, SameOutside.refl _ _⟩
    · have hpw : b ^ (k - l) = b * b ^ (k - (l + 1)) := by
        rw [show k - l = (k - (l + 1)) + 1 by omega, Nat.pow_succ]; ring
      have hp : 0 < b ^ (k - (l + 1)) := Nat.pow_pos (by omega)
      have hgt : b ^ (k - l) > 1 := by
        rw [hpw]; calc 1 < 2 * 1 := by omega
          _ ≤ b * b ^ (k - (l + 1)) := Nat.mul_le_mul hb2 hp
      have hrs : rowStart b k (l + 1) = rowStart b k l + b ^ (k - l) := rfl
      simp only [hgt, ↓reduceIte]
      have hrw : (if l = 0 then (0, s.len) else
          (rowStart b k l, rowStart b k l + b ^ (k - l))) = (rowStart b k l, rowStart b k (l + 1)) := by
        split
        · rename_i h0; subst h0; rw [hlen]; rfl
        · rw [hrs]
      rw [hrw]
      dsimp only
      have hnext : nodes b k = rowStart b k (l + 1) + nodes b (k - (l + 1)) :=
        (rowStart_le_nodes b k (l + 1) h).symm
      have hpn := pow_le_nodes b (k - (l + 1))
      obtain ⟨fs1, h1, h2, h3⟩ := processLayer_ok (A := A) (w := b ^ (k - (l + 1)))
        (level := l) (rs := rowStart b k l) (ws := rowStart b k (l + 1)) hb hq hp
        (by omega) (by omega) hσ (g := flat A.nodeHash b k leaf)
        (fun j hj => flat_step A.nodeHash leaf h (by rwa [show k - l - 1 = k - (l + 1) by omega])) hs
      rw [hpw, M.bind_ok h1]
      rw [← hpw, hb.shiftRight, hpw, Nat.mul_div_cancel_left _ (by omega), ← hpw, ← hrs, hlen]
      obtain ⟨fs2, g1, g2, g3⟩ := ih (l + 1) _ fs1 h (by omega) h2
      exact ⟨fs2, g1, g2, h3.trans g3⟩

theorem build_ok [FloatRows] {A : Alg E} {b k cap : Nat} (hb : Arity b) (hb' : b ≤ buildChunkNodes)
    (hk : 1 ≤ k) (leaf : Nat → E) (hcap : nodes b k ≤ cap) {σ : Sched} (hσ : σ.Valid)
    {s : DiskStore E} {fs : FS} (hs : Filled fs s cap (b ^ k) leaf) (cfg : Option StoreConfig) :
    ∃ fs', DiskStore.build A b σ s (b ^ k) (k + 1) cfg fs
        = (.ok (root A.nodeHash b k leaf, { s with len := nodes b k }), fs') ∧
      Filled fs' ({ s with len := nodes b k } : DiskStore E) cap (nodes b k) (flat A.nodeHash b k leaf) ∧
      SameOutside (fun f => f = s.file) fs fs' := by
  have hb2 := hb.two_le
  obtain ⟨q, hq⟩ := exists_quot hb hb'
  have hs' : Filled fs s cap (rowStart b k (0 + 1)) (flat A.nodeHash b k leaf) := by
    refine ⟨hs.inv, by rw [hs.len_eq]; simp [rowStart], fun i hi => ?_⟩
    have hi : i < b ^ k := by simpa [rowStart] using hi
    rw [flat_leaf _ _ _ hi]
    exact hs.vals i hi
  have hfuel := le_pow_of_two_le hb2 k
  have hn : 0 < nodes b k := Nat.lt_of_lt_of_le (Nat.pow_pos (by omega)) (pow_le_nodes b k)
  have hlen : s.len = b ^ k := hs.len_eq
  obtain ⟨fs1, h1, h2, h3⟩ := buildLoop_ok (A := A) (k := k) hb hq leaf hcap hσ
      (b ^ k + 1) 0 s fs (by omega) (by omega) hs'
  refine ⟨fs1, ?_, h2, h3⟩
  simp only [Nat.sub_zero, rowStart] at h1
  unfold DiskStore.build
  rw [M.bind_ok (mEnsure_true ((eq_nextPow2_iff b).2 hb.pow2).symm _ _),
    M.bind_ok (mEnsure_true hlen _ _), M.bind_ok (mEnsure_true (even_pow hb hk) _ _),
    M.bind_ok h1]
  dsimp only
  rw [M.bind_ok (a := nodes b k) (fs' := fs1) (by rw [M.ofRes_run, merkleTreeLen_pow hb hk]),
    M.bind_ok (mEnsure_true rfl _ _), M.bind_ok (mEnsure_true rfl _ _),
    M.bind_ok (a := _) (fs' := fs1) (by rw [M.get_run, h2.last hn])]
  rw [flat_root]; rfl

end DiskStore

/-! ### `LevelCacheStore` -/
namespace LevelCacheStore

/-- State of the file during the build: `off` nodes have been removed from the front. -/
structure Partial (fs : FS) (s : LevelCacheStore E) (off n total : Nat) (g : Nat → E) : Prop where
  size : ∃ bs, fs.file s.file = some bs ∧ bs.length = (total - off) * Element.byteLen E
  vals : ∀ i, off ≤ i → i < n → FileHolds fs s.file (i - off) (g i)

theorem checkRange_ok {s : LevelCacheStore E} {a c : Nat} (h1 : a < s.len * Element.byteLen E)
    (h2 : c ≤ s.len * Element.byteLen E) (h3 : s.InBounds a) :
    LevelCacheStore.checkRange s a c = .ok () := by
  unfold LevelCacheStore.checkRange
  dsimp only
  rw [ensure_true h1, Res.ok_bind, ensure_true h2, Res.ok_bind, ensure_true h3]

theorem readRangeInternal_eq {fs : FS} {s : LevelCacheStore E} {a m : Nat} {g : Nat → E} (hm : 0 < m)
    (hle : a + m ≤ s.len) (hdw : a ≤ s.dataWidth)
    (hh : ∀ i, a ≤ i → i < a + m → FileHolds fs s.file i (g i)) :
    readRangeInternal fs s a (a + m) = .ok ((List.range m).map fun c => g (a + c)) := by
  have hp := LawfulElement.byteLen_pos (E := E)
  obtain ⟨bs, h1, h2, h3⟩ := file_slots hm hh
  unfold readRangeInternal
  have e1 : (a + m) * Element.byteLen E
      = a * Element.byteLen E + m * Element.byteLen E := by ring
  have e2 : (a + m) * Element.byteLen E ≤ s.len * Element.byteLen E := Nat.mul_le_mul_right _ hle
  have e3 : 0 < m * Element.byteLen E := Nat.mul_pos hm hp
  have hin : s.InBounds (a * Element.byteLen E) := Or.inl (Nat.mul_le_mul_right _ hdw)
  dsimp only
  rw [checkRange_ok (by omega) (by omega) hin, Res.ok_bind]
  unfold storeReadRangeInternal
  rw [subP_ok (by omega), Res.ok_bind, ensure_true hin, Res.ok_bind]
  rw [show (a + m) * Element.byteLen E - a * Element.byteLen E = m * Element.byteLen E by omega]
  rw [readExactAt_ok h1 (by omega), Res.ok_bind, h3]

theorem readAtInternal_eq {fs : FS} {s : LevelCacheStore E} {i : Nat} {e : E} (hi : i < s.len)
    (hdw : i ≤ s.dataWidth) (he : FileHolds fs s.file i e) : readAtInternal fs s i = .ok e := by
  have hp := LawfulElement.byteLen_pos (E := E)
  have e1 : (i + 1) * Element.byteLen E = i * Element.byteLen E + Element.byteLen E := by ring
  have e2 : (i + 1) * Element.byteLen E ≤ s.len * Element.byteLen E := Nat.mul_le_mul_right _ hi
  obtain ⟨bs, h1, h2⟩ := fromSlice_slot he
  have hin : s.InBounds (i * Element.byteLen E) := Or.inl (Nat.mul_le_mul_right _ hdw)
  unfold readAtInternal
  dsimp only
  rw [checkRange_ok (by omega) (by omega) hin, Res.ok_bind]
  unfold storeReadRangeInternal
  rw [subP_ok (by omega), Res.ok_bind, ensure_true hin, Res.ok_bind, Nat.add_sub_cancel_left, h1,
    Res.ok_bind, h2]

/-- One layer: reads row `[r, r + b*w)` and writes `[n, n + w)` (positions in the whole tree). -/
theorem processLayer_ok {A : Alg E} {b q w level off r n total : Nat} (hb : Arity b)
    (hq : b * q = buildChunkNodes) (hw : 0 < w) (hoff : off ≤ r) (hrn : r + b * w ≤ n)
    (htot : n + w ≤ total) {σ : Sched} (hσ : σ.Valid) {g : Nat → E}
    (hg : ∀ j, j < w → g (n + j) = A.nodeHash ((List.range b).map fun c => g (r + (b * j + c))) level)
    {s : LevelCacheStore E} {fs : FS} (hs : Partial fs s off n total g)
    (hlen : r - off + b * w ≤ s.len) (hdw : r - off + b * w ≤ s.dataWidth) :
    ∃ fs', LevelCacheStore.processLayer A b σ s (b * w) level (r - off) (n - off) fs = (.ok s, fs') ∧
      Partial fs' s off (n + w) total g ∧ SameOutside (fun f => f = s.file) fs fs' := by
  have hb2 := hb.two_le
  obtain ⟨bs0, hbs0, hsz0⟩ := hs.size
  have hg' : ∀ j, j < w → g (n - off + j + off)
      = A.nodeHash ((List.range b).map fun c => g (r - off + (b * j + c) + off)) level := by
    intro j hj
    rw [show n - off + j + off = n + j by omega, hg j hj]
    congr 1
    apply List.map_congr_left
    intro c _
    congr 1; omega
  obtain ⟨s', fs', hrun, ⟨rfl, ⟨bs, hbs, hsz⟩, hsame⟩, hK, hvals⟩ :=
    layer_ok (S := LevelCacheStore E) (A := A) (w := w) (level := level) (rs := r - off)
    (ws := n - off) (by omega) hq
    (holds := fun fs s i e => FileHolds fs s.file i e)
    (J := fun fs1 s1 => s1 = s ∧ (∃ bs, fs1.file s.file = some bs ∧
        bs.length = (total - off) * Element.byteLen E) ∧
      SameOutside (fun f => f = s.file) fs fs1)
    (K := fun _ _ => True)
    (rdRange := readRangeInternal) (rd := LevelCacheStore.layerRead A b (b * w) level (r - off))
    (wr := fun t bs s => do
      mmapTaskWrite E b (b * w) (n - off) s.file t bs
      pure s) (g := fun i => g (i + off)) hg'
    (fun t s fs => rfl)
    (by
      rintro fs1 s1 a m ⟨rfl, _⟩ hm ha hle hh
      exact readRangeInternal_eq (g := fun i => g (i + off)) hm (by omega) (by omega) hh)
    (by
      rintro fs1 s1 t es ⟨rfl, ⟨bs, h1, h2⟩, h4⟩ ht hle hle2 hpos
      have hroom : (n - off + w) * Element.byteLen E ≤ bs.length := by
        rw [h2]; exact (Nat.mul_le_mul_right _ (by omega))
      obtain ⟨fs2, w1, w2, w3, w4⟩ := mmapTaskWrite_ok (ws := n - off) hb hq hle2 hle h1 hroom
      refine ⟨s1, fs2, ?_, ⟨rfl, ⟨_, w2, by rw [patch_length w3]; exact h2⟩, h4.trans w4⟩,
        fun _ => trivial, fun _ _ => trivial, ?_, ?_⟩
      · rw [M.bind_ok w1]; rfl
      · intro j hj; exact FileHolds.patch_in w3 w2 j hj
      · intro i e hi he; exact FileHolds.patch_out h1 w3 w2 hi he)
    (hσ level (numChunks (b * w))) (s := s) (fs := fs)
    ⟨rfl, ⟨bs0, hbs0, hsz0⟩, SameOutside.refl _ _⟩
    (P := fun i => i < n - off) (fun i _ h => by omega) (fun i h => h)
    (fun i hi => by
      have := hs.vals (i + off) (by omega) (by omega)
      rwa [Nat.add_sub_cancel] at this)
  refine ⟨fs', ?_, ⟨⟨bs, hbs, hsz⟩, ?_⟩, hsame⟩
  · unfold LevelCacheStore.processLayer
    rw [M.bind_ok (a := ()) (fs' := fs) (by
        unfold FS.openFile; rw [M.get_run, FS.contents_ok hbs0]; rfl),
      M.bind_ok (mEnsure_true (by rw [← hq]; exact Nat.mul_mod_right b q) _ _), mmapTasks_eq hb hq hw]
    exact hrun
  · intro i hi1 hi2
    have := hvals (i - off) (by omega)
    rwa [show i - off + off = i by omega] at this

theorem patch_zero_drop (bs : Bytes) (m : Nat) (_h : m ≤ bs.length) :
    (patch bs 0 (bs.drop m)).take (bs.length - m) = bs.drop m := by
  rw [patch_eq (by omega)]
  rw [List.take_zero, List.nil_append, List.take_append_of_le_length (by simp)]
  rw [List.take_of_length_le (by simp)]

/-- `copyWithin` to the front followed by `set_len` removes the first bytes. -/
theorem copyFront_ok {fs : FS} {f : FileId} {bs : Bytes} {m : Nat} (h : fs.file f = some bs)
    (hm : m ≤ bs.length) :
    ∃ fs1, DiskStore.copyWithin f m 0 fs = (.ok (bs.length - m), fs1) ∧
      SameOutside (fun g => g = f) fs fs1 ∧ fs1.file f = some (patch bs 0 (bs.drop m)) ∧
      ∃ fs2, FS.setLen f (bs.length - m) fs1 = (.ok (), fs2) ∧ fs2.file f = some (bs.drop m) ∧
        SameOutside (fun g => g = f) fs1 fs2 := by
  obtain ⟨fs1, w1, w2, w3⟩ := writeAllAt_ok (data := bs.drop m) (off := 0) h (by simp)
  refine ⟨fs1, ?_, w3, w2, ?_⟩
  · unfold DiskStore.copyWithin
    rw [M.bind_ok (a := bs) (fs' := fs) (by rw [M.get_run, FS.contents_ok h])]
    rw [if_neg (by omega), M.bind_ok w1]
    simp
  · refine ⟨_, by unfold FS.setLen; rw [FS.contents_ok w2], ?_, set_sameOutside _ _ _⟩
    rw [FS.set_self]
    congr 1
    rw [patch_zero_drop bs m hm, patch_length (by simp)]
    rw [show bs.length - m - bs.length = 0 by omega]
    simp

theorem frontTruncate_ok {s : LevelCacheStore E} {config : StoreConfig} {fs : FS}
    {off n total m : Nat} {g : Nat → E} (hf : s.file = config.file)
    (hs : Partial fs s off n total g) (hm : off + m ≤ total) :
    ∃ fs', frontTruncate s config m fs = (.ok s, fs') ∧ Partial fs' s (off + m) n total g ∧
      SameOutside (fun f => f = s.file) fs fs' := by
  obtain ⟨bs, hbs, hsz⟩ := hs.size
  have hle : m * Element.byteLen E ≤ bs.length := by
    rw [hsz]; exact Nat.mul_le_mul_right _ (by omega)
  obtain ⟨fs1, c1, c2, c3, fs2, c4, c5, c6⟩ := copyFront_ok hbs hle
  refine ⟨fs2, ?_, ⟨⟨_, c5, ?_⟩, ?_⟩, c2.trans c6⟩
  · unfold frontTruncate
    rw [M.bind_ok (a := bs.length) (fs' := fs) (by
      rw [M.get_run]; unfold FS.fileLen; rw [FS.contents_ok hbs]; rfl)]
    rw [M.bind_ok (mEnsure_true hle _ _), M.bind_ok (a := ()) (fs' := fs) (by
        unfold FS.openFile; rw [M.get_run, ← hf, FS.contents_ok hbs]; rfl)]
    rw [← hf, M.bind_ok c1, M.bind_ok (mEnsure_true rfl _ _), M.bind_ok c4]
    rfl
  · rw [List.length_drop, hsz, show total - (off + m) = total - off - m by omega, ← Nat.sub_mul]
  · intro i hi1 hi2
    obtain ⟨bs', h1, h2, h3⟩ := hs.vals i (by omega) hi2
    rw [hbs] at h1
    cases h1
    have e : (i - off) * Element.byteLen E
        = m * Element.byteLen E + (i - (off + m)) * Element.byteLen E := by
      rw [← Nat.add_mul]; congr 1; omega
    have e' : (i - off + 1) * Element.byteLen E
        = m * Element.byteLen E + (i - (off + m) + 1) * Element.byteLen E := by
      rw [← Nat.add_mul]; congr 1; omega
    refine ⟨_, c5, by rw [List.length_drop]; omega, ?_⟩
    rw [← h3, e]
    simp only [region, List.drop_drop]

theorem nodes_lt_pow {b : Nat} (hb : 2 ≤ b) : ∀ k, nodes b k < b ^ (k + 1)
  | 0 => by simp [nodes]; omega
  | k + 1 => by
    have := nodes_lt_pow hb k
    rw [nodes, Nat.pow_succ b (k + 1)]
    have : b ^ (k + 1) * 2 ≤ b ^ (k + 1) * b := Nat.mul_le_mul_left _ hb
    omega

theorem buildLoop_ok {A : Alg E} {b k d q : Nat} (hb : Arity b) (hq : b * q = buildChunkNodes)
    (hd : d < k) (leaf : Nat → E) {σ : Sched} (hσ : σ.Valid) (config : StoreConfig) :
    ∀ (f l : Nat) (s : LevelCacheStore E) (fs : FS), l ≤ k → k - l < f → s.file = config.file →
    s.dataWidth = b ^ k → s.len = (if l = 0 then b ^ k else rowStart b k l) →
    Partial fs s (rowStart b k (min l (d + 1))) (rowStart b k (l + 1)) (nodes b k)
      (flat A.nodeHash b k leaf) →
    ∃ fs', LevelCacheStore.buildLoop A b σ config (rowStart b k (d + 1)) f (b ^ (k - l)) l
        (rowStart b k l) s fs
        = (.ok ({ s with len := rowStart b k k }, k), fs') ∧
      Partial fs' s (rowStart b k (d + 1)) (nodes b k) (nodes b k)
        (flat A.nodeHash b k leaf) ∧ SameOutside (fun f => f = config.file) fs fs' := by
  have hb2 := hb.two_le
  intro f
  induction f with
  | zero => intro l s fs _ h; omega
  | succ f ih =>
    intro l s fs hl hf hfile hdw hlen hs
    unfold LevelCacheStore.buildLoop
    rcases Nat.eq_or_lt_of_le hl with h | h
    · subst h
      simp only [Nat.sub_self, Nat.pow_zero, gt_iff_lt, Nat.lt_irrefl, ↓reduceIte]
      rw [rowStart_end, Nat.min_eq_right (by omega)] at hs
      rw [if_neg (by omega)] at hlen
      have : ({ s with len := rowStart b l l } : LevelCacheStore E) = s := by rw [← hlen]
      rw [this]
      exact ⟨fs, rfl, hs, SameOutside.refl _ _⟩
    · have hpw : b ^ (k - l) = b * b ^ (k - (l + 1)) := by
        rw [show k - l = (k - (l + 1)) + 1 by omega, Nat.pow_succ]; ring
      have hp : 0 < b ^ (k - (l + 1)) := Nat.pow_pos (by omega)
      have hgt : b ^ (k - l) > 1 := by
        rw [hpw]; calc 1 < 2 * 1 := by omega
          _ ≤ b * b ^ (k - (l + 1)) := Nat.mul_le_mul hb2 hp
      have hrs : rowStart b k (l + 1) = rowStart b k l + b ^ (k - l) := rfl
      have hnext : nodes b k = rowStart b k (l + 1) + nodes b (k - (l + 1)) :=
        (rowStart_le_nodes b k (l + 1) h).symm
      have hpn := pow_le_nodes b (k - (l + 1))
      have hlk : b ^ (k - l) ≤ b ^ k := Nat.pow_le_pow_right (by omega) (by omega)
      simp only [hgt, ↓reduceIte]
      -- comparison of the row with the start of the cache
      have hcmp : rowStart b k l < rowStart b k (d + 1) ↔ l ≤ d := by
        constructor
        · intro hlt
          by_contra hnle
          have := rowStart_mono (b := b) (k := k) (show d + 1 ≤ l by omega)
          omega
        · intro hle
          have h1 := rowStart_mono (b := b) (k := k) (show l + 1 ≤ d + 1 by omega)
          have : 0 < b ^ (k - l) := Nat.pow_pos (by omega)
          omega
      have hmono := rowStart_mono (b := b) (k := k) (show min l (d + 1) ≤ l by omega)
      have h1le : b ^ k ≤ rowStart b k (d + 1) := by
        have := rowStart_mono (b := b) (k := k) (show 1 ≤ d + 1 by omega)
        simpa [rowStart] using this
      have hrw : (if l = 0 then (0, s.len) else if rowStart b k l < rowStart b k (d + 1) then
            (0, b ^ (k - l)) else (rowStart b k l - rowStart b k (d + 1),
              rowStart b k l + b ^ (k - l) - rowStart b k (d + 1)))
          = (rowStart b k l - rowStart b k (min l (d + 1)),
             rowStart b k (l + 1) - rowStart b k (min l (d + 1))) := by
        by_cases h0 : l = 0
        · subst h0; simp [hlen, rowStart]
        · rw [if_neg h0]
          by_cases hld : l ≤ d
          · rw [if_pos (hcmp.2 hld), Nat.min_eq_left (by omega), hrs]; simp
          · rw [if_neg (fun h => hld (hcmp.1 h)), Nat.min_eq_right (by omega), hrs]
      rw [hrw]
      dsimp only
      -- reads stay within the bounds the store checks
      have hbound : rowStart b k l - rowStart b k (min l (d + 1)) + b ^ (k - l) ≤ b ^ k ∧
          rowStart b k l - rowStart b k (min l (d + 1)) + b ^ (k - l) ≤ s.len := by
        by_cases hld : l ≤ d
        · rw [Nat.min_eq_left (by omega), Nat.sub_self, Nat.zero_add]
          refine ⟨hlk, ?_⟩
          rw [hlen]
          split
          · exact hlk
          · have := rowStart_mono (b := b) (k := k) (show 1 ≤ l by omega)
            simp only [rowStart, Nat.zero_add, Nat.sub_zero] at this
            omega
        · rw [Nat.min_eq_right (by omega)]
          have hge := rowStart_mono (b := b) (k := k) (show d + 1 ≤ l by omega)
          constructor
          · have e := rowStart_le_nodes b k (d + 1) (by omega)
            have e2 := nodes_lt_pow hb2 (k - (d + 1))
            have e3 : b ^ (k - (d + 1) + 1) ≤ b ^ k := Nat.pow_le_pow_right (by omega) (by omega)
            omega
          · rw [hlen, if_neg (by omega)]
            omega
      obtain ⟨fs1, h1, h2, h3⟩ := processLayer_ok (A := A) (w := b ^ (k - (l + 1)))
        (level := l) (off := rowStart b k (min l (d + 1))) (r := rowStart b k l)
        (n := rowStart b k (l + 1)) (total := nodes b k) hb hq hp
        hmono (by omega) (by omega) hσ (g := flat A.nodeHash b k leaf)
        (fun j hj => flat_step A.nodeHash leaf h (by rwa [show k - l - 1 = k - (l + 1) by omega])) hs
        (by omega) (by omega)
      rw [hpw, M.bind_ok h1]
      rw [← hpw]
      have hstep : ∃ fs2, (if rowStart b k l < rowStart b k (d + 1) then
            frontTruncate s config (b ^ (k - l)) else pure s) fs1 = (.ok s, fs2) ∧
          Partial fs2 s (rowStart b k (min (l + 1) (d + 1))) (rowStart b k (l + 1 + 1)) (nodes b k)
            (flat A.nodeHash b k leaf) ∧ SameOutside (fun f => f = s.file) fs1 fs2 := by
        by_cases hld : l ≤ d
        · rw [if_pos (hcmp.2 hld)]
          rw [Nat.min_eq_left (by omega)] at h2
          obtain ⟨fs2, t1, t2, t3⟩ := frontTruncate_ok (m := b ^ (k - l)) hfile h2 (by omega)
          refine ⟨fs2, t1, ?_, t3⟩
          rw [Nat.min_eq_left (by omega)]
          exact t2
        · rw [if_neg (fun h => hld (hcmp.1 h))]
          rw [Nat.min_eq_right (by omega)] at h2
          exact ⟨fs1, rfl, by rw [Nat.min_eq_right (by omega)]; exact h2, SameOutside.refl _ _⟩
      obtain ⟨fs2, t1, t2, t3⟩ := hstep
      rw [M.bind_ok t1, hb.shiftRight]
      rw [show b ^ (k - l) / b = b ^ (k - (l + 1)) by
        rw [hpw, Nat.mul_div_cancel_left _ (by omega)], ← hrs]
      obtain ⟨fs3, g1, g2, g3⟩ := ih (l + 1) { s with len := rowStart b k (l + 1) } fs2 h (by omega)
        hfile hdw (by simp) ⟨t2.size, t2.vals⟩
      refine ⟨fs3, g1, ⟨g2.size, g2.vals⟩, ?_⟩
      rw [hfile] at h3 t3
      exact (h3.trans t3).trans g3

/-- What a level cache build leaves behind: only the rows above the discarded ones, in order. -/
theorem build_ok [FloatRows] {A : Alg E} {b k : Nat} (hb : Arity b) (hb' : b ≤ buildChunkNodes)
    (hk : 1 ≤ k) (leaf : Nat → E) {σ : Sched} (hσ : σ.Valid) (hf : FloatRows.ExactAt b k)
    {config : StoreConfig} (hd : config.rowsToDiscard < k)
    {s : LevelCacheStore E} {fs : FS} (hfile : s.file = config.file) (hdw : s.dataWidth = b ^ k)
    (hlen : s.len = b ^ k)
    (hs : Partial fs s 0 (b ^ k) (nodes b k) leaf) :
    ∃ fs', LevelCacheStore.build A b σ s (b ^ k) (k + 1) (some config) fs
        = (.ok (root A.nodeHash b k leaf, { s with len := nodes b k }), fs') ∧
      Partial fs' s (rowStart b k (config.rowsToDiscard + 1)) (nodes b k) (nodes b k)
        (flat A.nodeHash b k leaf) ∧ SameOutside (fun f => f = config.file) fs fs' := by
  have hb2 := hb.two_le
  obtain ⟨q, hq⟩ := exists_quot hb hb'
  have hfuel := le_pow_of_two_le hb2 k
  have hn : 0 < nodes b k := Nat.lt_of_lt_of_le (Nat.pow_pos (by omega)) (pow_le_nodes b k)
  have hs' : Partial fs s (rowStart b k (min 0 (config.rowsToDiscard + 1))) (rowStart b k (0 + 1))
      (nodes b k) (flat A.nodeHash b k leaf) := by
    simp only [Nat.zero_min, rowStart, Nat.zero_add, Nat.sub_zero]
    refine ⟨hs.size, fun i h1 h2 => ?_⟩
    rw [flat_leaf _ _ _ h2]
    exact hs.vals i h1 h2
  obtain ⟨fs1, h1, h2, h3⟩ := buildLoop_ok (A := A) (k := k) (d := config.rowsToDiscard) hb hq hd
    leaf hσ config (b ^ k + 1) 0 s fs (by omega) (by omega) hfile hdw (by simpa using hlen) hs'
  refine ⟨fs1, ?_, h2, h3⟩
  simp only [Nat.sub_zero] at h1
  rw [show rowStart b k 0 = 0 from rfl] at h1
  have hcs := rowStart_le_nodes b k (config.rowsToDiscard + 1) (by omega)
  rw [show k - (config.rowsToDiscard + 1) = k - 1 - config.rowsToDiscard by omega] at hcs
  have hcpos : 0 < nodes b (k - 1 - config.rowsToDiscard) :=
    Nat.lt_of_lt_of_le (Nat.pow_pos (by omega)) (pow_le_nodes b _)
  unfold LevelCacheStore.build
  rw [M.bind_ok (mEnsure_true ((eq_nextPow2_iff b).2 hb.pow2).symm _ _),
    M.bind_ok (mEnsure_true hlen _ _), M.bind_ok (mEnsure_true (even_pow hb hk) _ _)]
  dsimp only
  rw [M.bind_ok (a := nodes b (k - 1 - config.rowsToDiscard)) (fs' := fs)
      (by rw [M.ofRes_run, merkleTreeCacheSize_pow hb hk hf hd]),
    M.bind_ok (a := nodes b k) (fs' := fs) (by rw [M.ofRes_run, merkleTreeLen_pow hb hk]),
    M.bind_ok (a := rowStart b k (config.rowsToDiscard + 1)) (fs' := fs) (by
      rw [M.ofRes_run, subP_ok (by omega)]; congr 2; omega),
    M.bind_ok h1]
  dsimp only
  rw [rowStart_top]
  rw [M.bind_ok (a := nodes b k) (fs' := fs1) (by rw [M.ofRes_run, merkleTreeLen_pow hb hk]),
    M.bind_ok (mEnsure_true rfl _ _), M.bind_ok (mEnsure_true rfl _ _),
    M.bind_ok (a := nodes b (k - 1 - config.rowsToDiscard)) (fs' := fs1) (by
      rw [M.ofRes_run, subP_ok (by omega)]; congr 2; omega),
    M.bind_ok (a := nodes b (k - 1 - config.rowsToDiscard) - 1) (fs' := fs1) (by
      rw [M.ofRes_run, subP_ok (by omega)])]
  have hroot : FileHolds fs1 s.file (nodes b (k - 1 - config.rowsToDiscard) - 1)
      (root A.nodeHash b k leaf) := by
    have := h2.vals (nodes b k - 1) (by omega) (by omega)
    rw [flat_root] at this
    rw [show nodes b (k - 1 - config.rowsToDiscard) - 1
      = nodes b k - 1 - rowStart b k (config.rowsToDiscard + 1) by omega]
    exact this
  have hsmall : nodes b (k - 1 - config.rowsToDiscard) ≤ b ^ k := by
    have e2 := nodes_lt_pow hb2 (k - 1 - config.rowsToDiscard)
    have e3 : b ^ (k - 1 - config.rowsToDiscard + 1) ≤ b ^ k :=
      Nat.pow_le_pow_right (by omega) (by omega)
    omega
  rw [M.bind_ok (a := root A.nodeHash b k leaf) (fs' := fs1) (by
    rw [M.get_run, readAtInternal_eq (s := { s with len := nodes b k }) (by show _ < nodes b k; omega)
      (by show _ ≤ s.dataWidth; omega) hroot])]
  rfl

end LevelCacheStore
end Verif
