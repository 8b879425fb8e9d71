import Verif.Model.Build64
import Verif.Lemmas.Offsets64
import Verif.Lemmas.MayFail
import Verif.Lemmas.Populate
/-!
Building on words does what building on natural numbers does: the steps that all stores share.
-/
set_option linter.unusedSectionVars false
namespace Verif
open Spec Word StoreOps

/-- No fault at all. -/
abbrev NoFault : Fault → Prop := fun _ => False

section rules
variable {α' α β' β : Type} {F : Fault → Prop} {R Q : α' → α → Prop}

theorem M.Sim.relax {x' : M α'} {x : M α} (h : M.Sim F R x' x) (hq : ∀ a' a, R a' a → Q a' a) :
    M.Sim F Q x' x := by
  intro fs
  have h := h fs
  cases hx : x' fs with
  | mk r fs' =>
    rw [hx] at h
    cases r with
    | error e => exact h
    | ok a' =>
      obtain ⟨a, h1, h2⟩ := h
      exact ⟨a, h1, hq _ _ h2⟩

/-- The second computation with its result wrapped. -/
theorem M.Sim.of_map {x : M α} {w : α → α'} (P : α → Prop)
    (hP : ∀ fs a fs', x fs = (.ok a, fs') → P a) :
    M.Sim F (fun a' a => a' = w a ∧ P a) (do let a ← x; Pure.pure (w a)) x := by
  intro fs
  rw [M.bind_run]
  cases hx : x fs with
  | mk r fs' =>
    cases r with
    | error e => exact .inr _root_.rfl
    | ok a => exact ⟨a, _root_.rfl, _root_.rfl, hP _ _ _ hx⟩

theorem M.Sim.expect_same (msg : String) {x' : M α'} {x : M α} (h : M.Sim NoFault R x' x) :
    M.Sim NoFault R (M.expect msg x') (M.expect msg x) := by
  intro fs
  have h := h fs
  unfold M.expect
  cases hx : x' fs with
  | mk r fs' =>
    rw [hx] at h
    cases r with
    | error e =>
      rcases h with h | h
      · exact h.elim
      · rw [h]; cases e <;> exact .inr _root_.rfl
    | ok a' =>
      obtain ⟨a, ha, hr⟩ := h
      rw [ha]
      exact ⟨a, _root_.rfl, hr⟩

/-- What a simulation without faults says: same files, and the same result up to wrapping. -/
theorem M.Sim.run_eq {x' : M α'} {x : M α} {w : α → α'} (h : M.Sim NoFault (fun a' a => a' = w a) x' x)
    (fs : FS) : x' fs = ((x fs).1.map w, (x fs).2) := by
  have h := h fs
  cases hx : x' fs with
  | mk r fs' =>
    rw [hx] at h
    cases r with
    | error e =>
      rcases h with h | h
      · exact h.elim
      · rw [h]; exact _root_.rfl
    | ok a' =>
      obtain ⟨a, ha, hr⟩ := h
      rw [ha, hr]; exact _root_.rfl

theorem M.Sim.of_eq {x' x : M α} (h : x' = x) : M.Sim F (· = ·) x' x := h ▸ M.Sim.rfl

end rules

/-! #### What the stores have to do -/

/-- The basic operations of `S'`, on words, do the same as those of `S` as long as no index exceeds
`W`.  `R` relates the states of the two stores. -/
structure OpsSim (S' S : Type) {E : Type} [Element E] [StoreOps S' E] [StoreOps S E] (W : Nat)
    (R : S' → S → Prop) : Prop where
  len : ∀ {s' s}, R s' s → StoreOps.len (E := E) s' = StoreOps.len (E := E) s
  isEmpty : ∀ {s' s}, R s' s → StoreOps.isEmpty (E := E) s' = StoreOps.isEmpty (E := E) s
  loaded : ∀ {s' s}, R s' s → loadedFromDisk (E := E) s' = loadedFromDisk (E := E) s
  le : ∀ {s' s}, R s' s → StoreOps.len (E := E) s ≤ W
  empty : ∀ {s' s}, R s' s → StoreOps.isEmpty (E := E) s = true → StoreOps.len (E := E) s = 0
  readAt : ∀ {s' s} fs {i}, R s' s → i < W → (StoreOps.readAt fs s' i : Res E) = StoreOps.readAt fs s i
  readRange : ∀ {s' s} fs {a c}, R s' s → a ≤ c → c ≤ W →
    (StoreOps.readRange fs s' a c : Res (List E)) = StoreOps.readRange fs s a c
  readRange_len : ∀ {s' s} {fs a c} {es : List E}, R s' s →
    StoreOps.readRange fs s a c = .ok es → es.length ≤ c - a
  writeAt : ∀ {s' s} (e : E) {i}, R s' s → loadedFromDisk (E := E) s = false → i < W →
    M.Sim NoFault (fun t' t => R t' t ∧ loadedFromDisk (E := E) t = false ∧
        StoreOps.len (E := E) s ≤ StoreOps.len (E := E) t) (StoreOps.writeAt s' e i)
      (StoreOps.writeAt s e i)
  copyFromSlice : ∀ {s' s} {buf : Bytes} {i}, R s' s → loadedFromDisk (E := E) s = false →
    i * Element.byteLen E + buf.length ≤ W * Element.byteLen E →
    M.Sim NoFault (fun t' t => R t' t ∧ loadedFromDisk (E := E) t = false ∧
        StoreOps.len (E := E) s ≤ StoreOps.len (E := E) t ∧
        StoreOps.len (E := E) t ≤ max (StoreOps.len (E := E) s) (i + buf.length / Element.byteLen E))
      (StoreOps.copyFromSlice (E := E) s' buf i) (StoreOps.copyFromSlice (E := E) s buf i)

/-- The same for the constructors and `build`, for trees of `n` leaves, arity `b` and `N` nodes. -/
structure StoreSim (S' S : Type) {E : Type} [Element E] [Store S' E] [Store S E] [FloatRows] (n b N W : Nat)
    (R : S' → S → Prop) : Prop extends OpsSim S' S (E := E) W R where
  loaded_len : ∀ {s' s}, R s' s → loadedFromDisk (E := E) s = true → StoreOps.len (E := E) s = N
  new : M.Sim NoFault (fun t' t => R t' t ∧ loadedFromDisk (E := E) t = false ∧
      StoreOps.len (E := E) t = 0) (Store.new (E := E) N) (Store.new (E := E) N)
  newWithConfig : ∀ c, M.Sim NoFault R (Store.newWithConfig (E := E) N b c)
    (Store.newWithConfig (E := E) N b c)
  newFromSlice : ∀ bs : Bytes, bs.length ≤ W * Element.byteLen E → bs.length / Element.byteLen E ≤ N →
    M.Sim NoFault (fun t' t => R t' t ∧ (loadedFromDisk (E := E) t = false →
      StoreOps.len (E := E) t = bs.length / Element.byteLen E)) (Store.newFromSlice (E := E) N bs)
      (Store.newFromSlice (E := E) N bs)
  newFromSliceWithConfig : ∀ (bs : Bytes) c, bs.length ≤ W * Element.byteLen E →
    bs.length / Element.byteLen E ≤ N →
    M.Sim NoFault (fun t' t => R t' t ∧ (loadedFromDisk (E := E) t = false →
      StoreOps.len (E := E) t = bs.length / Element.byteLen E))
      (Store.newFromSliceWithConfig (E := E) N b bs c)
      (Store.newFromSliceWithConfig (E := E) N b bs c)
  build : ∀ (A : Alg E) {σ : Sched}, σ.Valid → ∀ {s' s} c, R s' s →
    M.Sim NoFault (fun x' x => x'.1 = x.1 ∧ R x'.2 x.2) (Store.build A b σ s' n (merkleTreeRowCount n b) c)
      (Store.build A b σ s n (merkleTreeRowCount n b) c)

/-- The sizes of the tree to be built fit. -/
structure SizesFit (E : Type) [Element E] (n b N W : Nat) : Prop where
  arity : Arity b
  arity_lt : b ≤ 2 ^ 63
  tree : merkleTreeLen n b = .ok N
  leaves : 2 * n - 1 ≤ W
  bytes : W * Element.byteLen E < 2 ^ 63
  block : buildDataBlockSize * Element.byteLen E < 2 ^ 63

/-! #### Sizes -/

theorem merkleTreeLen.loop_le {s leafs : Nat} (hs : 1 ≤ s) : ∀ f cur len r,
    merkleTreeLen.loop leafs s f cur len = .ok r → len ≤ r ∧ r ≤ len + (cur - 1)
  | 0, _, _, _, h => by simp [merkleTreeLen.loop] at h
  | f + 1, cur, len, r, h => by
    unfold merkleTreeLen.loop at h
    split at h
    · dsimp only at h
      rw [ensure_bind_ok] at h
      obtain ⟨h1, h2⟩ := merkleTreeLen.loop_le hs f _ _ _ h.2
      have : cur >>> s ≤ cur / 2 := by
        rw [Nat.shiftRight_eq_div_pow]
        exact Nat.div_le_div_left (by calc 2 = 2 ^ 1 := rfl
                                          _ ≤ 2 ^ s := Nat.pow_le_pow_right (by omega) hs) (by omega)
      generalize cur >>> s = d at *
      omega
    · simp only [Except.ok.injEq] at h
      omega

theorem merkleTreeLen_le {n b N : Nat} (hb : Arity b) (h : merkleTreeLen n b = .ok N) :
    b ≤ n ∧ n < N ∧ N ≤ 2 * n - 1 := by
  have hb2 := hb.two_le
  unfold merkleTreeLen at h
  rw [ensure_bind_ok, ensure_bind_ok] at h
  obtain ⟨h1, _, h⟩ := h
  refine ⟨h1, ?_⟩
  split at h
  · rw [ensure_bind_ok] at h
    have h := h.2
    unfold subP at h
    split at h
    · simp only [Except.ok.injEq] at h; omega
    · cases h
  · obtain ⟨_, hs⟩ := hb.shift
    rw [if_neg (by omega)] at h
    have h2 := merkleTreeLen.loop_le hs _ _ _ _ h
    unfold merkleTreeLen.loop at h
    rw [if_pos (by omega)] at h
    dsimp only at h
    rw [ensure_bind_ok] at h
    have h3 := merkleTreeLen.loop_le hs _ _ _ _ h.2
    have h4 : 1 ≤ n >>> log2Pow2 b := by
      rw [hb.shiftRight]
      exact (Nat.one_le_div_iff (by omega)).2 h1
    omega

namespace SizesFit
variable {E : Type} [Element E] [LawfulElement E] {n b N W : Nat}

theorem two_le (h : SizesFit E n b N W) : 2 ≤ n :=
  Nat.le_trans h.arity.two_le (merkleTreeLen_le h.arity h.tree).1
theorem size_le (h : SizesFit E n b N W) : n < N ∧ N ≤ W :=
  have := merkleTreeLen_le h.arity h.tree
  ⟨this.2.1, Nat.le_trans this.2.2 h.leaves⟩
theorem bound_lt (h : SizesFit E n b N W) : W < 2 ^ 63 := by
  have := LawfulElement.byteLen_pos (E := E)
  have h1 := h.bytes
  have : W * 1 ≤ W * Element.byteLen E := Nat.mul_le_mul_left _ this
  omega
theorem mul_lt (h : SizesFit E n b N W) {i : Nat} (hi : i ≤ W) : i * Element.byteLen E < 2 ^ 63 :=
  Nat.lt_of_le_of_lt (Nat.mul_le_mul_right _ hi) h.bytes
theorem shift (h : SizesFit E n b N W) : trailingZeros b < 64 :=
  shift_lt h.arity.pow2 (Nat.lt_of_le_of_lt h.arity_lt half_lt_word)
theorem shr_eq (h : SizesFit E n b N W) (o : Overflow) (w : Nat) : shr o w (trailingZeros b) = .ok (w / b) := by
  rw [Word.shr_ok h.shift, trailingZeros, h.arity.shiftRight]
theorem npow2_eq (h : SizesFit E n b N W) (o : Overflow) : npow2 o b = .ok (nextPow2 b) :=
  Word.npow2_ok h.arity_lt
theorem len64 (h : SizesFit E n b N W) (o : Overflow) : merkleTreeLen64 o n b = merkleTreeLen n b := by
  have := h.bound_lt
  have := h.leaves
  exact merkleTreeLen64_eq (by omega) (.inr (.inl (by omega)))

end SizesFit

/-! #### Steps of a layer -/
section layer
variable {S' S E : Type} [Element E] {R : S' → S → Prop}

theorem Sched.Valid.lt {σ : Sched} (h : σ.Valid) {l n t : Nat} (ht : t ∈ σ l n) : t < n := by
  have := h l n t
  have h1 : 0 < (σ l n).count t := List.count_pos_iff.2 ht
  by_contra hc
  rw [if_neg hc] at this
  omega

theorem runSteps_same {rd' : Nat → S' → FS → Res Bytes} {rd : Nat → S → FS → Res Bytes}
    {wr' : Nat → Bytes → S' → M S'} {wr : Nat → Bytes → S → M S} {P : Nat → Bytes → Prop} :
    ∀ (ts : List Nat) (pend : Nat → Option Bytes) (s' : S') (s : S),
    (∀ t ∈ ts, ∀ s' s fs, R s' s → rd' t s' fs = rd t s fs ∧ ∀ bs, rd t s fs = .ok bs → P t bs) →
    (∀ t ∈ ts, ∀ bs s' s, R s' s → P t bs → M.Sim NoFault R (wr' t bs s') (wr t bs s)) →
    (∀ t bs, pend t = some bs → P t bs) → R s' s →
    M.Sim NoFault R (runSteps rd' wr' ts pend s') (runSteps rd wr ts pend s)
  | [], _, _, _, _, _, _, hR => M.Sim.pure hR
  | t :: ts, pend, s', s, h1, h2, h3, hR => by
    unfold runSteps
    cases hp : pend t with
    | none =>
      refine M.Sim.bind (R := fun bs' bs => bs' = bs ∧ P t bs) (M.Sim.get fun fs => ?_) ?_
      · obtain ⟨h4, h5⟩ := h1 t (by simp) s' s fs hR
        rw [h4]
        cases h6 : rd t s fs with
        | error e => exact .inr rfl
        | ok bs => exact ⟨bs, rfl, rfl, h5 _ h6⟩
      · rintro bs' bs ⟨rfl, hP⟩
        refine runSteps_same ts _ s' s (fun u hu => h1 u (by simp [hu])) (fun u hu => h2 u (by simp [hu])) ?_ hR
        intro u bs hu
        split at hu
        · simp only [Option.some.injEq] at hu
          subst_vars; exact hP
        · exact h3 u bs hu
    | some bs =>
      refine M.Sim.bind (h2 t (by simp) bs s' s hR (h3 t bs hp)) fun t' t ht => ?_
      exact runSteps_same ts _ t' t (fun u hu => h1 u (by simp [hu])) (fun u hu => h2 u (by simp [hu])) h3 ht

theorem lt_numChunks {w t : Nat} (h : t < numChunks w) : t * buildChunkNodes < w := by
  unfold numChunks buildChunkNodes at *
  omega

/-- The length of what task `t` writes. -/
def chunkBytes (E : Type) [Element E] (b w t : Nat) : Nat :=
  min buildChunkNodes (w - t * buildChunkNodes) / b * Element.byteLen E

variable [LawfulElement E] {n b N W : Nat} (hF : SizesFit E n b N W) {o : Overflow} (A : Alg E)
include hF

theorem hashChunk64_eq (l k : Nat) {es : List E} (hk : k ≤ W) (he : es.length ≤ W) :
    hashChunk64 o A b l k es = hashChunk A b l k es := by
  have h1 : es.length / b * Element.byteLen E < 2 ^ 63 :=
    hF.mul_lt (Nat.le_trans (Nat.div_le_self _ _) he)
  have h2 : k / b * Element.byteLen E < 2 ^ 63 := hF.mul_lt (Nat.le_trans (Nat.div_le_self _ _) hk)
  have := half_lt_word
  unfold hashChunk64 hashChunk
  rw [Word.mul_ok (by omega), Res.ok_bind, allocLen_ok h1, Res.ok_bind]
  dsimp only
  rw [Word.mul_ok (by omega), Res.ok_bind]

theorem layerRead64_eq {rd' : FS → S' → Nat → Nat → Res (List E)} {rd : FS → S → Nat → Nat → Res (List E)}
    {w l rs t : Nat} {s' : S'} {s : S} (fs : FS)
    (h1 : ∀ a c, a ≤ c → c ≤ W → rd' fs s' a c = rd fs s a c)
    (h2 : ∀ a c es, rd fs s a c = .ok es → es.length ≤ c - a)
    (hw : rs + w ≤ W) (ht : t < numChunks w) :
    layerRead64 o rd' A b w l rs t s' fs = (do
      let chunkIndex := rs + t * buildChunkNodes
      let chunkSize := min buildChunkNodes (rs + w - chunkIndex)
      let nodes ← rd fs s chunkIndex (chunkIndex + chunkSize)
      hashChunk A b l chunkSize nodes) := by
  have ht := lt_numChunks ht
  have hW := hF.bound_lt
  have := half_lt_word
  unfold layerRead64
  dsimp only
  rw [Word.add_ok (by omega), Res.ok_bind, Word.sub_ok (by omega), Res.ok_bind]
  rw [Word.add_ok (by omega), Res.ok_bind, h1 _ _ (by omega) (by omega)]
  cases h3 : rd fs s (rs + t * buildChunkNodes)
    (rs + t * buildChunkNodes + min buildChunkNodes (rs + w - (rs + t * buildChunkNodes))) with
  | error e => rfl
  | ok es =>
    rw [Res.ok_bind, Res.ok_bind]
    have := h2 _ _ _ h3
    exact hashChunk64_eq hF A _ _ (by omega) (by omega)

theorem hashChunk_len {l k : Nat} {es : List E} {bs : Bytes} (h : hashChunk A b l k es = .ok bs) :
    bs.length = k / b * Element.byteLen E := by
  unfold hashChunk at h
  dsimp only at h
  rw [ensure_bind_ok] at h
  obtain ⟨h1, h2⟩ := h
  simp only [Except.ok.injEq] at h2
  rw [← h2]; exact h1

theorem chunk_end {w t : Nat} (ht : t < numChunks w) :
    t * buildChunkNodes / b + min buildChunkNodes (w - t * buildChunkNodes) / b ≤ w / b := by
  have ht := lt_numChunks ht
  have hb : 0 < b := by have := hF.arity.two_le; omega
  rw [Nat.le_div_iff_mul_le hb, Nat.add_mul]
  have h1 := Nat.div_mul_le_self (t * buildChunkNodes) b
  have h2 := Nat.div_mul_le_self (min buildChunkNodes (w - t * buildChunkNodes)) b
  omega

end layer

/-! #### The default build -/
section build
variable {S' S E : Type} [Element E] [LawfulElement E] [StoreOps S' E] [StoreOps S E]
  {R : S' → S → Prop} {n b N W : Nat} (hO : OpsSim S' S (E := E) W R) (hF : SizesFit E n b N W)
  {o : Overflow} (A : Alg E) {σ : Sched}

/-- Related stores that were not loaded from a file and are not empty. -/
def Ready {S' S E : Type} [Element E] [StoreOps S' E] [StoreOps S E] (R : S' → S → Prop) (t' : S') (t : S) : Prop :=
  R t' t ∧ loadedFromDisk (E := E) t = false ∧ 0 < StoreOps.len (E := E) t

include hO hF

theorem processLayer64_sim (hσ : σ.Valid) {s' : S'} {s : S} {w l rs ws : Nat} (hr : rs + w ≤ W)
    (hw : ws + w / b ≤ W) (hR : Ready R s' s) :
    M.Sim NoFault (Ready R)
      (processLayer64 o A b σ s' w l rs ws) (processLayer A b σ s w l rs ws) := by
  have hW := hF.bound_lt
  have := half_lt_word
  unfold processLayer64 processLayer
  refine M.Sim.step fun _ => ?_
  rw [Word.add_ok (by omega), M.ofRes_ok_bind, Nat.add_sub_cancel_left]
  refine runSteps_same (P := fun t bs => bs.length = chunkBytes E b w t) _ _ _ _ ?_ ?_ (by simp) hR
  · rintro t ht s' s fs ⟨hR, -, -⟩
    have ht := hσ.lt ht
    refine ⟨layerRead64_eq hF A fs (fun a c h1 h2 => hO.readRange fs hR h1 h2)
      (fun a c es h => hO.readRange_len hR h) hr ht, fun bs hbs => ?_⟩
    unfold layerRead at hbs
    dsimp only at hbs
    rw [bind_ok_iff] at hbs
    obtain ⟨es, _, h⟩ := hbs
    rw [hashChunk_len hF A h, chunkBytes]
    congr 3
    omega
  · rintro t ht bs s' s ⟨hR, hl, hp⟩ hbs
    have ht := hσ.lt ht
    have h1 := chunk_end hF ht
    have h2 := Nat.zero_le (min buildChunkNodes (w - t * buildChunkNodes) / b)
    rw [chunkBytes] at hbs
    rw [Word.add_ok (by omega), M.ofRes_ok_bind]
    refine (hO.copyFromSlice hR hl ?_).relax fun t' t h => ⟨h.1, h.2.1, by omega⟩
    rw [hbs, ← Nat.add_mul]
    exact Nat.mul_le_mul_right _ (by omega)

theorem writeLayer64_sim {a : Nat} : ∀ (es : List E) (i : Nat) (s' : S') (s : S), a + i + es.length ≤ W →
    Ready R s' s →
    M.Sim NoFault (Ready R)
      (writeLayer64 o a es i s') (writeLayer a es i s)
  | [], _, s', s, _, hR => M.Sim.pure hR
  | e :: es, i, s', s, hi, ⟨hR, hl, hp⟩ => by
    have hW := hF.bound_lt
    have := half_lt_word
    simp only [List.length_cons] at hi
    unfold writeLayer64 writeLayer
    rw [Word.add_ok (by omega), M.ofRes_ok_bind]
    refine M.Sim.bind (hO.writeAt e hR hl (by omega)) fun t' t h => ?_
    exact writeLayer64_sim es _ t' t (by omega) ⟨h.1, h.2.1, by omega⟩

theorem div_arity_lt {w : Nat} (hw : 1 < w) : w / b < w ∧ 2 * (w / b) ≤ w := by
  have hb := hF.arity.two_le
  have : w / b ≤ w / 2 := Nat.div_le_div_left hb (by omega)
  omega

theorem chunks_count {w : Nat} (hw : 1 < w) {es : List E} (h : es.length ≤ w) : (chunks b es).length < w := by
  have hb := hF.arity.two_le
  by_contra hc
  have h1 := (lt_chunks_length (show 0 < b by omega) es (w - 1)).1 (by omega)
  have h2 : 2 * (w - 1) ≤ b * (w - 1) := Nat.mul_le_mul_right _ hb
  omega

theorem layerStarts64_eq {l x w m : Nat} (h : x + w < wordSize) :
    layerStarts64 o l x w m = .ok (if l = 0 then (0, m) else (x, x + w)) := by
  unfold layerStarts64
  split
  · rfl
  · rw [Word.add_ok h, Res.ok_bind]

theorem smallTreeLoop64_sim : ∀ (f w l x : Nat) (s' : S') (s : S), x + 2 * w ≤ 2 * n → l + f ≤ n + 1 →
    (l = 0 → x = 0 ∧ StoreOps.len (E := E) s = w) → Ready R s' s →
    M.Sim NoFault (fun y' y => Ready R y'.1 y.1 ∧ y'.2 = y.2 ∧ y.2 ≤ n)
      (smallTreeLoop64 o A b f w l x s') (smallTreeLoop A b f w l x s)
  | 0, _, _, _, _, _, _, _, _, _ => M.Sim.throw _
  | f + 1, w, l, x, s', s, hx, hl, h0, ⟨hR, hd, hp⟩ => by
    have hW := hF.bound_lt
    have hn := hF.leaves
    have hn2 := hF.two_le
    have := half_lt_word
    unfold smallTreeLoop64 smallTreeLoop
    by_cases hw : w > 1
    · rw [if_pos hw, if_pos hw, layerStarts64_eq hO hF (by omega), M.ofRes_ok_bind, hO.len hR]
      obtain ⟨rs, ws, hrw, e1, e2⟩ : ∃ rs ws, (if l = 0 then (0, StoreOps.len (E := E) s) else (x, x + w)) = (rs, ws)
          ∧ rs = x ∧ ws = x + w := by
        by_cases hl0 : l = 0
        · obtain ⟨hx0, hlen⟩ := h0 hl0
          exact ⟨_, _, if_pos hl0, by omega, by omega⟩
        · exact ⟨_, _, if_neg hl0, rfl, rfl⟩
      rw [hrw]
      subst e1 e2
      dsimp only
      rw [Word.add_ok (by omega), M.ofRes_ok_bind]
      refine M.Sim.bind (R := fun es' es => es' = es ∧ es.length ≤ w) (M.Sim.get fun fs => ?_) ?_
      · rw [hO.readRange fs hR (by omega) (by omega)]
        cases h6 : (StoreOps.readRange fs s rs (rs + w) : Res (List E)) with
        | error e => exact .inr rfl
        | ok es => exact ⟨es, rfl, rfl, by have := hO.readRange_len hR h6; omega⟩
      · rintro es' es ⟨rfl, he⟩
        have h7 := chunks_count hO hF hw he
        refine M.Sim.bind (writeLayer64_sim hO hF _ 0 s' s (by simp; omega) ⟨hR, hd, hp⟩) fun t' t h => ?_
        rw [Word.add_ok (a := l) (b := 1) (by omega), M.ofRes_ok_bind,
  M.ofRes_ok_bind,
          hF.shr_eq, M.ofRes_ok_bind, hF.arity.shiftRight]
        have h8 := div_arity_lt hO hF hw
        exact smallTreeLoop64_sim f _ _ _ t' t (by omega) (by omega) (by omega) h
    · rw [if_neg hw, if_neg hw]
      exact M.Sim.pure ⟨⟨hR, hd, hp⟩, rfl, by dsimp only; omega⟩

theorem buildLoop64_sim (hσ : σ.Valid) : ∀ (f w l x : Nat) (s' : S') (s : S), x + 2 * w ≤ 2 * n → l + f ≤ n + 1 →
    (l = 0 → x = 0 ∧ StoreOps.len (E := E) s = w) → Ready R s' s →
    M.Sim NoFault (fun y' y => Ready R y'.1 y.1 ∧ y'.2 = y.2 ∧ y.2 ≤ n)
      (buildLoop64 o A b σ f w l x s') (buildLoop A b σ f w l x s)
  | 0, _, _, _, _, _, _, _, _, _ => M.Sim.throw _
  | f + 1, w, l, x, s', s, hx, hl, h0, ⟨hR, hd, hp⟩ => by
    have hW := hF.bound_lt
    have hn := hF.leaves
    have hn2 := hF.two_le
    have := half_lt_word
    unfold buildLoop64 buildLoop
    by_cases hw : w > 1
    · rw [if_pos hw, if_pos hw, layerStarts64_eq hO hF (by omega), M.ofRes_ok_bind, hO.len hR]
      obtain ⟨rs, ws, hrw, e1, e2⟩ : ∃ rs ws, (if l = 0 then (0, StoreOps.len (E := E) s) else (x, x + w)) = (rs, ws)
          ∧ rs = x ∧ ws = x + w := by
        by_cases hl0 : l = 0
        · obtain ⟨hx0, hlen⟩ := h0 hl0
          exact ⟨_, _, if_pos hl0, by omega, by omega⟩
        · exact ⟨_, _, if_neg hl0, rfl, rfl⟩
      rw [hrw]
      subst e1 e2
      dsimp only
      have h8 := div_arity_lt hO hF hw
      refine M.Sim.bind (processLayer64_sim hO hF A hσ (by omega) (by omega) ⟨hR, hd, hp⟩) fun t' t h => ?_
      rw [Word.add_ok (a := rs) (b := w) (by omega), Word.add_ok (a := l) (b := 1) (by omega), M.ofRes_ok_bind,
  M.ofRes_ok_bind,
        hF.shr_eq, M.ofRes_ok_bind, hF.arity.shiftRight]
      exact buildLoop64_sim hσ f _ _ _ t' t (by omega) (by omega) (by omega) h
    · rw [if_neg hw, if_neg hw]
      exact M.Sim.pure ⟨⟨hR, hd, hp⟩, rfl, by dsimp only; omega⟩

omit hF in
theorem last64_eq {s' : S'} {s : S} (fs : FS) (hR : R s' s) (h : 0 < StoreOps.len (E := E) s) :
    (StoreOps.last64 o fs s' : Res E) = StoreOps.last fs s := by
  have := hO.le hR
  unfold StoreOps.last64 StoreOps.last
  rw [hO.len hR, Word.sub_ok (by omega), subP_ok (by omega), Res.ok_bind, Res.ok_bind,
    hO.readAt fs hR (by omega)]


theorem defaultBuild64_sim (hσ : σ.Valid) {s' : S'} {s : S} (rows : Nat) (c : Option StoreConfig) (hR : R s' s)
    (hd : loadedFromDisk (E := E) s = true → StoreOps.len (E := E) s ≠ n) :
    M.Sim NoFault (fun x' x => x'.1 = x.1 ∧ R x'.2 x.2)
      (defaultBuild64 o A b σ s' n rows c) (defaultBuild A b σ s n rows c) := by
  have hW := hF.bound_lt
  have hn := hF.leaves
  have hn2 := hF.two_le
  have := half_lt_word
  unfold defaultBuild64 defaultBuild
  rw [hF.npow2_eq, M.ofRes_ok_bind, hO.len hR]
  refine M.Sim.step fun _ => ?_
  by_cases hl : StoreOps.len (E := E) s = n
  swap
  · intro fs
    rw [M.bind_error (mEnsure_false hl _ fs), M.bind_error (mEnsure_false hl _ fs)]
    exact .inr rfl
  have hR : Ready R s' s := ⟨hR, by cases h : loadedFromDisk (E := E) s; rfl; exact absurd hl (hd h), by omega⟩
  refine M.Sim.step fun _ => M.Sim.step fun _ => ?_
  split
  · unfold buildSmallTree64 buildSmallTree
    refine M.Sim.step fun _ => M.Sim.bind
      (smallTreeLoop64_sim hO hF A (n + 1) n 0 0 s' s (by omega) (by omega) (by omega) hR) ?_
    rintro ⟨t', l'⟩ ⟨t, l⟩ ⟨ht, rfl, hle⟩
    dsimp only at *
    rw [Word.add_ok (by omega), M.ofRes_ok_bind]
    refine M.Sim.step fun _ => M.Sim.bind (R := (· = ·)) (M.Sim.get fun fs => ?_) ?_
    · rw [last64_eq hO fs ht.1 ht.2.2]; exact Res.Sim.rfl
    · rintro r _ rfl
      exact M.Sim.pure ⟨rfl, ht.1⟩
  · refine M.Sim.bind
      (buildLoop64_sim hO hF A hσ (n + 1) n 0 0 s' s (by omega) (by omega) (by omega) hR) ?_
    rintro ⟨t', l'⟩ ⟨t, l⟩ ⟨ht, rfl, hle⟩
    dsimp only at *
    rw [Word.add_ok (by omega), M.ofRes_ok_bind]
    refine M.Sim.step fun _ => M.Sim.bind (R := (· = ·)) (M.Sim.get fun fs => ?_) ?_
    · rw [last64_eq hO fs ht.1 ht.2.2]; exact Res.Sim.rfl
    · rintro r _ rfl
      exact M.Sim.pure ⟨rfl, ht.1⟩

end build
end Verif
