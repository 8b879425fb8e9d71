import Verif.Lemmas.Proof64
import Verif.Props.ProofSound
import Verif.Props.ProofComplete
import Verif.Props.Offsets64
/-!
**C83**  Proofs on 64-bit words.
-/
set_option linter.unusedSectionVars false
namespace Verif
open Spec Word

section
variable {E : Type} {o : Overflow} {b top subn : Nat} {s : Option (Proof E)} {l : List E} {path : List Nat}

/-- **C83**, construction: on words `Proof::new` is as on the natural numbers while the lemma length it
expects is below 2^64. -/
theorem C83_new (hb : 1 ≤ b) (hp : path.length * 8 < 2 ^ 63) (h : 2 + (b - 1) * path.length < wordSize) :
    Proof.new64 o b top subn s l path = Proof.new b top subn s l path :=
  Proof.new64_eq hb (by have : wordSize = 2 ^ 64 := rfl; omega) h

/-- **C83**: when the expected length does not fit, `Proof::new` panics with overflow checks, and without
them it expects the length modulo 2^64. -/
theorem C83_new_overflow (hb : 1 ≤ b) (hp : path.length * 8 < 2 ^ 63) (h : wordSize ≤ 2 + (b - 1) * path.length)
    (hl : 2 < l.length) :
    (∃ m, Proof.new64 .checked b 0 0 s l path = .error (.panic m)) ∧
      (Proof.new64 .wrapping b 0 0 s l path = .ok (.mk s 0 0 l path) ↔
        l.length = (2 + (b - 1) * path.length) % wordSize) := by
  have hws : wordSize = 2 ^ 64 := rfl
  have h2 : 2 % wordSize = 2 := rfl
  constructor
  · unfold Proof.new64 merkleProofLemmaLen64
    rw [if_pos ⟨rfl, rfl⟩, ensure_true hl, Res.ok_bind, Word.add_ok (by omega), Res.ok_bind, Word.sub_ok hb, Res.ok_bind,
      Word.sub_ok (by omega), Res.ok_bind, Nat.add_sub_cancel]
    by_cases hm : (b - 1) * path.length < wordSize
    · rw [Word.mul_ok hm, Res.ok_bind, Word.add, if_neg (by omega)]
      exact ⟨_, rfl⟩
    · rw [Word.mul_checked (by omega)]
      exact ⟨_, rfl⟩
  · have hlen : merkleProofLemmaLen64 .wrapping (path.length + 1) b = .ok ((2 + (b - 1) * path.length) % wordSize) := by
      unfold merkleProofLemmaLen64
      rw [Word.sub_ok hb, Res.ok_bind, Word.sub_ok (by omega), Res.ok_bind, Nat.add_sub_cancel, Word.mul_wrapping,
        Res.ok_bind, Word.add]
      split
      · rename_i hlt
        rw [Nat.add_mod, h2, Nat.mod_eq_of_lt hlt]
      · show Except.ok _ = _
        rw [Nat.add_mod_mod]
    unfold Proof.new64
    rw [if_pos ⟨rfl, rfl⟩, ensure_true hl, Res.ok_bind, Word.add_ok (by omega), Res.ok_bind, hlen, Res.ok_bind]
    constructor
    · intro h
      by_contra hne
      rw [ensure_false hne] at h
      cases h
    · intro h
      rw [ensure_true h]; rfl

variable [DecidableEq E] {A : Alg E} {m : Nat}

/-- **C83**, validation: on words it ends as on the natural numbers, with and without overflow checks, for
every proof whose lists fit into memory. -/
theorem C83_validate (hm : 1 ≤ m) (hb : 1 ≤ b) {p : Proof E} (hp : ProofFits m b p) :
    p.validate64 o m A b = p.validate A b ∧
      ∀ d, Proof.validateWithData64 o m A b p d = Proof.validateWithData A b p d := by
  have h := Proof.validate64_eq (o := o) hm A hb hp
  refine ⟨h, fun d => ?_⟩
  unfold Proof.validateWithData64 Proof.validateWithData
  simp only [h]

/-- **C83** with C22: on words too, a base proof accepted by `Proof::new` can be validated without a panic, if
its arity and its lists fit into memory and the expected length did not overflow. -/
theorem C83_total (hm : 1 ≤ m) (hbm : b * m < 2 ^ 63) (hl : l.length * m < 2 ^ 63) (hpl : path.length * 8 < 2 ^ 63)
    (h : 2 + (b - 1) * path.length < wordSize) {p : Proof E} (hb : 1 ≤ b)
    (hp : Proof.new64 o b 0 0 none l path = .ok p) :
    (∃ v, p.validate64 o m A b = .ok v) ∧ ((∃ d ∈ path, b ≤ d) → p.validate64 o m A b = .ok false) := by
  rw [C83_new hb hpl h] at hp
  obtain ⟨_, _, _, rfl⟩ := Proof.new_base_ok hp
  rw [(C83_validate hm hb (p := Proof.mk none 0 0 l path) ⟨hbm, hl, hpl⟩).1]
  exact C22_base_validate_total A b l path _ hp

/-- **C83** with C14: the proof that a full tree of 2^63 bytes or less gives on words validates on words. -/
theorem C83_complete [Element E] [LawfulElement E] {S : Type} [StoreOps S E] (hA : A.LawfulReset) {k : Nat} (hb : Arity b) (hk : 1 ≤ k)
    (hh : A.HeightsAgree b) {leaves : List E} {fs : FS} {t : BaseTree S E} (ht : t.IsTreeOf A b k leaves fs)
    (hm : 1 ≤ m) (hw : nodes b k * m < 2 ^ 63) {i : Nat} (hi : i < leaves.length) :
    ∃ p, t.genProof64 o b 0 0 fs i = .ok p ∧ p.item = .ok leaves[i] ∧ p.root = .ok t.root ∧
      p.validate64 o m A b = .ok true := by
  have hws : wordSize = 2 ^ 64 := rfl
  have hb2 := hb.two_le
  have hn : nodes b k ≤ nodes b k * m := Nat.le_mul_of_pos_right _ hm
  obtain ⟨p, h1, h2, h3, h4, h5⟩ := C14_proof_complete hb hk ht hi
  have hg := C65_gen_proof (o := o) hb hk ht.leafs ht.rows ht.len (fs := fs) (by omega) i
  refine ⟨p, by rw [hg, h1], h2, h3, ?_⟩
  have hlem := lemmaLen_le (b := b) (by omega) k hk
  have hkk : k ≤ (b - 1) * k := Nat.le_mul_of_pos_left _ (by omega)
  obtain ⟨f, hf, hr⟩ := ht.exists_reads
  have hi' : i < b ^ k := hf.count ▸ hi
  rw [BaseTree.genProof_eq hb hk hr hi', Except.ok.injEq] at h1
  subst h1
  rw [(C83_validate hm (by omega) ?_).1, h5 hA hh]
  have hpow := pow_le_nodes b k
  have hbk : b ≤ b ^ k := (pow_le_iff hb2).2 hk
  have hlen : (f i :: auth f b k k i ++ [f (nodes b k - 1)]).length ≤ nodes b k := by
    simp only [List.length_append, List.length_cons, List.length_nil, auth_length f (by omega : 0 < b)]
    rw [Nat.mul_comm]; omega
  have hk64 : k < 64 := by
    by_contra hc
    have : 2 ^ 64 ≤ b ^ k := Nat.le_trans (Nat.pow_le_pow_right (by omega) (by omega : 64 ≤ k)) (Nat.pow_le_pow_left hb2 k)
    omega
  refine ⟨Nat.lt_of_le_of_lt (Nat.mul_le_mul_right _ (by omega)) hw, Nat.lt_of_le_of_lt (Nat.mul_le_mul_right _ hlen) hw, ?_⟩
  rw [digits_length]; omega

/-- **C83**: for a base proof with siblings, an arity whose list of nodes does not fit into memory ends validation
with a panic, whatever the proof. -/
theorem C83_capacity (hbm : 2 ^ 63 ≤ b * m) (hb : 2 ≤ b) (hl : 3 ≤ l.length) :
    Proof.validate64 o m A b (.base 0 0 l path) = .error (.panic "capacity overflow") := by
  obtain ⟨x, l', rfl⟩ : ∃ x l', l = x :: l' := by
    cases l with
    | nil => simp at hl
    | cons x l' => exact ⟨x, l', rfl⟩
  have h1 : ¬ (x :: l').length < 2 := by omega
  have h2 : ¬ b - 1 = 0 := by omega
  have hloop : Proof.validateLoop64 o m A b (b - 1) (x :: l') path (x :: l').length 1 0 A.init x
      = .error (.panic "capacity overflow") := by
    obtain ⟨n, hn⟩ : ∃ n, (x :: l').length = n + 1 := ⟨l'.length, rfl⟩
    rw [hn, Proof.validateLoop64, if_pos (by omega), allocLen, if_neg (by omega)]
    rfl
  unfold Proof.validate64 Proof.validateBase64
  rw [if_neg (by omega), if_neg (by omega)]
  show (if (x :: l').length < 2 then _ else _) = _
  rw [if_neg h1]
  show (Word.sub o b 1 >>= _) = _
  rw [Word.sub_ok (by omega), Res.ok_bind, if_neg h2]
  show (Proof.validateLoop64 o m A b (b - 1) (x :: l') path (x :: l').length 1 0 A.init x >>= _) = _
  rw [hloop]; rfl

/-- **C83**: so does a compound layer with such an arity on a valid sub-proof. -/
theorem C83_capacity_layer {q : Proof E} (hq : q.validate64 o m A b = .ok true) (ha : 0 < layerArity top subn)
    (ham : 2 ^ 63 ≤ layerArity top subn * m) :
    Proof.validate64 o m A b (.nested q top subn l path) = .error (.panic "capacity overflow") := by
  have hlay : ∀ ar : Nat, 2 ^ 63 ≤ ar * m →
      Proof.validateTopLayer64 o m A ar q (.nested q top subn l path) = .error (.panic "capacity overflow") := by
    intro ar har
    unfold Proof.validateTopLayer64
    rw [allocLen, if_neg (by omega)]
    rfl
  unfold layerArity at ha ham
  rw [Proof.validate64, hq]
  by_cases h : top > 0
  · rw [if_pos h] at ham ⊢
    exact hlay top ham
  · rw [if_neg h] at ha ham ⊢
    rw [if_pos ha]
    exact hlay subn ham

end

/-- C22 is false of a release build for arities that no tree can have: with arity 2^62 + 2 the expected length of a
proof with four path entries wraps around to 6, so `Proof::new` accepts a lemma of six elements, and validating this
proof panics.  On the natural numbers (and in a build with overflow checks, which panics) it is not accepted. -/
theorem C83_release_refuted : ∃ (b : Nat) (l : List UInt8) (path : List Nat) (p : Proof UInt8) (msg : String),
    b < wordSize ∧ Proof.new64 .wrapping b 0 0 none l path = .ok p ∧
      (∀ q, Proof.new b 0 0 none l path ≠ .ok q) ∧
      (∀ m, 2 ≤ m → p.validate64 .wrapping m toyAlg b = .error (.panic msg)) ∧
      ∃ msg', Proof.new64 .checked b 0 0 none l path = .error (.panic msg') := by
  have hws : wordSize = 2 ^ 64 := rfl
  obtain ⟨h1, h2⟩ := C83_new_overflow (s := (none : Option (Proof UInt8))) (b := 2 ^ 62 + 2) (l := [1, 2, 3, 4, 5, 6])
    (path := [0, 0, 0, 0]) (by decide) (by decide) (by decide) (by decide)
  refine ⟨2 ^ 62 + 2, [1, 2, 3, 4, 5, 6], [0, 0, 0, 0], _, "capacity overflow", by decide, h2.2 (by decide), fun q hq => ?_, fun m hm => ?_, h1⟩
  · have := (Proof.new_base_ok hq).2.2.1
    simp at this
  · exact C83_capacity (Nat.le_trans (show 2 ^ 63 ≤ (2 ^ 62 + 2) * 2 by decide) (Nat.mul_le_mul_left _ hm)) (by decide) (by decide)

/-- On words, a proof type of base arity zero validates without overflow checks (with them it panics, as on the natural
numbers): a lemma of two equal elements is a valid proof, every longer one is not. -/
theorem C83_arity_zero {E : Type} [DecidableEq E] {A : Alg E} {m : Nat} (x y : E) (l : List E) (path : List Nat) :
    Proof.validate64 .wrapping m A 0 (.base 0 0 [x, y] path) = .ok (decide (x = y)) ∧
      Proof.validate64 .wrapping m A 0 (.base 0 0 (x :: y :: l ++ [y]) path) = .ok false ∧
      (∃ msg, Proof.validate64 .checked m A 0 (.base 0 0 (x :: y :: l) path) = .error (.panic msg)) ∧
      ∃ msg, Proof.validate A 0 (.base 0 0 (x :: y :: l) path) = .error (.panic msg) := by
  have hs : Word.sub .wrapping 0 1 = .ok (2 ^ 64 - 1) := by decide
  have hc : Word.sub .checked 0 1 = .error (.panic "attempt to subtract with overflow") := by decide
  refine ⟨?_, ?_, ⟨"attempt to subtract with overflow", ?_⟩, ⟨_, rfl⟩⟩
  · unfold Proof.validate64 Proof.validateBase64
    rw [if_neg (by omega), if_neg (by omega), hs]
    rfl
  · unfold Proof.validate64 Proof.validateBase64
    rw [if_neg (by omega), if_neg (by omega), hs]
    show (if (x :: y :: l ++ [y]).length < 2 then _ else _) = _
    rw [if_neg (by simp)]
    show (Proof.validateLoop64 .wrapping m A 0 (2 ^ 64 - 1) (x :: y :: l ++ [y]) path (x :: y :: l ++ [y]).length 1 0 A.init x >>= _) = _
    obtain ⟨n, hn⟩ : ∃ n, (x :: y :: l ++ [y]).length = n + 1 := ⟨(y :: l ++ [y]).length, rfl⟩
    rw [hn, Proof.validateLoop64, if_pos (by simp), Nat.zero_mul]
    simp only [hs]
    rfl
  · unfold Proof.validate64 Proof.validateBase64
    rw [if_neg (by omega), if_neg (by omega), hc]
    rfl

/-! ### The hypotheses can be met -/

example : ProofFits 32 2 (.nested (.base 0 0 [5, 6, 251] [0]) 0 2 [] [] : Proof UInt8) := by
  refine ⟨⟨?_, ?_, ?_⟩, ?_, ?_, ?_⟩ <;> decide

example : ∃ p, Proof.new64 .wrapping 2 0 0 none [5, 6, 251] [0] = .ok p ∧ (p : Proof UInt8).validate64 .wrapping 1 toyAlg 2 = .ok true :=
  ⟨.base 0 0 [5, 6, toyAlg.nodeHash [5, 6] 0] [0], by decide, by decide⟩

end Verif
