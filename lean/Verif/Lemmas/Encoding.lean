import Verif.Spec.Encoding
/-
Helper lemmas: raw views of slices, and the encodings the `Hashable` instances write.
-/
set_option linter.unusedSectionVars false
namespace Verif
variable [Target]

theorem length_leBytes : ∀ n x, (leBytes n x).length = n
  | 0, _ => rfl
  | n + 1, x => by rw [leBytes, List.length_cons, length_leBytes n]

theorem IntVal.length_neBytes {t : IntTy} (x : IntVal t) : x.neBytes.length = t.size := by
  unfold IntVal.neBytes
  split <;> simp [length_leBytes]

theorem leBytes_inj : ∀ n x y, x < 256 ^ n → y < 256 ^ n → leBytes n x = leBytes n y → x = y
  | 0, x, y, hx, hy, _ => by simp at hx hy; omega
  | n + 1, x, y, hx, hy, h => by
    rw [leBytes, leBytes, List.cons.injEq] at h
    have h1 : x % 256 = y % 256 := by
      have := congrArg UInt8.toNat h.1
      simpa using this
    have h2 := leBytes_inj n (x / 256) (y / 256)
      (Nat.div_lt_of_lt_mul (by rw [Nat.pow_succ] at hx; omega))
      (Nat.div_lt_of_lt_mul (by rw [Nat.pow_succ] at hy; omega)) h.2
    omega

theorem IntVal.neBytes_inj {t : IntTy} {x y : IntVal t} (h : x.neBytes = y.neBytes) : x = y := by
  have hl : leBytes t.size x.bits.toNat = leBytes t.size y.bits.toNat := by
    unfold IntVal.neBytes at h
    split at h
    · simpa using h
    · exact h
  have e : 256 ^ t.size = 2 ^ (8 * t.size) := by rw [Nat.pow_mul]
  have := leBytes_inj _ _ _ (by rw [e]; exact x.bits.isLt) (by rw [e]; exact y.bits.isLt) hl
  cases x; cases y
  simpa using BitVec.eq_of_toNat_eq this

theorem rawByte_cons_lt {T : Type} {size : Nat} {enc : T → Bytes} {x : T} {xs : List T} {o : Nat}
    (h : o < size) : rawByte size enc (x :: xs) o = (enc x).getD o 0 := by
  unfold rawByte
  rw [Nat.div_eq_of_lt h, Nat.mod_eq_of_lt h]
  rfl

theorem rawByte_cons_ge {T : Type} {size : Nat} (hs : 0 < size) {enc : T → Bytes} {x : T}
    {xs : List T} {o : Nat} : rawByte size enc (x :: xs) (size + o) = rawByte size enc xs o := by
  unfold rawByte
  rw [Nat.add_div_left _ hs, Nat.add_mod_left]
  rfl

/-- A raw view is the concatenation of the elements' bytes. -/
theorem rawView_eq {T : Type} {size : Nat} {enc : T → Bytes} (h : ∀ x, (enc x).length = size) :
    ∀ xs : List T, rawView size enc xs = xs.flatMap enc
  | [] => by simp [rawView]
  | x :: xs => by
    rcases Nat.eq_zero_or_pos size with h0 | h0
    · subst h0
      have e : ∀ ys : List T, ys.flatMap enc = [] := fun ys => by
        simp only [List.flatMap_eq_nil_iff]
        exact fun y _ => List.length_eq_zero_iff.1 (h y)
      rw [e]
      simp [rawView]
    · rw [List.flatMap_cons, ← rawView_eq h xs]
      unfold rawView
      rw [List.length_cons, Nat.succ_mul, Nat.add_comm, List.range_add, List.map_append, List.map_map]
      congr 1
      · apply List.ext_getElem
        · simp [h x]
        · intro i h1 h2
          simp only [List.length_map, List.length_range] at h1
          rw [List.getElem_map, List.getElem_range, rawByte_cons_lt h1, List.getD_eq_getElem?_getD,
            List.getElem?_eq_getElem h2, Option.getD_some]
      · apply List.map_congr_left
        intro i _
        exact rawByte_cons_ge h0

variable {H : Hasher}

/-- Writing pieces one after the other writes their concatenation. -/
theorem Hasher.Streaming.foldl (h : H.Streaming) {T : Type} (enc : T → Bytes) : ∀ (xs : List T) s,
    xs.foldl (fun s x => H.write s (enc x)) s = H.write s (xs.flatMap enc)
  | [], s => (h.2 s).symm
  | x :: xs, s => by
    rw [List.foldl_cons, Hasher.Streaming.foldl h enc xs, h.1, List.flatMap_cons]

/-- The same for a hasher that may notice empty writes, when there is at least one piece. -/
theorem Hasher.Concat.foldl (h : H.Concat) {T : Type} (enc : T → Bytes) : ∀ (x : T) (xs : List T) s,
    (x :: xs).foldl (fun s x => H.write s (enc x)) s = H.write s ((x :: xs).flatMap enc)
  | x, [], s => by simp
  | x, y :: ys, s => by
    rw [List.foldl_cons, Hasher.Concat.foldl h enc y ys, h, List.flatMap_cons (x := x) (xs := y :: ys)]

theorem foldl_hash_congr {T : Type} {f g : H.σ → T → H.σ} (h : ∀ s x, f s x = g s x) (xs : List T) (s) :
    xs.foldl f s = xs.foldl g s := by
  have : f = g := funext fun s => funext fun x => h s x
  rw [this]

instance (t : IntTy) : EncodesIn H (IntVal t) where
  hash_eq hi _ x s := hi t s x
  slice_eq hi hs xs s := by
    show H.write s (rawView t.size IntVal.neBytes xs) = _
    rw [rawView_eq IntVal.length_neBytes, ← hs.foldl]
    exact foldl_hash_congr (fun s x => (hi t s x).symm) xs s

instance (n : Nat) : EncodesIn H (ByteArr n) where
  hash_eq _ _ _ _ := rfl
  slice_eq _ hs xs s := by
    show H.write s (rawView n ByteArr.val xs) = _
    rw [rawView_eq ByteArr.len, ← hs.foldl]
    rfl

instance : EncodesIn H VecU8 where
  hash_eq _ _ _ _ := rfl
  slice_eq _ _ _ _ := rfl

instance : EncodesIn H Bool where
  hash_eq hi _ x s := by
    show H.writeInt .u8 s _ = _
    rw [hi]
    congr 1
    unfold IntVal.neBytes
    cases x <;> cases Target.bigEndian <;> rfl
  slice_eq _ _ _ _ := rfl

instance : EncodesIn H Char where
  hash_eq hi _ x s := hi .u32 s ⟨x.val.toBitVec⟩
  slice_eq _ _ _ _ := rfl

instance : EncodesIn H String where
  hash_eq _ _ _ _ := rfl
  slice_eq _ _ _ _ := rfl

instance : EncodesIn H Unit where
  hash_eq _ hs _ s := (hs.2 s).symm
  slice_eq _ _ _ _ := rfl

instance {T U : Type} [HashIn H T] [Enc T] [EncodesIn H T] [HashIn H U] [Enc U] [EncodesIn H U] :
    EncodesIn H (T × U) where
  hash_eq hi hs x s := by
    show HashIn.hash x.2 (HashIn.hash x.1 s) = _
    rw [EncodesIn.hash_eq hi hs, EncodesIn.hash_eq hi hs, hs.1]
    rfl
  slice_eq _ _ _ _ := rfl

instance {T : Type} [HashIn H T] [Enc T] [EncodesIn H T] : EncodesIn H (Slice T) where
  hash_eq hi hs x s := by
    show HashIn.hashSlice x.val s = _
    rw [EncodesIn.slice_eq hi hs, foldl_hash_congr (fun s x => EncodesIn.hash_eq hi hs x s), hs.foldl]
    rfl
  slice_eq _ _ _ _ := rfl

instance {T : Type} [HashIn H T] [Enc T] [EncodesIn H T] : EncodesIn H (Ref T) where
  hash_eq hi hs x s := EncodesIn.hash_eq hi hs x.val s
  slice_eq _ _ _ _ := rfl

instance : EncodesIn H RawPtr where
  hash_eq hi hs x s := by
    cases x with
    | thin a => exact hi _ s a
    | fat a b =>
      show H.writeInt .usize (H.writeInt .usize s a) b = _
      rw [hi, hi, hs.1]
      rfl
  slice_eq _ _ _ _ := rfl

end Verif
