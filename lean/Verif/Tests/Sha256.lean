/-
SHA-256 (FIPS 180-4), written for the tests of this directory only: the repository's own tests state
the roots of trees hashed with it.  Words are natural numbers below 2^32.
-/
namespace Verif.Tests.Sha256

/-- The round constants. -/
def K : List Nat := [
  0x428a2f98, 0x71374491, 0xb5c0fbcf, 0xe9b5dba5, 0x3956c25b, 0x59f111f1, 0x923f82a4, 0xab1c5ed5,
  0xd807aa98, 0x12835b01, 0x243185be, 0x550c7dc3, 0x72be5d74, 0x80deb1fe, 0x9bdc06a7, 0xc19bf174,
  0xe49b69c1, 0xefbe4786, 0x0fc19dc6, 0x240ca1cc, 0x2de92c6f, 0x4a7484aa, 0x5cb0a9dc, 0x76f988da,
  0x983e5152, 0xa831c66d, 0xb00327c8, 0xbf597fc7, 0xc6e00bf3, 0xd5a79147, 0x06ca6351, 0x14292967,
  0x27b70a85, 0x2e1b2138, 0x4d2c6dfc, 0x53380d13, 0x650a7354, 0x766a0abb, 0x81c2c92e, 0x92722c85,
  0xa2bfe8a1, 0xa81a664b, 0xc24b8b70, 0xc76c51a3, 0xd192e819, 0xd6990624, 0xf40e3585, 0x106aa070,
  0x19a4c116, 0x1e376c08, 0x2748774c, 0x34b0bcb5, 0x391c0cb3, 0x4ed8aa4a, 0x5b9cca4f, 0x682e6ff3,
  0x748f82ee, 0x78a5636f, 0x84c87814, 0x8cc70208, 0x90befffa, 0xa4506ceb, 0xbef9a3f7, 0xc67178f2]

/-- The initial hash value, as one 256-bit number. -/
def H0 : Nat := 0x6a09e667bb67ae853c6ef372a54ff53a510e527f9b05688c1f83d9ab5be0cd19

/-- Evaluates `x` before going on: keeps the kernel from carrying unevaluated terms along. -/
def force {α : Type} (x : Nat) (k : Nat → α) : α :=
  match x with
  | 0 => k 0
  | n + 1 => k (n + 1)

/-- Word `i` (0 is the lowest) of a number. -/
def word (x i : Nat) : Nat := (x >>> (32 * i)) % 2 ^ 32

/-- Rotation to the right of a 32-bit word. -/
def rotr (x n : Nat) : Nat := (x >>> n) ||| ((x <<< (32 - n)) % 2 ^ 32)

/-- The next word of the message schedule; `ws` holds the last 16, the oldest on top. -/
def nextWord (ws : Nat) : Nat :=
  force (word ws 14) fun w1 => force (word ws 1) fun w14 =>
    (word ws 15 + (rotr w1 7 ^^^ rotr w1 18 ^^^ (w1 >>> 3)) + word ws 6 +
      (rotr w14 17 ^^^ rotr w14 19 ^^^ (w14 >>> 10))) % 2 ^ 32

/-- One round.  `v` holds the eight working variables, `a` on top. -/
def round (v k w : Nat) : Nat :=
  force (word v 7) fun a => force (word v 6) fun b => force (word v 5) fun c =>
  force (word v 3) fun e => force (word v 2) fun f => force (word v 1) fun g =>
  force (word v 0 + (rotr e 6 ^^^ rotr e 11 ^^^ rotr e 25) +
    ((e &&& f) ^^^ ((e ^^^ 0xffffffff) &&& g)) + k + w) fun t1 =>
  force ((t1 + (rotr a 2 ^^^ rotr a 13 ^^^ rotr a 22) +
    ((a &&& b) ^^^ (a &&& c) ^^^ (b &&& c))) % 2 ^ 32) fun a' =>
  force ((word v 4 + t1) % 2 ^ 32) fun e' =>
    (a' <<< 224) ||| (a <<< 192) ||| (b <<< 160) ||| (c <<< 128) ||| (e' <<< 96) ||| (e <<< 64) |||
      (f <<< 32) ||| g

/-- The 64 rounds, extending the message schedule on the way. -/
def rounds : List Nat → Nat → Nat → Nat
  | [], _, v => v
  | k :: ks, ws, v =>
    force (((ws <<< 32) % 2 ^ 512) ||| nextWord ws) fun ws' =>
      force (round v k (word ws 15)) fun v' => rounds ks ws' v'

/-- Adds two 256-bit numbers word by word. -/
def addWords (x y : Nat) : Nat :=
  (List.range 8).foldl (fun acc i => acc ||| (((word x i + word y i) % 2 ^ 32) <<< (32 * i))) 0

/-- The blocks (512-bit numbers), one after the other. -/
def blocks : List Nat → Nat → Nat
  | [], h => h
  | b :: bs, h => force b fun b => force (addWords h (rounds K b h)) fun h' => blocks bs h'

/-- The number whose bytes, most significant first, are given. -/
def ofBytes (bs : List Nat) : Nat := bs.foldl (fun acc b => acc * 256 + b) 0

/-- The padded message of `len` bytes in `n` blocks. -/
def padded (n : Nat) (msg len : Nat) : Nat :=
  ((msg * 256 + 0x80) <<< (8 * (64 * n - len - 1))) ||| (8 * len)

/-- The bytes of the digest as a number: SHA-256 of a byte string. -/
def hashNat (bs : List Nat) : Nat :=
  force bs.length fun len => force (ofBytes bs) fun msg => force ((len + 72) / 64) fun n =>
    force (padded n msg len) fun p =>
      blocks ((List.range n).map fun i => (p >>> (512 * (n - 1 - i))) % 2 ^ 512) H0

/-- SHA-256 of a byte string, as 32 bytes. -/
def hash (bs : List Nat) : List Nat :=
  force (hashNat bs) fun h => (List.range 32).map fun i => (h >>> (8 * (31 - i))) % 256

/-- The test vectors "abc" and the 448-bit message of FIPS 180-4. -/
example : hashNat [0x61, 0x62, 0x63] =
    0xba7816bf8f01cfea414140de5dae2223b00361a396177a9cb410ff61f20015ad := by
  decide +kernel

example : hashNat ("abcdbcdecdefdefgefghfghighijhijkijkljklmklmnlmnomnopnopq".toList.map Char.toNat) =
    0x248d6a61d20638b8e5c026930c3e6039a33ce45964ff2167f6ecedd419db06c1 := by
  decide +kernel

/-! The same function on machine words, for the tests the interpreter runs. -/
def rot (x : UInt32) (n : UInt32) : UInt32 := (x >>> n) ||| (x <<< (32 - n))

def K32 : Array UInt32 := (K.map fun k => UInt32.ofNat k).toArray

def schedule (b : Array UInt32) : Array UInt32 := Id.run do
  let mut w := b
  for i in [16:64] do
    let x := w[i - 15]!
    let y := w[i - 2]!
    w := w.push (w[i - 16]! + (rot x 7 ^^^ rot x 18 ^^^ (x >>> 3)) + w[i - 7]! +
      (rot y 17 ^^^ rot y 19 ^^^ (y >>> 10)))
  return w

def compress (h : Array UInt32) (block : Array UInt32) : Array UInt32 := Id.run do
  let w := schedule block
  let mut a := h[0]!
  let mut b := h[1]!
  let mut c := h[2]!
  let mut d := h[3]!
  let mut e := h[4]!
  let mut f := h[5]!
  let mut g := h[6]!
  let mut i := h[7]!
  for j in [0:64] do
    let t1 := i + (rot e 6 ^^^ rot e 11 ^^^ rot e 25) + ((e &&& f) ^^^ ((~~~e) &&& g)) + K32[j]! +
      w[j]!
    let t2 := (rot a 2 ^^^ rot a 13 ^^^ rot a 22) + ((a &&& b) ^^^ (a &&& c) ^^^ (b &&& c))
    i := g
    g := f
    f := e
    e := d + t1
    d := c
    c := b
    b := a
    a := t1 + t2
  return #[h[0]! + a, h[1]! + b, h[2]! + c, h[3]! + d, h[4]! + e, h[5]! + f, h[6]! + g, h[7]! + i]

def fast (msg : List UInt8) : List UInt8 := Id.run do
  let n := (msg.length + 72) / 64
  let zeros := List.replicate (64 * n - msg.length - 9) (0 : UInt8)
  let len := (List.range 8).map fun i => UInt8.ofNat ((8 * msg.length) >>> (8 * (7 - i)))
  let all := (msg ++ (0x80 :: zeros) ++ len).toArray
  let mut h : Array UInt32 := (Array.range 8).map fun i => UInt32.ofNat (word H0 (7 - i))
  for b in [0:n] do
    h := compress h ((Array.range 16).map fun j =>
      (List.range 4).foldl (fun (acc : UInt32) k => (acc <<< 8) ||| all[64 * b + 4 * j + k]!.toUInt32) 0)
  return h.toList.flatMap fun (x : UInt32) =>
    [(x >>> 24).toUInt8, (x >>> 16).toUInt8, (x >>> 8).toUInt8, x.toUInt8]

#guard (List.range 130).all fun n =>
  let msg := (List.range n).map fun i => (7 * i + n) % 256
  (fast (msg.map UInt8.ofNat)).map UInt8.toNat = hash msg

end Verif.Tests.Sha256
