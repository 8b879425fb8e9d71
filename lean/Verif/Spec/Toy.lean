import Verif.Model.Hash
/-
A small concrete element type and hash algorithm, used only in the examples that show that the
hypotheses of theorems can be met.
-/
namespace Verif

instance : Element UInt8 where
  byteLen := 1
  toBytes e := [e]
  decode bs := bs.headD 0
  default := 0

instance : LawfulElement UInt8 where
  byteLen_pos := by decide
  length_toBytes _ := rfl
  decode_toBytes _ := rfl

/-- A toy hasher over one byte: `s ↦ 31 s + x` for each byte written. -/
def toyAlg : Alg UInt8 :=
  Alg.ofHasher UInt8 7 (fun s bs => bs.foldl (fun s x => 31 * s + x) s) (fun s => (s, s))

theorem toyAlg_reset : toyAlg.LawfulReset := fun _ => rfl
theorem toyAlg_height : toyAlg.IgnoresHeight := fun _ _ _ => rfl

/-- The toy hasher with a `multi_node` that uses the height. -/
def toyAlgH : Alg UInt8 where
  σ := UInt8
  init := 7
  write := fun s bs => bs.foldl (fun s x => 31 * s + x) s
  hash := fun s => (s, s)
  reset := fun _ => 7
  leaf := fun s e => (31 * s + e, 31 * s + e)
  multiNode := fun s ns h =>
    let r := ns.foldl (fun s x => 31 * s + x) (31 * s + UInt8.ofNat h)
    (r, r)

theorem toyAlgH_reset : toyAlgH.LawfulReset := fun _ => rfl

end Verif
