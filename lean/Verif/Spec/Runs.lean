import Verif.Model.Store
/-
Reading runs of consecutive elements from a store.
-/
namespace Verif
open StoreOps

/-- The elements `es` are what the store returns for the indices from `a` to `a + n`, both as elements
and as bytes in a buffer of the right size. -/
def StoreOps.RunIs {S E : Type} [Element E] [StoreOps S E] (fs : FS) (s : S) (a n : Nat) (es : List E) :
    Prop :=
  readRange fs s a (a + n) = .ok es ∧
  ∀ buf : Bytes, buf.length = n * Element.byteLen E →
    readRangeInto (E := E) fs s a (a + n) buf = .ok (encodeAll es)

/-- The store returns `Err` for the indices from `a` to `a + n`. -/
def StoreOps.RunErr {S : Type} (E : Type) [Element E] [StoreOps S E] (fs : FS) (s : S) (a n : Nat) :
    Prop :=
  Res.IsErr (readRange (E := E) fs s a (a + n)) ∧
  ∀ buf : Bytes, buf.length = n * Element.byteLen E →
    Res.IsErr (readRangeInto (E := E) fs s a (a + n) buf)

end Verif
