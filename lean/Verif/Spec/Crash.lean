import Verif.Model.DiskStore
/-
Crash states of `compact`: what the file can hold when the process dies somewhere inside it.  The
writes reach the disk in program order (there is no reordering of unsynced writes here).
-/
namespace Verif

/-- `io::copy` from position `src` to position `dst` of the file with contents `bs`, in any block sizes:
`CopyState bs src dst p cur` says that `cur` is a possible state of the file when `p` bytes have been
copied.  Each block is read from the file as it is at that moment, and then written.  As a block may have
any size, also one byte, the states in the middle of a write are included. -/
inductive CopyState (bs : Bytes) (src dst : Nat) : Nat → Bytes → Prop
  | start : CopyState bs src dst 0 bs
  | block {p : Nat} {cur : Bytes} (n : Nat) (h : CopyState bs src dst p cur)
      (hn : src + p + n ≤ cur.length) :
      CopyState bs src dst (p + n) (patch cur (dst + p) (region cur (src + p) n))

/-- `fs'` is a possible state of the file system when a crash stops `compact` (src/store/disk.rs:212-289)
called in state `fs`: nothing has happened yet, or some bytes are copied, or all are copied and
`set_len` is done too. -/
inductive DiskStore.CompactCrash {E : Type} [Element E] [FloatRows] (s : DiskStore E) (b : Nat)
    (c : StoreConfig) (version : Nat) (fs : FS) : FS → Prop
  | untouched : CompactCrash s b c version fs fs
  | copying {dataWidth cacheSize cacheStart p : Nat} {bs cur : Bytes}
      (hplan : s.compactPlan b c = .ok (dataWidth, cacheSize, cacheStart))
      (hfile : fs.file c.file = some bs)
      (hcopy : CopyState bs cacheStart (if version = 1 then dataWidth else 0) p cur) :
      CompactCrash s b c version fs (fs.set c.file (some cur))
  | truncated {dataWidth cacheSize cacheStart : Nat} {bs cur : Bytes}
      (hplan : s.compactPlan b c = .ok (dataWidth, cacheSize, cacheStart))
      (hfile : fs.file c.file = some bs) (hall : bs.length - cacheStart = cacheSize)
      (hcopy : CopyState bs cacheStart (if version = 1 then dataWidth else 0) cacheSize cur) :
      CompactCrash s b c version fs
        (fs.set c.file (some (cur.take (if version = 1 then dataWidth + cacheSize else cacheSize))))

end Verif
