import Verif.Model.Element
/-
A file system: what the stores see of `std::fs::File`, `positioned_io` and `memmap2`.

Modelled: existence, length and bytes of files; create-new, open, set_len, positioned reads and
writes, writes through a shared memory map, removal.
Not modelled: permissions, I/O errors other than a missing file or a short read, directories,
durability (sync), and use of an open handle after its file was removed.
-/
namespace Verif

/-- A file: a named one, or an anonymous temporary one (`tempfile()`). -/
inductive FileId where
  | named (path : String)
  | temp (n : Nat)
  deriving DecidableEq, Repr

/-- The state of the file system.  `nextTemp` is the number the next temporary file gets. -/
structure FS where
  file : FileId → Option Bytes
  nextTemp : Nat

namespace FS

/-- The file system without any file. -/
def empty : FS := ⟨fun _ => none, 0⟩

/-- Set or remove the contents of a file. -/
def set (fs : FS) (f : FileId) (c : Option Bytes) : FS :=
  { fs with file := fun g => if g = f then c else fs.file g }

end FS

/-- `data` written over `bs` at offset `off`; a gap past the end is filled with zeros. -/
def patch (bs : Bytes) (off : Nat) (data : Bytes) : Bytes :=
  (bs ++ List.replicate (off - bs.length) 0).take off ++ data ++ bs.drop (off + data.length)

/-- `n` bytes of `bs` from offset `off`. -/
def region (bs : Bytes) (off n : Nat) : Bytes := (bs.drop off).take n

/-- A computation that may fail and may change the file system.  Changes made before a failure
persist. -/
def M (α : Type) : Type := FS → Res α × FS

namespace M
variable {α β : Type}

/-- A computation that returns without touching the file system. -/
protected def pure (a : α) : M α := fun fs => (.ok a, fs)

/-- Sequencing. -/
protected def bind (x : M α) (f : α → M β) : M β := fun fs =>
  match x fs with
  | (.ok a, fs) => f a fs
  | (.error e, fs) => (.error e, fs)

instance : Monad M where
  pure := M.pure
  bind := M.bind

/-- A result that does not depend on the file system. -/
def ofRes (r : Res α) : M α := fun fs => (r, fs)

/-- A computation that reads the file system. -/
def get (f : FS → Res α) : M α := fun fs => (f fs, fs)

/-- Fail. -/
def throw (e : Fault) : M α := fun fs => (.error e, fs)

end M

/-- `ensure!` inside an effectful function. -/
def mEnsure (c : Prop) [Decidable c] (msg : String) : M Unit := M.ofRes (ensure c msg)

namespace FS

/-- `Path::exists`. -/
def pathExists (f : FileId) : M Bool := M.get fun fs => .ok (fs.file f).isSome

/-- `OpenOptions::new().write(true).read(true).create_new(true).open(path)`: fails if the file
exists, otherwise creates an empty one. -/
def createNew (f : FileId) : M Unit := fun fs =>
  match fs.file f with
  | some _ => (.error (.err "File exists"), fs)
  | none => (.ok (), fs.set f (some []))

/-- `tempfile()`: a new anonymous file. -/
def createTemp : M FileId := fun fs =>
  (.ok (.temp fs.nextTemp),
    { (fs.set (.temp fs.nextTemp) (some [])) with nextTemp := fs.nextTemp + 1 })

/-- Contents of an open file. -/
def contents (fs : FS) (f : FileId) : Res Bytes :=
  match fs.file f with
  | some bs => .ok bs
  | none => .error (.err "No such file or directory")

/-- `OpenOptions::new()....open(path)` without `create`: fails if the file does not exist. -/
def openFile (f : FileId) : M Unit := M.get fun fs => do
  let _ ← fs.contents f
  .ok ()

/-- `file.metadata()?.len()`. -/
def fileLen (fs : FS) (f : FileId) : Res Nat := do
  let bs ← fs.contents f
  .ok bs.length

/-- `File::set_len`: truncate or extend with zeros. -/
def setLen (f : FileId) (n : Nat) : M Unit := fun fs =>
  match fs.contents f with
  | .ok bs => (.ok (), fs.set f (some (bs.take n ++ List.replicate (n - bs.length) 0)))
  | .error e => (.error e, fs)

/-- `read_exact_at` (positioned_io): all `n` bytes or an error.  Reading zero bytes always
succeeds. -/
def readExactAt (fs : FS) (f : FileId) (off n : Nat) : Res Bytes := do
  let bs ← fs.contents f
  if n = 0 then .ok []
  else if off + n ≤ bs.length then .ok (region bs off n)
  else .error (.err "failed to fill whole buffer")

/-- `write_all_at` (positioned_io): extends the file if needed.  Writing zero bytes does nothing. -/
def writeAllAt (f : FileId) (off : Nat) (data : Bytes) : M Unit := fun fs =>
  match fs.contents f with
  | .ok bs => if data = [] then (.ok (), fs) else (.ok (), fs.set f (some (patch bs off data)))
  | .error e => (.error e, fs)

/-- A write through a shared memory map of the file at byte offset `off`.  Beyond the end of the
file this is a fault (SIGBUS); the real system may instead lose bytes that fall in the last,
partly used page. -/
def mmapWrite (f : FileId) (off : Nat) (data : Bytes) : M Unit := fun fs =>
  match fs.contents f with
  | .ok bs =>
    if off + data.length ≤ bs.length then (.ok (), fs.set f (some (patch bs off data)))
    else (.error (.panic "SIGBUS"), fs)
  | .error e => (.error e, fs)

/-- `remove_file`. -/
def remove (f : FileId) : M Unit := fun fs =>
  match fs.file f with
  | some _ => (.ok (), fs.set f none)
  | none => (.error (.err "Failed to delete"), fs)

end FS

/-- `struct StoreConfig` (src/store/mod.rs:121-135). -/
structure StoreConfig where
  path : String
  id : String
  size : Option Nat := none
  rowsToDiscard : Nat
  deriving DecidableEq, Repr

/-- `Path::join` with a relative file name. -/
def joinPath (dir name : String) : String :=
  match dir.toList.getLast? with
  | none => name
  | some c => if c = '/' then dir ++ name else dir ++ "/" ++ name

/-- `StoreConfig::data_path` (src/store/mod.rs:177-182): `{:0>2}` of version 2 is `02`. -/
def dataPath (path id : String) : String := joinPath path ("sc-02-data-" ++ id ++ ".dat")

/-- The file a configuration designates. -/
def StoreConfig.file (c : StoreConfig) : FileId := .named (dataPath c.path c.id)

/-- `StoreConfig::new` (src/store/mod.rs:138-145). -/
def StoreConfig.new (path id : String) (rowsToDiscard : Nat) : StoreConfig :=
  { path := path, id := id, size := none, rowsToDiscard := rowsToDiscard }

/-- `StoreConfig::from_config` (src/store/mod.rs:184-197). -/
def StoreConfig.fromConfig (config : StoreConfig) (id : String) (size : Option Nat) : StoreConfig :=
  { path := config.path, id := id
    size := match size with
      | some s => some s
      | none => config.size
    rowsToDiscard := config.rowsToDiscard }

end Verif
