import Verif.Model.Archive
import Verif.Model.Act
import Verif.Model.CMemory

/-!
# Saving to files, with disks which fail and processes which die

Models `save` in `src/io/mod.rs` as a sequence of operations on a ZIP file, and the functions in
`src/c_api/io.rs`. The crate `zip` and the type `BufWriter` of the standard library are dependencies: they are
modelled as far as needed to tell what is in the file after a failure.

A disk accepts a given number of operations and then fails. Opening an entry, writing one byte to it, writing the
central directory at the end of the file and writing the record which makes the file a ZIP file count as
one operation each.
-/

namespace Equistore

/-- `zip::ZipWriter`: the entries which are complete, the one which is being written, and how many more operations the
disk accepts (`none`: no failure). Used in `src/io/mod.rs` lines 119-169. -/
structure ZipWriter where
  finished : Archive
  current : Option (String × Bytes)
  left : Option Nat
  deriving DecidableEq

namespace ZipWriter

/-- All the entries. `ZipWriter` in `src/io/mod.rs` lines 119-169. -/
def entries (w : ZipWriter) : Archive := w.finished ++ w.current.toList

/-- The error of a disk which does not accept more. `src/lib.rs` lines 94-98. -/
def diskError : Error := .io "No space left on device"

/-- `n` operations, or as many of them as possible. Writes in `src/io/mod.rs` lines 119-169. -/
def spend (n : Nat) : Option Nat → Option Nat × Nat
  | none => (none, n)
  | some left => (some (left - n), min n left)

/-- `ZipWriter::start_file`: the previous entry is complete. On failure the new entry is not
in the list of entries. Used in `src/io/mod.rs` lines 127-160. -/
def startFile (name : String) : Act ZipWriter Unit := fun w =>
  if w.left = some 0 then (w, .err diskError)
  else ({ finished := w.entries, current := some (name, []), left := w.left.map (· - 1) }, .ok ())

/-- `Write::write_all` for `ZipWriter`: on failure, some of the bytes are in the entry.
Used in `src/io/mod.rs` lines 212-232 and `src/io/labels.rs` lines 43-69. -/
def writeAll (bytes : Bytes) : Act ZipWriter Unit := fun w =>
  match w.current with
  | none => (w, .err (.io "No file has been started"))
  | some (name, content) =>
    let (left, written) := spend bytes.length w.left
    let w := { w with current := some (name, content ++ bytes.take written), left }
    if written < bytes.length then (w, .err diskError) else (w, .ok ())

/-- `ZipWriter::finish`: write the central directory. The record at the end of the file is given to the
`BufWriter`, see `closed`. Used in `src/io/mod.rs` line 166. -/
def finish : Act ZipWriter Unit := fun w =>
  if w.left = some 0 then (w, .err diskError)
  else ({ w with left := w.left.map (· - 1) }, .ok ())

end ZipWriter

/-! ### `save` -/

/-- `write_npy_labels`, `src/io/labels.rs` lines 43-69. -/
def writeNpyLabelsTo (build : Build) (py : PyLiteral) (native : Endian) (labels : Labels) : Act ZipWriter Unit := do
  let typeDescriptor ← Act.lift (Res.expect (py.parse (labelsDescriptor native labels.names)) "invalid dtype")
  let count ← Act.lift labels.count
  let header : NpyHeader := { typeDescriptor, fortranOrder := false, shape := [count] }
  let headerBytes ← Act.lift (header.toBytes build py)
  ZipWriter.writeAll headerBytes
  let entries ← Act.lift labels.iter
  ZipWriter.writeAll (entries.flatten.flatMap fun value => native.encode 4 value.toUInt32.toNat)

section
variable {A : Type} [ArrayLike A]

/-- `write_data`, `src/io/mod.rs` lines 212-232. -/
def writeDataTo (build : Build) (py : PyLiteral) (native : Endian) (array : A) : Act ZipWriter Unit := do
  let typeDescriptor ← Act.lift (Res.expect (py.parse ("'".toList ++ native.f8.toList ++ "'".toList)) "invalid dtype")
  let shape ← Act.lift (ArrayLike.shape array)
  let header : NpyHeader := { typeDescriptor, fortranOrder := false, shape }
  let headerBytes ← Act.lift (header.toBytes build py)
  ZipWriter.writeAll headerBytes
  let data ← Act.lift (ArrayLike.data array)
  ZipWriter.writeAll (data.flatMap fun value => native.encode 8 value.toNat)

/-- Loop of `save` over the components, `src/io/mod.rs` lines 141-145 and 160-164. -/
def saveComponentsTo (build : Build) (py : PyLiteral) (native : Endian) (path : Nat → String) :
    List Labels → Nat → Act ZipWriter Unit
  | [], _ => pure ()
  | component :: components, i => do
    ZipWriter.startFile (path i)
    writeNpyLabelsTo build py native component
    saveComponentsTo build py native path components (i + 1)

/-- Loop of `save` over the gradients, `src/io/mod.rs` lines 151-165. -/
def saveGradientsTo (build : Build) (py : PyLiteral) (native : Endian) (i : Nat) :
    List (String × BasicBlock A) → Act ZipWriter Unit
  | [] => pure ()
  | (parameter, gradient) :: gradients => do
    ZipWriter.startFile (gradientPath i parameter "data")
    writeDataTo build py native gradient.data
    ZipWriter.startFile (gradientPath i parameter "samples")
    writeNpyLabelsTo build py native gradient.samples
    saveComponentsTo build py native (fun c => gradientPath i parameter s!"components/{c}") gradient.components 0
    saveGradientsTo build py native i gradients

/-- Loop of `save` over the blocks, `src/io/mod.rs` lines 131-166. -/
def saveBlocksTo (build : Build) (py : PyLiteral) (native : Endian) (hash : HashOrder) :
    List (TensorBlock A) → Nat → Act ZipWriter Unit
  | [], _ => pure ()
  | block :: blocks, i => do
    ZipWriter.startFile (valuesPath i "data")
    writeDataTo build py native block.values.data
    ZipWriter.startFile (valuesPath i "samples")
    writeNpyLabelsTo build py native block.values.samples
    saveComponentsTo build py native (fun c => valuesPath i s!"components/{c}") block.values.components 0
    ZipWriter.startFile (valuesPath i "properties")
    writeNpyLabelsTo build py native block.values.properties
    saveGradientsTo build py native i (hash.order block.gradients)
    saveBlocksTo build py native hash blocks (i + 1)

/-- `save`, `src/io/mod.rs` lines 119-169. -/
def saveTo (build : Build) (py : PyLiteral) (native : Endian) (hash : HashOrder) (tensor : TensorMap A) :
    Act ZipWriter Unit := do
  ZipWriter.startFile "keys.npy"
  writeNpyLabelsTo build py native tensor.keys
  saveBlocksTo build py native hash tensor.blocks 0
  ZipWriter.finish

end

/-! ### Files -/

/-- What is in a file: a ZIP archive, or anything else. Opened in `src/c_api/io.rs` lines 29 and 66. -/
inductive Content where
  | archive (entries : Archive)
  | notArchive
  deriving DecidableEq

/-- The files which exist. Opened in `src/c_api/io.rs` lines 29 and 66. -/
abbrev Files := String → Option Content

/-- Replace a file. `File::create` and `BufWriter`, `src/c_api/io.rs` line 66. -/
def Files.write (files : Files) (path : String) (content : Content) : Files := fun p =>
  if p = path then some content else files p

/-- What the operating system decides: whether files can be created, how many operations the disk accepts, and
whether it works again afterwards. When a process dies, the files are as with a disk which does not work again.
`File::create` and `BufWriter`, `src/c_api/io.rs` line 66. -/
structure Disk where
  canCreate : Bool
  left : Option Nat
  recovers : Bool

/-- What is in the file when the writer is gone.

After a success, dropping the `BufWriter` writes the record at the end of the file; errors are ignored. After a failure,
dropping the `ZipWriter` writes the central directory and the record for the entries it has, if
the disk accepts it. `BufWriter` and `ZipWriter` in `src/c_api/io.rs` lines 66-67 and `src/io/mod.rs` lines 119-169. -/
def Disk.closed (disk : Disk) (success : Bool) (w : ZipWriter) : Content :=
  let needed := if success then 1 else 2
  if (!success && disk.recovers) || w.left.all (needed ≤ ·) then .archive w.entries else .notArchive

section
variable {A : Type} [ArrayLike A]

/-- The closure in `eqs_tensormap_save`, `src/c_api/io.rs` lines 60-69. `File::create` makes an existing file
empty. -/
def eqsTensormapSaveFile (build : Build) (py : PyLiteral) (native : Endian) (hash : HashOrder) (disk : Disk)
    (path : Option Bytes) (tensor : Option (TensorMap A)) : Act Files Unit := do
  let memory ← Act.lift (checkPointer "path" path)
  let tensor ← Act.lift (checkPointer "tensor" tensor)
  let path ← Act.lift (Res.expect (cstrStr memory) "use UTF-8 for path")
  Act.lift (Res.guardErr disk.canCreate (.io "Permission denied"))
  fun files =>
    let (w, r) := saveTo build py native hash tensor { finished := [], current := none, left := disk.left }
    (files.write path (disk.closed (r == .ok ()) w), r)

/-- The closure in `eqs_tensormap_load`, `src/c_api/io.rs` lines 24-36. -/
def eqsTensormapLoadFile (build : Build) (py : PyLiteral) (hash hash' : HashOrder) (path : Option Bytes) (files : Files) :
    Res (TensorMap NdArray) := do
  let memory ← checkPointer "path" path
  let path ← Res.expect (cstrStr memory) "use UTF-8 for path"
  match files path with
  | none => .err (.io "No such file or directory")
  | some .notArchive => .err (.serialization "invalid Zip archive: ")
  | some (.archive entries) => load build py hash hash' entries

end

end Equistore
