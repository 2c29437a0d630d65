import Verif.Model.Archive
import Verif.Model.PySelection
import Verif.Model.CHeap

/-!
# Saving and loading with numpy

Models `equistore/io.py` with `use_numpy=True`: `_tensor_map_to_dict` and `np.savez`, `np.load` and `_read_npz`. The
functions of numpy follow `numpy/lib/format.py` and `numpy/lib/npyio.py` (`numpy/lib/_npyio_impl.py`), which are
not part of the repository.
-/

namespace Equistore

/-- What is needed from Python and numpy.

* `text.format` makes the text of a header from a dictionary (`_write_array_header` with `repr`), `text.parse` is
  `ast.literal_eval`, which is given the text with the newline at its end;
* `itemsize` is the size in bytes of elements of type `np.dtype(descr)`, `none` if there is no such type;
* `maxHeader` is the maximal length of headers accepted by `np.load`: 10000, no limit before numpy 1.24.
Used by `np.savez` and `np.load`, `equistore/io.py` lines 54 and 97. -/
structure Numpy where
  text : PyLiteral
  itemsize : PyValue → Option Nat
  maxHeader : Option Nat

/-- An array of numpy. `descr` describes the type of the elements, including the order of bytes, `memory` are the bytes of all
elements, with the last index changing the fastest, or the first one if `fortran`. Simplification: arrays
which are not contiguous are the same as their contiguous copies. Arrays in `equistore/io.py` lines 60-88. -/
structure NpArray where
  descr : PyValue
  itemsize : Nat
  fortran : Bool
  shape : List Nat
  memory : Bytes

/-- The type of labels: one 32-bit integer for each name, in the byte order of the machine. `equistore/labels.py` line 91. -/
def labelsDescr (native : Endian) (names : List String) : PyValue :=
  .list (names.map fun name => .tuple [.string name.toList, .string native.i4.toList])

/-! ### NPY files with numpy -/

/-- `np.lib.format.write_array`. Versions and padding are the same as in `Header::to_bytes`, `src/io/npy_header.rs` lines 448-475, which
follows numpy. -/
def npWrite (np : Numpy) (a : NpArray) : Except PyExc Bytes :=
  match NpyHeader.toBytes ⟨false⟩ np.text { typeDescriptor := a.descr, fortranOrder := a.fortran, shape := a.shape } with
  | .ok header => .ok (header ++ a.memory)
  | _ => .error .valueError

/-- The first `n` bytes, and the remaining ones. Used by `np.load`, `equistore/io.py` line 97. -/
def takeBytes (n : Nat) (bytes : Bytes) : Option (Bytes × Bytes) :=
  if n ≤ bytes.length then some (bytes.take n, bytes.drop n) else none

/-- Decoding of the header in `np.lib.format._read_array_header`: headers of versions 1 and 2 are in Latin-1.
Used by `np.load`, `equistore/io.py` line 97. -/
def npHeaderText (version : NpyVersion) (header : Bytes) : Option (List Char) :=
  match version with
  | .v1 | .v2 => some (NpyHeader.asciiChars header)
  | .v3 => NpyHeader.decodeUtf8 header

/-- The limit on the length of headers in `np.lib.format._read_array_header`. Used by `np.load`, `equistore/io.py` line 97. -/
def npTooLong (np : Numpy) (text : List Char) : Bool :=
  match np.maxHeader with
  | some limit => limit < text.length
  | none => false

/-- The rest of `np.lib.format._read_array_header`, with the text of the header. Simplification: negative dimensions are
refused here instead of later. Used by `np.load`, `equistore/io.py` line 97. -/
def npParseHeader (np : Numpy) (text : List Char) : Option NpyHeader :=
  if npTooLong np text then none
  else
    match np.text.parse text with
    | none => none
    | some value =>
      match NpyHeader.fromPyValue value with
      | .ok header => some header
      | _ => none

/-- `np.lib.format._read_array_header`, after the version: the header and the remaining bytes. Nothing is checked about the
end of the header. Used by `np.load`, `equistore/io.py` line 97. -/
def npHeader (np : Numpy) (version : NpyVersion) (bytes : Bytes) : Option (NpyHeader × Bytes) := do
  let (length, bytes) ← takeBytes version.headerLenNumBytes bytes
  let (header, bytes) ← takeBytes (Endian.little.decode length) bytes
  let text ← npHeaderText version header
  let header ← npParseHeader np text
  return (header, bytes)

/-- `NpzFile.__getitem__` on the bytes of a file, and `np.lib.format.read_array`. Bytes after the end of the array are
ignored. Used in `equistore/io.py` lines 99-130. -/
def npRead (np : Numpy) (bytes : Bytes) : Option NpArray := do
  let (magic, bytes) ← takeBytes magicString.length bytes
  if magic ≠ magicString then none
  let (version, bytes) ← takeBytes 2 bytes
  match NpyVersion.fromBytes version with
  | .ok version =>
    let (header, bytes) ← npHeader np version bytes
    let itemsize ← np.itemsize header.typeDescriptor
    let (memory, _) ← takeBytes (shapeSize header.shape * itemsize) bytes
    return { descr := header.typeDescriptor, itemsize, fortran := header.fortranOrder, shape := header.shape, memory }
  | _ => none

/-- `NpzFile.files`: the names in the archive, without the extension. `dictionary.keys()`, `equistore/io.py` line 118. -/
def npFiles (archive : Archive) : List String :=
  archive.map fun (name, _) =>
    if ".npy".toList.isSuffixOf name.toList then String.ofList (name.toList.take (name.toList.length - 4)) else name

/-- `NpzFile.__getitem__`: the name is used as it is if there is such a file, otherwise with the extension.
Used in `equistore/io.py` lines 99-130. -/
def npGet (np : Numpy) (archive : Archive) (key : String) : Except PyExc NpArray :=
  let name := if (archive.map Prod.fst).contains key then key else key ++ ".npy"
  match archive.byName name with
  | .ok bytes =>
    match npRead np bytes with
    | some a => .ok a
    | none => .error .valueError
  | _ => .error .keyError

/-! ### `save` -/

/-- `np.asanyarray(labels)` for labels given by the library. `none` is undefined behaviour.
Used by `np.savez`, `equistore/io.py` line 54. -/
def npLabels (native : Endian) (v : PyLabels) : Option NpArray := do
  let entries ← v.entries
  return {
    descr := labelsDescr native v.names
    itemsize := 4 * v.names.length
    fortran := false
    shape := [v.count]
    memory := entries.flatten.flatMap fun value => native.encode 4 value.toUInt32.toNat }

/-- The labels of a block or tensor map as an array, through `eqs_tensormap_keys` or `eqs_block_labels`,
`equistore/block.py` lines 180-209, 369-375; components are read one axis after the other. -/
def npLibraryLabels (native : Endian) (l : Labels) : Except PyExc NpArray := do
  let c ← pyCheck l.toC
  let v ← PyLabels.ofC c
  match npLabels native v with
  | some a => .ok a
  | none => .error .exception

/-- Assignment to an entry of a Python dictionary. Used in `equistore/io.py` lines 69-88. -/
def dictSet {α : Type} (key : String) (value : α) : List (String × α) → List (String × α)
  | [] => [(key, value)]
  | (k, v) :: dict => if k = key then (k, value) :: dict else (k, v) :: dictSet key value dict

section
variable {A : Type} [ArrayLike A] (view : A → NpArray) (native : Endian)

/-- Loops over components in `_tensor_map_to_dict`, `equistore/io.py` lines 76-77 and 85-86. -/
def componentAssignments (pre : String) (components : List Labels) : Except PyExc (List (String × NpArray)) :=
  components.zipIdx.mapM fun (component, i) => do
    let array ← npLibraryLabels native component
    return (s!"{pre}/components/{i}", array)

/-- The loop over gradients in `_tensor_map_to_dict`, `equistore/io.py` lines 80-86, with `view` the array
given by `_array_to_numpy` (lines 60-66). -/
def gradientAssignments (block : TensorBlock A) (i : Nat) (parameter : String) :
    Except PyExc (List (String × NpArray)) := do
  match block.gradient parameter with
  | none => .error .equistoreError
  | some gradient =>
    let pre := s!"blocks/{i}/gradients/{parameter}"
    let samples ← npLibraryLabels native gradient.samples
    let components ← componentAssignments native pre gradient.components
    return [(s!"{pre}/data", view gradient.data), (s!"{pre}/samples", samples)] ++ components

/-- The loop over blocks in `_tensor_map_to_dict`, `equistore/io.py` lines 72-86. -/
def blockAssignments (block : TensorBlock A) (i : Nat) : Except PyExc (List (String × NpArray)) := do
  let pre := s!"blocks/{i}/values"
  let samples ← npLibraryLabels native block.values.samples
  let components ← componentAssignments native pre block.values.components
  let properties ← npLibraryLabels native block.values.properties
  let gradients ← block.gradientParameters.mapM (gradientAssignments view native block i)
  return [(s!"{pre}/data", view block.values.data), (s!"{pre}/samples", samples)] ++ components ++
    [(s!"{pre}/properties", properties)] ++ gradients.flatten

/-- `_tensor_map_to_dict`, `equistore/io.py` lines 69-88: all the assignments in order. -/
def tensorAssignments (t : TensorMap A) : Except PyExc (List (String × NpArray)) := do
  let keys ← npLibraryLabels native t.keys
  let items ← pyIter t
  let blocks ← items.zipIdx.mapM fun ((_, block), i) =>
    match t.blocks[block]? with
    | some block => blockAssignments view native block i
    | none => .error .equistoreError
  return ("keys", keys) :: blocks.flatten

/-- `save` with `use_numpy=True`, `equistore/io.py` lines 52-54: the entries written by `np.savez`. -/
def pySave (np : Numpy) (t : TensorMap A) : Except PyExc Archive := do
  let assignments ← tensorAssignments view native t
  let dict := assignments.foldl (fun dict (key, value) => dictSet key value dict) []
  dict.mapM fun (key, array) => do
    let bytes ← npWrite np array
    return (key ++ ".npy", bytes)

end

/-! ### `load` -/

/-- The names of the fields of a type, if it has fields. `data.dtype.names`, `equistore/io.py` line 92. -/
def fieldsOf : PyValue → Option (List String)
  | .list fields => fields.mapM fun
    | .tuple (.string name :: _) => some (String.ofList name)
    | _ => none
  | _ => none

/-- `_labels_from_npz`, `equistore/io.py` lines 91-93: the bytes are seen as 32-bit integers in the order of this machine.
Simplifications: elements with a size which is not a multiple of 4, and arrays in Fortran order with more than one dimension
raise an exception. -/
def labelsFromNpz (native : Endian) (a : NpArray) : Except PyExc PyLabels :=
  match fieldsOf a.descr with
  | none => .error .typeError
  | some names =>
    if a.shape = [] ∨ a.itemsize % 4 ≠ 0 ∨ (a.fortran ∧ a.shape.length ≠ 1) then .error .valueError
    else
      let values := (decodeAll native 4 a.memory).map fun n => (Int32.ofNat n).toInt
      if names.length = 0 ∨ values.length % names.length ≠ 0 then .error .valueError
      else PyLabels.new names (.array true [values.length / names.length, names.length] values) none

section
variable {A : Type} [ArrayLike A] (wrap : NpArray → A) (native : Endian) (np : Numpy)

/-- Loops over components in `_read_npz`, `equistore/io.py` lines 109-110 and 128-131, starting at index `i`, for `n`
components. -/
def pyLoadComponents (archive : Archive) (pre : String) : Nat → Nat → Except PyExc (List PyLabels)
  | 0, _ => .ok []
  | n + 1, i => do
    let array ← npGet np archive s!"{pre}/components/{i}"
    let component ← labelsFromNpz native array
    let others ← pyLoadComponents archive pre n (i + 1)
    return component :: others

/-- The loop over gradients in `_read_npz`, `equistore/io.py` lines 122-133. `wrap` is `ArrayWrapper`; the name of the
parameter ends at the first NUL in `add_gradient`. -/
def pyLoadGradients (archive : Archive) (i : Nat) : List String → TensorBlock A → Except PyExc (TensorBlock A)
  | [], block => .ok block
  | parameter :: parameters, block => do
    let pre := s!"blocks/{i}/gradients/{parameter}"
    let data ← npGet np archive s!"{pre}/data"
    let samples ← npGet np archive s!"{pre}/samples"
    let samples ← labelsFromNpz native samples
    let components ← pyLoadComponents native np archive pre (data.shape.length - 2) 0
    let samples ← pyCheck (Labels.ofC samples.toC)
    let components ← pyCheck ((components.map PyLabels.toC).mapM Labels.ofC)
    let name := String.ofList (parameter.toList.takeWhile (· ≠ '\x00'))
    match block.addGradient name (wrap data) samples components with
    | (block, .ok ()) => pyLoadGradients archive i parameters block
    | (_, _) => .error .equistoreError

/-- The names of gradients in `_read_npz`, `equistore/io.py` lines 116-120. -/
def pyGradientParameters (archive : Archive) : List String :=
  ((npFiles archive).filter fun name =>
    "blocks/0/gradients/".toList.isPrefixOf name.toList && "/data".toList.isSuffixOf name.toList).map fun name =>
      String.ofList ((name.toList.take (name.toList.length - 5)).drop 19)

/-- The loop over blocks in `_read_npz`, `equistore/io.py` lines 103-135. -/
def pyLoadBlock (archive : Archive) (parameters : List String) (i : Nat) : Except PyExc (TensorBlock A) := do
  let pre := s!"blocks/{i}/values"
  let data ← npGet np archive s!"{pre}/data"
  let samples ← npGet np archive s!"{pre}/samples"
  let samples ← labelsFromNpz native samples
  let components ← pyLoadComponents native np archive pre (data.shape.length - 2) 0
  let properties ← npGet np archive s!"{pre}/properties"
  let properties ← labelsFromNpz native properties
  let block ← pyCheck (blockOfC (wrap data) samples.toC (components.map PyLabels.toC) properties.toC)
  pyLoadGradients wrap native np archive i parameters block

/-- `load` with `use_numpy=True`: `_read_npz`, `equistore/io.py` lines 96-137, where `hash` is the order of gradients in
`TensorMap::new`. -/
def pyLoad (hash : HashOrder) (archive : Archive) : Except PyExc (TensorMap A) := do
  let keys ← npGet np archive "keys"
  let keys ← labelsFromNpz native keys
  let blocks ← (List.range keys.count).mapM (pyLoadBlock wrap native np archive (pyGradientParameters archive))
  let keys ← pyCheck (Labels.ofC keys.toC)
  pyCheck (TensorMap.new hash keys blocks)

end

end Equistore
