import Verif.Model.Files
import Verif.Model.NumpyIo

/-!
# Names of files in `equistore/io.py`

Models `save` and `load` of `equistore/io.py` with their parameter `path`, on top of the functions of the library (`Model/Files.lean`) and
of numpy (`Model/NumpyIo.lean`). Simplifications: two different paths are two different files (there are no links, and `a` and
`./a` are not the same); the warning given by `save` is not an exception; the path can be encoded in UTF-8.
-/

namespace Equistore

/-- The computer running Python: how the library was compiled, its parser for headers, numpy, and the order of bytes.
Used for `equistore/io.py` lines 12-57. -/
structure PyMachine where
  build : Build
  py : PyLiteral
  np : Numpy
  native : Endian

/-- `path.endswith(".npz")`. `equistore/io.py` line 48. -/
def endsWithNpz (path : String) : Bool := ".npz".toList.isSuffixOf path.toList

/-- The path used by `save`, `equistore/io.py` lines 48-50. -/
def savedPath (path : String) : String := if endsWithNpz path then path else path ++ ".npz"

/-- `path.encode("utf8")` for a parameter of type `c_char_p`, `equistore/io.py` lines 30 and 57. There is a NUL after the bytes of the path;
`ctypes` does not check that there is no other one before. -/
def pathMemory (path : String) : Bytes := cstring path

/-- `open(path)` raises an exception for paths with a NUL. Used by `np.savez` and `np.load`, `equistore/io.py` lines 54 and 97. -/
def canOpen (path : String) : Bool := !path.toList.contains '\x00'

/-- The loop over arrays in `np.savez`: the entries in the file, and whether there was an exception. If a header can not be written, the
entry is there without content, and the file is closed. `equistore/io.py` line 54. -/
def npSavezEntries (np : Numpy) : List (String × NpArray) → Archive × Except PyExc Unit
  | [] => ([], .ok ())
  | (key, array) :: arrays =>
    match npWrite np array with
    | .ok bytes =>
      let (entries, result) := npSavezEntries np arrays
      ((key ++ ".npy", bytes) :: entries, result)
    | .error e => ([(key ++ ".npy", [])], .error e)

/-- `np.savez(path, **arrays)`. Numpy also adds the extension. Simplification: the disk does not fail once the file is created.
`equistore/io.py` line 54. -/
def npSavez (np : Numpy) (disk : Disk) (path : String) (arrays : List (String × NpArray)) (files : Files) : Files × Except PyExc Unit :=
  let path := savedPath path
  if canOpen path then
    if disk.canCreate then
      let (entries, result) := npSavezEntries np arrays
      (files.write path (.archive entries), result)
    else (files, .error .exception)
  else (files, .error .valueError)

section
variable {A : Type} [ArrayLike A]

/-- `save`, `equistore/io.py` lines 33-57. -/
def pySaveFile (m : PyMachine) (view : A → NpArray) (hash : HashOrder) (disk : Disk) (path : String) (t : TensorMap A) (useNumpy : Bool)
    (files : Files) : Files × Except PyExc Unit :=
  let path := savedPath path
  if useNumpy then
    match tensorAssignments view m.native t with
    | .ok assignments => npSavez m.np disk path (assignments.foldl (fun dict (key, value) => dictSet key value dict) []) files
    | .error e => (files, .error e)
  else
    let (files, result) := eqsTensormapSaveFile m.build m.py m.native hash disk (some (pathMemory path)) (some t) files
    (files, pyCheck result)

/-- `np.load(path)`: the archive in the file. `equistore/io.py` line 97. -/
def npLoad (path : String) (files : Files) : Except PyExc Archive :=
  if canOpen path then
    match files path with
    | some (.archive entries) => .ok entries
    | some .notArchive => .error .valueError
    | none => .error .exception
  else .error .valueError

/-- `load`, `equistore/io.py` lines 12-30: a tensor map with arrays of the library, or with arrays of numpy. -/
def pyLoadFile {B : Type} [ArrayLike B] (m : PyMachine) (wrap : NpArray → B) (hash hash' : HashOrder) (path : String) (useNumpy : Bool)
    (files : Files) : Except PyExc (TensorMap NdArray ⊕ TensorMap B) :=
  if useNumpy then do
    let archive ← npLoad path files
    let t ← pyLoad wrap m.native m.np hash archive
    return .inr t
  else do
    let t ← pyCheck (eqsTensormapLoadFile m.build m.py hash hash' (some (pathMemory path)) files)
    return .inl t

end

end Equistore
