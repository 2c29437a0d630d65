import Verif.Model.PyFiles

/-!
# Several names for one file

`save` and `load` of `equistore/io.py` on a disk with links, where several paths can lead to the same file. Simplification: where paths
lead to does not change while the program runs.
-/

namespace Equistore

/-- Where paths lead to: links are followed, and `a` and `./a` are the same. Used by `open` for `equistore/io.py` lines 30, 54, 57 and 97. -/
abbrev Resolve : Type := String → String

/-- What is seen through all paths, when `real` are the files themselves. `equistore/io.py` lines 30, 54, 57 and 97. -/
def seenFiles (resolve : Resolve) (real : Files) : Files := fun path => real (resolve path)

/-- The path given to `open` by `save`: the library takes the bytes before the first NUL. `equistore/io.py` lines 48-57. -/
def openedPath (path : String) : String := (cstrStr (pathMemory (savedPath path))).getD ""

section
variable {A : Type} [ArrayLike A]

/-- A call of `save`: whether the disk fails, the path, the tensor map, and `use_numpy`. `equistore/io.py` line 33. -/
structure SaveCall (A : Type) where
  hash : HashOrder
  disk : Disk
  path : String
  tensor : TensorMap A
  useNumpy : Bool

/-- `save` with links, `equistore/io.py` lines 33-57: the file at the end of the path is written. -/
def pySaveLinked (m : PyMachine) (view : A → NpArray) (resolve : Resolve) (call : SaveCall A) (real : Files) : Files × Except PyExc Unit :=
  let (seen, result) := pySaveFile m view call.hash call.disk call.path call.tensor call.useNumpy (seenFiles resolve real)
  (fun file => if file = resolve (openedPath call.path) then seen (openedPath call.path) else real file, result)

/-- `load` with links, `equistore/io.py` lines 12-30. -/
def pyLoadLinked {B : Type} [ArrayLike B] (m : PyMachine) (wrap : NpArray → B) (hash hash' : HashOrder) (resolve : Resolve) (path : String)
    (useNumpy : Bool) (real : Files) : Except PyExc (TensorMap NdArray ⊕ TensorMap B) :=
  pyLoadFile m wrap hash hash' path useNumpy (seenFiles resolve real)

/-- Several calls of `save`, whatever their results are. `equistore/io.py` lines 33-57. -/
def pySaveAll (m : PyMachine) (view : A → NpArray) (resolve : Resolve) (calls : List (SaveCall A)) (real : Files) : Files :=
  calls.foldl (fun real call => (pySaveLinked m view resolve call real).1) real

end

end Equistore
