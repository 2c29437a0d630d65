import Verif.Model.Numpy

/-!
# Memory layout of numpy arrays

Models the callbacks of `equistore/data.py` for numpy arrays together with the memory of these arrays. A numpy array
is a view into some memory: each axis has a number of entries and a stride, the distance in memory between
neighbours along this axis. Programs can give any view to the library: slices with steps, reversed or
transposed arrays, broadcast arrays where several elements share a place. `NumpyArray` in `Model/Numpy.lean`
forgets about this.

What numpy does (`swapaxes`, `reshape`, `zeros`, `c_contiguous`) is not part of the repository; it is modelled
here from its documentation and its implementation (`PyArray_Newshape` and `_attempt_nocopy_reshape` in
`numpy/core/src/multiarray/shape.c`). Strides count elements instead of bytes.
-/

namespace Equistore

/-- A numpy array of dtype `float64`: number of entries and stride of each axis, position of the first element, and
the memory the array is a view of. Simplifications: the memory belongs to this array only, writing to
it is not seen in other views; reading outside of the memory, which numpy prevents, gives 0.
`ArrayWrapper.array`, `equistore/data.py` lines 159-203. -/
structure NumpyView where
  axes : List (Nat × Int)
  start : Int
  memory : List Elt
  deriving DecidableEq, Repr

namespace NumpyView

/-- `array.shape`. Used in `equistore/data.py` line 164. -/
def shape (a : NumpyView) : List Nat := a.axes.map Prod.fst

/-- Distance in memory from the first element to the one with the given index. Indexing in `equistore/data.py` line 325. -/
def location : List (Nat × Int) → List Nat → Int
  | (_, s) :: axes, i :: idx => s * i + location axes idx
  | _, _ => 0

/-- What is at a given place in memory. Indexing in `equistore/data.py` line 325. -/
def at' (a : NumpyView) (position : Int) : Elt :=
  if position < 0 then 0 else a.memory.getD position.toNat 0

/-- `array[idx]`. Indexing in `equistore/data.py` line 325. -/
def get (a : NumpyView) (idx : List Nat) : Elt := a.at' (a.start + location a.axes idx)

/-- The array in logical terms: its elements in the order of their indexes. `ArrayWrapper.array`, `equistore/data.py` lines 159-203. -/
def toNumpy (a : NumpyView) : NumpyArray := NumpyArray.build a.shape a.get

/-- Axes of a new array (`_array_fill_strides` of numpy): row-major order; axes without entries count as
axes with one entry. Used by `np.zeros`, `equistore/data.py` line 277. -/
def rowMajor : List Nat → List (Nat × Int)
  | [] => []
  | n :: shape => (n, shapeSize (shape.map fun m => if m = 0 then 1 else m)) :: rowMajor shape

/-- A new array, with its own memory. `np.zeros`, `equistore/data.py` line 277. -/
def fresh (shape : List Nat) (elements : List Elt) : NumpyView :=
  { axes := rowMajor shape, start := 0, memory := elements }

/-- Check that elements are next to each other, from the last axis: the number of elements seen so far, or `none`
if they are not. Axes with one entry can have any stride. Used in `equistore/data.py` line 229. -/
def contiguousSize : List (Nat × Int) → Option Nat
  | [] => some 1
  | (n, s) :: axes =>
    match contiguousSize axes with
    | none => none
    | some size => if n = 1 then some size else if s = size then some (size * n) else none

/-- `array.data.c_contiguous` (`memoryview` and `_UpdateContiguousFlags` of numpy): arrays without elements are
always contiguous. Used in `equistore/data.py` line 229. -/
def isContiguous (axes : List (Nat × Int)) : Bool :=
  decide (0 ∈ axes.map Prod.fst) || (contiguousSize axes).isSome

/-- `_eqs_array_data`, `equistore/data.py` lines 210-235: a pointer to the first element, given here as the values
read from it, one for each element. -/
def data (a : NumpyView) : Res (List Elt) :=
  if isContiguous a.axes then
    .ok ((List.range (shapeSize a.shape)).map fun n => a.at' (a.start + (n : Nat)))
  else
    .err (NumpyArray.raised "data")

/-- `_eqs_array_swap_axes`, `equistore/data.py` lines 258-264: `swapaxes` gives another view of the same memory. -/
def swapAxes (a : NumpyView) (axis₁ axis₂ : Nat) : NumpyView × Res Unit :=
  if axis₁ < a.axes.length ∧ axis₂ < a.axes.length then
    ({ a with axes := swapList a.axes axis₁ axis₂ }, .ok ())
  else
    (a, .err (NumpyArray.raised "swap_axes"))

/-- What `_attempt_nocopy_reshape` of numpy finds: the axes of a view with the new shape; that there is no such
view; or, if it would go past the end of one of the lists of axes, nothing we can describe.
Used by `reshape`, `equistore/data.py` line 254. -/
inductive NoCopy
  | view (axes : List (Nat × Int))
  | impossible
  | outOfBounds
  deriving DecidableEq, Repr

/-- A group of new axes and a group of old axes with the same number of elements, and the remaining axes.
Used by `reshape`, `equistore/data.py` line 254. -/
structure Group where
  newDims : List Nat
  oldAxes : List (Nat × Int)
  newRest : List Nat
  oldRest : List (Nat × Int)
  deriving DecidableEq, Repr

/-- Inner loop of `_attempt_nocopy_reshape` (`while (np != op)`): `np` and `op` are the number of elements in the
groups taken so far. Used by `reshape`, `equistore/data.py` line 254. -/
def takeGroup : (fuel np op : Nat) → Group → Option Group
  | 0, _, _, _ => none
  | fuel + 1, np, op, g =>
    if np = op then some g
    else if np < op then
      match g.newRest with
      | [] => none
      | d :: rest => takeGroup fuel (np * d) op { g with newDims := g.newDims ++ [d], newRest := rest }
    else
      match g.oldRest with
      | [] => none
      | a :: rest => takeGroup fuel np (op * a.1) { g with oldAxes := g.oldAxes ++ [a], oldRest := rest }

/-- Check of `_attempt_nocopy_reshape` that the old axes of a group can be merged to one axis.
Used by `reshape`, `equistore/data.py` line 254. -/
def canMerge : List (Nat × Int) → Bool
  | (_, s) :: (n, t) :: axes => s == n * t && canMerge ((n, t) :: axes)
  | _ => true

/-- Strides of the new axes of a group, from the last one, which has the stride of the last old axis.
Used by `reshape`, `equistore/data.py` line 254. -/
def groupAxes (last : Int) : List Nat → List (Nat × Int)
  | [] => []
  | d :: dims =>
    match groupAxes last dims with
    | [] => [(d, last)]
    | (e, t) :: axes => (d, t * e) :: (e, t) :: axes

/-- Stride of the last axis. Used by `reshape`, `equistore/data.py` line 254. -/
def lastStride (axes : List (Nat × Int)) : Int := (axes.getLast?.map Prod.snd).getD 0

/-- Main loop of `_attempt_nocopy_reshape`, on old axes without those of length 1; `last` is the stride
given to new axes when there are no old axes left. Used by `reshape`, `equistore/data.py` line 254. -/
def attempt : (fuel : Nat) → (last : Int) → List Nat → List (Nat × Int) → NoCopy
  | _, _, [], _ => .view []
  | _, last, dims, [] => .view (dims.map fun d => (d, last))
  | 0, _, _, _ => .outOfBounds
  | fuel + 1, _, d :: dims, a :: axes =>
    match takeGroup (dims.length + axes.length + 1) d a.1 ⟨[d], [a], dims, axes⟩ with
    | none => .outOfBounds
    | some g =>
      if canMerge g.oldAxes then
        let last := lastStride g.oldAxes
        match attempt fuel last g.newRest g.oldRest with
        | .view axes => .view (groupAxes last g.newDims ++ axes)
        | r => r
      else .impossible

/-- `_attempt_nocopy_reshape` of numpy. Without any old axis left, new axes get the stride 1.
Used by `reshape`, `equistore/data.py` line 254. -/
def attemptNoCopy (shape : List Nat) (axes : List (Nat × Int)) : NoCopy :=
  attempt shape.length 1 shape (axes.filter fun a => a.1 ≠ 1)

/-- A copy with its own memory, in row-major order. Used by `reshape` and `copy`, `equistore/data.py` lines 254 and 292. -/
def copy (a : NumpyView) (shape : List Nat) : NumpyView := fresh shape a.toNumpy.array.elements

/-- `_eqs_array_reshape`, `equistore/data.py` lines 246-255. `reshape` (`PyArray_Newshape`) gives a view of the same
memory if it finds one, and a copy otherwise. -/
def reshape (a : NumpyView) (shape : List Nat) : NumpyView × Res Unit :=
  if shape = a.shape then (a, .ok ())
  else if shapeSize shape ≠ shapeSize a.shape then (a, .err (NumpyArray.raised "reshape"))
  else if isContiguous a.axes then ({ a with axes := rowMajor shape }, .ok ())
  else
    match attemptNoCopy shape a.axes with
    | .view axes => ({ a with axes }, .ok ())
    | .impossible => (a.copy shape, .ok ())
    | .outOfBounds => (a, .panic "numpy: out of bounds access")

/-- Write to the memory of an array, one element after the other. Used for the assignment in `equistore/data.py` line 325. -/
def write (a : NumpyView) (indexes : List (List Nat)) (f : List Nat → Elt) : NumpyView :=
  { a with memory := indexes.foldl (fun memory idx => memory.set (a.start + location a.axes idx).toNat (f idx)) a.memory }

/-- `_eqs_array_move_samples_from`, `equistore/data.py` lines 306-325: the elements are those of
`NumpyArray.moveSamplesFrom`, and they are written to the memory of the output. Simplification: elements which do
not change are written again; for outputs where several elements share a place this is not what numpy does. The
library only moves samples to arrays it got from `create` (C71), where elements do not share a place. -/
def moveSamplesFrom (output input : NumpyView) (samples : List SampleMapping) (start stop : Nat) :
    NumpyView × Res Unit :=
  match NumpyArray.moveSamplesFrom output.toNumpy input.toNumpy samples start stop with
  | (a, .ok ()) => (output.write (allIdx output.shape) a.array.get, .ok ())
  | (_, .err e) => (output, .err e)
  | (_, .panic m) => (output, .panic m)

/-- The callbacks, `equistore/data.py` lines 181-202. `create` (lines 267-284) uses `np.zeros`. -/
instance : ArrayLike NumpyView where
  origin _ := .ok NumpyArray.originId
  data := data
  shape a := .ok a.shape
  reshape := reshape
  swapAxes := swapAxes
  create _ shape := .ok (fresh shape (List.replicate (shapeSize shape) 0))
  moveSamplesFrom := moveSamplesFrom

end NumpyView
end Equistore
