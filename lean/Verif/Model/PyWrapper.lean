import Verif.Model.Numpy

/-!
# `ArrayWrapper`

Models the Python object behind the callbacks of a numpy array, `equistore/data.py`: the array and a
separate copy of its shape, which is what the library is given a pointer to.
-/

namespace Equistore

/-- `ArrayWrapper`, `equistore/data.py` lines 159-202: `array` is `None` after `destroy` (line 303), `shape` is
`_shape`. Simplifications: the type of the elements is `float64`, `_children` is in `Model/PyObjects.lean`. -/
structure PyWrapper where
  array : Option NumpyArray
  shape : List Nat
  deriving DecidableEq

namespace PyWrapper

/-- `ArrayWrapper.__init__`, `equistore/data.py` lines 162-164. -/
def wrap (array : NumpyArray) : PyWrapper := { array := some array, shape := array.array.shape }

/-- `_eqs_array_data`, `equistore/data.py` lines 210-235. Without an array, the variable `array` is not defined in
line 229, which raises. Simplification: arrays are contiguous, see `Model/NumpyView.lean`. -/
def data (w : PyWrapper) : Res (List Elt) :=
  match w.array with
  | some a => .ok a.array.elements
  | none => .err (NumpyArray.raised "data")

/-- `_eqs_array_shape`, `equistore/data.py` lines 238-243: the separate copy, whatever the array is. -/
def getShape (w : PyWrapper) : Res (List Nat) := .ok w.shape

/-- `_eqs_array_reshape`, `equistore/data.py` lines 246-255. Nothing is changed when `reshape` raises; `None` has
no such method. -/
def reshape (w : PyWrapper) (shape : List Nat) : PyWrapper × Res Unit :=
  match w.array with
  | some a =>
    match a.reshape shape with
    | (a, .ok ()) => ({ array := some a, shape := shape }, .ok ())
    | (_, r) => (w, r)
  | none => (w, .err (NumpyArray.raised "reshape"))

/-- `_eqs_array_swap_axes`, `equistore/data.py` lines 258-264. -/
def swapAxes (w : PyWrapper) (axis₁ axis₂ : Nat) : PyWrapper × Res Unit :=
  match w.array with
  | some a =>
    match a.swapAxes axis₁ axis₂ with
    | (a, .ok ()) => ({ array := some a, shape := a.array.shape }, .ok ())
    | (_, r) => (w, r)
  | none => (w, .err (NumpyArray.raised "swap_axes"))

/-- `_eqs_array_create`, `equistore/data.py` lines 267-284. `None.dtype` raises. -/
def create (w : PyWrapper) (shape : List Nat) : Res PyWrapper :=
  match w.array with
  | some _ => .ok (wrap (NumpyArray.build shape fun _ => 0))
  | none => .err (NumpyArray.raised "create")

/-- `_eqs_array_copy`, `equistore/data.py` lines 287-297. Without an array, the variable `array` is not defined
in line 296. -/
def copy (w : PyWrapper) : Res PyWrapper :=
  match w.array with
  | some a => .ok (wrap a)
  | none => .err (NumpyArray.raised "copy")

/-- `_eqs_array_destroy`, `equistore/data.py` lines 300-303. -/
def destroy (w : PyWrapper) : PyWrapper := { w with array := none }

/-- `_eqs_array_move_samples_from`, `equistore/data.py` lines 306-325: the elements of the array are modified in
place, `_shape` is not used. -/
def moveSamplesFrom (output input : PyWrapper) (samples : List SampleMapping) (start stop : Nat) :
    PyWrapper × Res Unit :=
  match output.array, input.array with
  | some a, some b =>
    let (a, r) := a.moveSamplesFrom b samples start stop
    ({ output with array := some a }, r)
  | _, _ => (output, .err (NumpyArray.raised "move_samples_from"))

/-- The callbacks, `equistore/data.py` lines 181-202. -/
instance : ArrayLike PyWrapper where
  origin _ := .ok NumpyArray.originId
  data := data
  shape := getShape
  reshape := reshape
  swapAxes := swapAxes
  create := create
  moveSamplesFrom := moveSamplesFrom

end PyWrapper
end Equistore
