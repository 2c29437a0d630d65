import Verif.Model.Data

/-!
# Arrays provided by Python

Models the callbacks `ArrayWrapper` gives to the library when a block holds a numpy array,
`equistore/data.py`. Exceptions raised inside of a callback are caught by `catch_exceptions`
(`equistore/utils.py` lines 28-37), which returns the status -1.

What numpy does is part of the trusted base: `reshape`, `swapaxes`, `zeros`, indexing with lists and
slices, and assignment with broadcasting.
-/

namespace Equistore

/-- A numpy array of dtype `float64`, `ArrayWrapper.array`, `equistore/data.py` lines 162-163: its
shape and elements. There is one element for each index, which numpy guarantees. Simplifications:
strides are not modelled here (see `Model/NumpyView.lean`), so that views into the same memory are not related to each other; the
cached `_shape` (line 164) is not separate, see `Model/PyWrapper.lean`. -/
structure NumpyArray where
  array : NdArray
  complete : array.elements.length = shapeSize array.shape
  deriving DecidableEq

namespace NumpyArray

/-- What `eqs_array_t::xxx` returns when the callback raises an exception, `equistore/utils.py` lines
31-35 and `src/data.rs` lines 271-452. -/
def raised (name : String) : Error := .external (-1) s!"calling eqs_array_t.{name} failed"

theorem count_allIdx (shape : List Nat) : (allIdx shape).length = shapeSize shape := by
  induction shape with
  | nil => rfl
  | cons n shape ih =>
    simp only [allIdx, List.length_flatMap, List.length_map, ih]
    change ((List.range n).map fun _ => shapeSize shape).sum = n * shapeSize shape
    simp [List.map_const']

/-- The array of the given shape with element `f idx` at index `idx`. Used for `swapaxes`, `equistore/data.py` lines 258-264. -/
def build (shape : List Nat) (f : List Nat → Elt) : NumpyArray :=
  ⟨NdArray.build shape f, by simp [NdArray.build, count_allIdx]⟩

/-- `_eqs_array_reshape`, `equistore/data.py` lines 246-255: numpy raises an exception if the sizes are
different, and the wrapper is not modified. -/
def reshape (a : NumpyArray) (shape : List Nat) : NumpyArray × Res Unit :=
  if h : shapeSize shape = shapeSize a.array.shape then
    (⟨{ a.array with shape }, a.complete.trans h.symm⟩, .ok ())
  else
    (a, .err (raised "reshape"))

/-- `_eqs_array_swap_axes`, `equistore/data.py` lines 258-264. -/
def swapAxes (a : NumpyArray) (axis₁ axis₂ : Nat) : NumpyArray × Res Unit :=
  if axis₁ < a.array.shape.length ∧ axis₂ < a.array.shape.length then
    (build (swapList a.array.shape axis₁ axis₂) fun idx => a.array.get (swapList idx axis₁ axis₂), .ok ())
  else
    (a, .err (raised "swap_axes"))

/-- Position of the last sample going to `i`, starting to count from 0. Used for the assignment in `equistore/data.py` line 325. -/
def lastIndex (i : Nat) : List SampleMapping → Option Nat
  | [] => none
  | m :: samples =>
    match lastIndex i samples with
    | some k => some (k + 1)
    | none => if m.output = i then some 0 else none

/-- Remove leading dimensions of size 1 as long as there are more than `n` dimensions. Numpy does this with the
right-hand side of an assignment. Used for the assignment in `equistore/data.py` line 325. -/
def dropOnes (n : Nat) : List Nat → List Nat
  | 1 :: shape => if n < shape.length + 1 then dropOnes n shape else 1 :: shape
  | shape => shape

/-- `_eqs_array_move_samples_from`, `equistore/data.py` lines 306-325:
`output[output_samples, ..., start:stop] = input[input_samples, ..., :]`.

Both indexing expressions need at least two dimensions, and samples in bounds; slices are cut to the size of
the last axis. The right-hand side has one row per sample, and is broadcast to the left-hand side, which also
has one row per sample. Every check is done before the output is modified. When there are multiple
values for an element, the last one is kept. -/
def moveSamplesFrom (output input : NumpyArray) (samples : List SampleMapping) (start stop : Nat) :
    NumpyArray × Res Unit :=
  match output.array.shape, input.array.shape with
  | nOut :: outRest, nIn :: inRest =>
    match outRest.getLast?, inRest.getLast? with
    | some nProperties, some _ =>
      if samples.all fun m => m.input < nIn && m.output < nOut then
        let first := min start nProperties
        let last := max first (min stop nProperties)
        let src := samples.length :: inRest
        let dst := samples.length :: (outRest.dropLast ++ [last - first])
        let src' := dropOnes dst.length src
        if NdArray.canBroadcast src' dst then
          (build output.array.shape fun idx =>
            let j := idx.getLastD 0
            match lastIndex (idx.headD 0) samples with
            | some k =>
              if first ≤ j ∧ j < last then
                let rhs := List.replicate (src.length - src'.length) 0 ++
                  NdArray.broadcastIdx src' (k :: (idx.tail.dropLast ++ [j - first]))
                input.array.get (((samples[rhs.headD 0]?).map (·.input)).getD 0 :: rhs.tail)
              else output.array.get idx
            | none => output.array.get idx, .ok ())
        else (output, .err (raised "move_samples_from"))
      else (output, .err (raised "move_samples_from"))
    | _, _ => (output, .err (raised "move_samples_from"))
  | _, _ => (output, .err (raised "move_samples_from"))

/-- Identifier of the origin "equistore.data.numpy", `equistore/data.py` lines 66-71. -/
def originId : Nat := 3

/-- The callbacks, `equistore/data.py` lines 181-202. `data` (lines 210-235) gives the elements;
simplification: it fails for arrays which are not contiguous in memory (see `Model/NumpyView.lean`). `create`
(lines 267-284) gives zeros. -/
instance : ArrayLike NumpyArray where
  origin _ := .ok originId
  data a := .ok a.array.elements
  shape a := .ok a.array.shape
  reshape := reshape
  swapAxes := swapAxes
  create _ shape := .ok (build shape fun _ => 0)
  moveSamplesFrom := moveSamplesFrom

end NumpyArray
end Equistore
