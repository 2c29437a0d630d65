import Verif.Model.Data

/-!
# Memory layout of `ndarray` arrays

Models `impl Array for ndarray::ArrayD<f64>` (`src/data.rs` lines 670-732) with the memory of the array: an
`ndarray` keeps, next to its shape, the distance in memory between neighbours along each axis (the
strides). `NdArray` in `Model/Data.lean` forgets about them; this model is used for everything which depends
on them: `swap_axes` does not move elements in memory, `reshape` keeps the memory when it can, and `data`
fails unless the elements are in row-major order.

What `ndarray` 0.15 does (`to_shape`, `to_owned`, `as_slice`, `swap_axes`, `default_strides`) is not part of the
repository; it is modelled here from the documentation and implementation of this crate. Simplifications: strides
are not negative, which `ArrayD` only has after inverting an axis; the memory starts with the first element, and
holds nothing but the elements.
-/

namespace Equistore

/-- `ndarray::ArrayD<f64>`: shape, strides and memory. `src/data.rs` lines 670-733. -/
structure Strided where
  shape : List Nat
  strides : List Nat
  memory : List Elt
  deriving DecidableEq, Repr

namespace Strided

/-- Strides of a row-major array without empty axes. Used by `from_elem`, `src/data.rs` line 685. -/
def rowMajor : List Nat → List Nat
  | [] => []
  | _ :: shape => shapeSize shape :: rowMajor shape

/-- `Dimension::default_strides` of `ndarray`: row-major strides, all zero for empty arrays. Used by `from_elem`, `src/data.rs` line 685. -/
def defaultStrides (shape : List Nat) : List Nat :=
  if 0 ∈ shape then shape.map fun _ => 0 else rowMajor shape

/-- Position in memory of the element with the given index. Used for `src/data.rs` lines 722-731. -/
def location (strides idx : List Nat) : Nat := (List.zipWith (· * ·) strides idx).sum

/-- The element at the given index. Used for `src/data.rs` lines 722-731. -/
def get (a : Strided) (idx : List Nat) : Elt := a.memory.getD (location a.strides idx) 0

/-- An array in row-major order. `from_elem`, `src/data.rs` line 685. -/
def standard (shape : List Nat) (elements : List Elt) : Strided :=
  { shape, strides := defaultStrides shape, memory := elements }

/-- The array in logical terms: its elements in the order of their indexes. `src/data.rs` lines 670-733. -/
def toNdArray (a : Strided) : NdArray := NdArray.build a.shape a.get

/-- Loop of `Dimension::is_layout_c` of `ndarray`, from the last axis: the number of elements seen so far, or
`none` if they are not next to each other. Axes of length 1 can have any stride.
Used by `as_slice`, `src/data.rs` line 693, and `src/c_api/data.rs` line 89. -/
def contiguousSize : List Nat → List Nat → Option Nat
  | n :: shape, s :: strides =>
    match contiguousSize shape strides with
    | none => none
    | some size => if n = 1 then some size else if s = size then some (size * n) else none
  | _, _ => some 1

/-- `ArrayBase::is_standard_layout` of `ndarray` (`Dimension::is_layout_c`).
Used by `as_slice`, `src/data.rs` line 693, and in `src/c_api/data.rs` line 89. -/
def isStandard (shape strides : List Nat) : Bool :=
  0 ∈ shape || (contiguousSize shape strides).isSome

/-- Insert an axis in a list of axes sorted by stride. Used by `to_owned`, `src/data.rs` line 702. -/
def insertAxis (axis : Nat × Nat) : List (Nat × Nat) → List (Nat × Nat)
  | [] => [axis]
  | axis' :: axes => if axis.2 ≤ axis'.2 then axis :: axis' :: axes else axis' :: insertAxis axis axes

/-- `Dimension::is_contiguous` of `ndarray`: whether the elements fill the memory without gaps, in any order of
the axes. Used by `to_owned`, `src/data.rs` line 702. -/
def isContiguous (shape strides : List Nat) : Bool :=
  strides == defaultStrides shape ||
  (shape.length != 1 &&
    (((shape.zip strides).foldr insertAxis []).foldl
      (fun (acc : Bool × Nat) axis => (acc.1 && (axis.1 == 1 || axis.2 == acc.2), acc.2 * axis.1)) (true, 1)).1)

/-- `ArrayBase::to_owned` of `ndarray`: the memory is kept as it is if it is contiguous, otherwise the elements are
copied in row-major order. Used in `src/data.rs` line 702. -/
def toOwned (a : Strided) : Strided :=
  if isContiguous a.shape a.strides then a else standard a.shape a.toNdArray.elements

/-- Outcomes of `reshape_dim_c` in `ndarray`. Used by `to_shape`, `src/data.rs` line 702. -/
inductive Reshaped
  | strides (strides : List Nat)
  | incompatibleLayout
  | incompatibleShape
  deriving DecidableEq

/-- Add the stride of one more axis in front. Used by `to_shape`, `src/data.rs` line 702. -/
def Reshaped.cons (s : Nat) : Reshaped → Reshaped
  | .strides l => .strides (s :: l)
  | r => r

/-- State of the inner loop of `reshape_dim_c`: the stride of the last axis taken from the array (`fs`), the
distance covered by the axes which still have to be distributed (`fstride_whole`), the number of elements in axes
taken from both sides (`fd_product`, `td_product`), and the current axis of the new shape (`td`).
Used by `to_shape`, `src/data.rs` line 702. -/
structure Combining where
  stride : Nat
  whole : Nat
  fromProduct : Nat
  toProduct : Nat
  toAxis : Nat

/-- `reshape_dim_c` in `ndarray` (`dimension/reshape.rs`): strides giving the elements of the array, which has the
given axes (length and stride), in row-major order when used with the new shape. The two loops of the code are
one function, `combining` is `none` in the outer loop. The first argument is larger than the number of steps.
Used by `to_shape`, `src/data.rs` line 702. -/
def reshapeDim : Nat → Option Combining → List (Nat × Nat) → List Nat → Reshaped
  | 0, _, _, _ => .incompatibleShape
  | fuel + 1, none, (fd, fs) :: axes, td :: shape =>
    if fd = td then (reshapeDim fuel none axes shape).cons fs
    else if fd = 1 then reshapeDim fuel none axes (td :: shape)
    else if td = 1 then (reshapeDim fuel none ((fd, fs) :: axes) shape).cons 1
    else if fd = 0 ∨ td = 0 then .incompatibleShape
    else reshapeDim fuel (some ⟨fs, fs * fd, fd, td, td⟩) axes shape
  | _ + 1, none, [], [] => .strides []
  | fuel + 1, none, (fd, _) :: axes, [] => if fd = 1 then reshapeDim fuel none axes [] else .incompatibleShape
  | fuel + 1, none, [], td :: shape =>
    if td = 1 then (reshapeDim fuel none [] shape).cons 1 else .incompatibleShape
  | fuel + 1, some c, axes, shape =>
    if c.fromProduct = c.toProduct then
      (reshapeDim fuel none axes shape).cons (c.whole / c.toAxis)
    else if c.fromProduct < c.toProduct then
      match axes with
      | [] => .incompatibleShape
      | (fd, fs) :: axes =>
        if 1 < fd then
          if c.stride ≠ fd * fs then .incompatibleLayout
          else reshapeDim fuel (some { c with stride := fs, fromProduct := c.fromProduct * fd }) axes shape
        else reshapeDim fuel (some { c with fromProduct := c.fromProduct * fd }) axes shape
    else
      match shape with
      | [] => .incompatibleShape
      | td :: shape =>
        (reshapeDim fuel (some { c with
            whole := c.whole / c.toAxis, toProduct := c.toProduct * td, toAxis := td }) axes shape).cons
          (c.whole / c.toAxis)

/-- `ArrayBase::to_shape(...).to_owned()` of `ndarray` for arrays with the right number of elements, `None` is an
error. Used in `src/data.rs` line 702. -/
def toShape (a : Strided) (shape : List Nat) : Option Strided :=
  if shapeSize a.shape = 0 then
    some (standard shape [])
  else
    match reshapeDim (a.shape.length + shape.length + 1) none (a.shape.zip a.strides) shape with
    | .strides strides => some (toOwned { shape, strides, memory := a.memory })
    | .incompatibleLayout => some (standard shape a.toNdArray.elements)
    | .incompatibleShape => none

/-- `Array::reshape` for `ndarray`, `src/data.rs` lines 700-704. -/
def reshape (a : Strided) (shape : List Nat) : Strided × Res Unit :=
  if shapeSize shape = shapeSize a.shape then
    match a.toShape shape with
    | some a => (a, .ok ())
    | none => (standard [0] [], .err (NdArray.failed "reshape"))
  else
    (standard [0] [], .err (NdArray.failed "reshape"))

/-- `Array::swap_axes` for `ndarray`, `src/data.rs` lines 706-708: the memory does not change. -/
def swapAxes (a : Strided) (axis₁ axis₂ : Nat) : Strided × Res Unit :=
  if axis₁ < a.shape.length ∧ axis₂ < a.shape.length then
    ({ a with shape := swapList a.shape axis₁ axis₂, strides := swapList a.strides axis₁ axis₂ }, .ok ())
  else
    (a, .err (NdArray.failed "swap_axes"))

/-- `Array::create` for `ndarray`, `src/data.rs` lines 684-686. -/
def create (_ : Strided) (shape : List Nat) : Strided :=
  standard shape (List.replicate (shapeSize shape) 0)

/-- Write elements in place. `assign`, `src/data.rs` line 730. -/
def write (a : Strided) (indexes : List (List Nat)) (f : List Nat → Elt) : Strided :=
  { a with memory := indexes.foldl (fun memory idx => memory.set (location a.strides idx) (f idx)) a.memory }

/-- Body of the loop in `Array::move_samples_from` for `ndarray`, `src/data.rs` lines 722-731, see
`NdArray.moveOne`. -/
def moveOne (output input : Strided) (m : SampleMapping) (start stop : Nat) : Option Strided :=
  match input.shape, output.shape with
  | nIn :: srcShape, nOut :: outShape =>
    if m.input < nIn ∧ m.output < nOut then
      match outShape.getLast? with
      | none => none
      | some nProp =>
        let dstShape := outShape.dropLast ++ [stop - start]
        if start ≤ nProp ∧ stop ≤ nProp ∧ NdArray.canBroadcast srcShape dstShape then
          some <| output.write
            ((allIdx output.shape).filter fun idx =>
              idx.head? = some m.output ∧ start ≤ idx.getLastD 0 ∧ idx.getLastD 0 < stop)
            fun idx =>
              input.get (m.input :: NdArray.broadcastIdx srcShape (idx.tail.dropLast ++ [idx.getLastD 0 - start]))
        else none
    else none
  | _, _ => none

/-- Loop of `Array::move_samples_from` for `ndarray`, `src/data.rs` lines 722-731. -/
def moveLoop (input : Strided) (start stop : Nat) : Strided → List SampleMapping → Strided × Res Unit
  | output, [] => (output, .ok ())
  | output, m :: samples =>
    match moveOne output input m start stop with
    | some output => moveLoop input start stop output samples
    | none => (output, .err (NdArray.failed "move_samples_from"))

/-- `Array::move_samples_from` for `ndarray`, `src/data.rs` lines 710-732, see `NdArray.moveSamplesFrom`. -/
def moveSamplesFrom (output input : Strided) (samples : List SampleMapping) (start stop : Nat) :
    Strided × Res Unit :=
  if 2 ≤ output.shape.length then
    moveLoop input start stop output samples
  else
    (output, .err (NdArray.failed "move_samples_from"))

/-- `Array::data` for `ndarray`, `src/data.rs` lines 692-694: `as_slice` gives the memory of arrays in row-major
order, otherwise `expect` panics, which the callback (lines 599-614) turns into a status. -/
def data (a : Strided) : Res (List Elt) :=
  if isStandard a.shape a.strides then .ok a.memory else .err (NdArray.failed "data")

/-- `impl Array for ndarray::ArrayD<f64>`, `src/data.rs` lines 671-733. -/
instance : ArrayLike Strided where
  origin _ := .ok NdArray.originId
  data := data
  shape a := .ok a.shape
  reshape := reshape
  swapAxes := swapAxes
  create a shape := .ok (create a shape)
  moveSamplesFrom := moveSamplesFrom

/-- `eqs_get_rust_array`, `src/c_api/data.rs` lines 75-105, for an `ndarray` array: the memory starting at `*data`,
and the shape. The assertion panics if the array is not in row-major order. -/
def getRustArray (a : Strided) : Res (List Elt × List Nat) := do
  Res.assert (isStandard a.shape a.strides) "assertion failed: array.is_standard_layout()"
  return (a.memory, a.shape)

end Strided
end Equistore
