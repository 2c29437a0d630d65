import Verif.Model.Res

/-!
# Arrays

Models `src/data.rs`: the table of callbacks `eqs_array_t`, and its
implementation for Rust's `ndarray` and for `EmptyArray`.
-/

namespace Equistore

/-- A 64-bit floating point value, as its bit pattern: the library only moves
values around and never computes with them. The pattern 0 is `0.0`. `f64` in `src/data.rs` lines 671-733. -/
abbrev Elt := BitVec 64

/-- `eqs_sample_mapping_t`, `src/data.rs` lines 167-175. -/
structure SampleMapping where
  input : Nat
  output : Nat
  deriving DecidableEq, Repr

/-- `eqs_array_t` seen from Rust, `src/data.rs` lines 72-165 and 271-452. Each
callback may fail with an external error, or panic (when the function pointer is
NULL). Callbacks which modify the array return the new array, also when they
fail. `destroy` is modelled separately. -/
class ArrayLike (A : Type) where
  /-- `eqs_array_t::origin`, lines 272-287 -/
  origin : A → Res Nat
  /-- `eqs_array_t::data`, lines 290-319 -/
  data : A → Res (List Elt)
  /-- `eqs_array_t::shape`, lines 323-348 -/
  shape : A → Res (List Nat)
  /-- `eqs_array_t::reshape`, lines 351-369 -/
  reshape : A → List Nat → A × Res Unit
  /-- `eqs_array_t::swap_axes`, lines 372-390 -/
  swapAxes : A → Nat → Nat → A × Res Unit
  /-- `eqs_array_t::create`, lines 393-413 -/
  create : A → List Nat → Res A
  /-- `eqs_array_t::move_samples_from(self, input, samples, start..end)`,
  lines 426-452 -/
  moveSamplesFrom : A → A → List SampleMapping → Nat → Nat → A × Res Unit

/-! ### Multi-dimensional indexing -/

/-- Number of elements of an array with the given shape. Computed in `eqs_array_t::data`, `src/data.rs` lines 291-295, and by `ndarray`. -/
def shapeSize (shape : List Nat) : Nat := shape.foldr (· * ·) 1

/-- Position of a multi-dimensional index in row-major order. `eqs_array_t` is row-major, `src/data.rs` lines 74-165. -/
def offset : List Nat → List Nat → Nat
  | _ :: shape, i :: idx => i * shapeSize shape + offset shape idx
  | _, _ => 0

/-- All the indices of an array of the given shape in row-major order. `eqs_array_t` is row-major, `src/data.rs` lines 74-165. -/
def allIdx : List Nat → List (List Nat)
  | [] => [[]]
  | n :: shape => (List.range n).flatMap fun i => (allIdx shape).map (i :: ·)

/-- Exchange the elements at positions `i` and `j` of a list (`slice::swap`),
for positions inside the list. Used for `swap_axes`, `src/data.rs` lines 706-708. -/
def swapList {α : Type} (l : List α) (i j : Nat) : List α :=
  match l[i]?, l[j]? with
  | some a, some b => (l.set i b).set j a
  | _, _ => l

/-! ### `ndarray` -/

/-- `ndarray::ArrayD<f64>` at the logical level: its shape and its elements in
row-major order. Simplification: memory layout (strides) is not modelled. `src/data.rs` lines 670-733. -/
structure NdArray where
  shape : List Nat
  elements : List Elt
  deriving DecidableEq, Repr

namespace NdArray

/-- The array of the given shape with element `f idx` at index `idx`. Used for `swap_axes`, `src/data.rs` lines 706-708. -/
def build (shape : List Nat) (f : List Nat → Elt) : NdArray :=
  { shape, elements := (allIdx shape).map f }

/-- The element at the given index (0 outside of the array, this is never
used). Used for `swap_axes` and `move_samples_from`, `src/data.rs` lines 706-732. -/
def get (a : NdArray) (idx : List Nat) : Elt :=
  a.elements.getD (offset a.shape idx) 0

/-- The status of a panic caught inside a callback implemented in Rust
(`EQS_INTERNAL_ERROR`, `src/c_api/status.rs`). `src/c_api/status.rs` lines 46-82. -/
def internalStatus : Int32 := 255

/-- What `eqs_array_t::xxx` returns when the Rust implementation of the callback
panics: `catch_unwind` in `src/data.rs` lines 517-660 turns it into a status. -/
def failed (name : String) : Error :=
  .external internalStatus s!"calling eqs_array_t.{name} failed"

/-- `Array::reshape` for `ndarray`, `src/data.rs` lines 700-704. The array is
replaced by a default one (shape `[0]`) with `mem::take` before `to_shape` can
fail. -/
def reshape (a : NdArray) (shape : List Nat) : NdArray × Res Unit :=
  if shapeSize shape = shapeSize a.shape then
    ({ a with shape }, .ok ())
  else
    ({ shape := [0], elements := [] }, .err (failed "reshape"))

/-- `Array::swap_axes` for `ndarray`, `src/data.rs` lines 706-708. -/
def swapAxes (a : NdArray) (axis₁ axis₂ : Nat) : NdArray × Res Unit :=
  if axis₁ < a.shape.length ∧ axis₂ < a.shape.length then
    (build (swapList a.shape axis₁ axis₂) fun idx => a.get (swapList idx axis₁ axis₂), .ok ())
  else
    (a, .err (failed "swap_axes"))

/-- `Array::create` for `ndarray`, `src/data.rs` lines 684-686. -/
def create (_ : NdArray) (shape : List Nat) : NdArray :=
  build shape fun _ => 0

/-- Whether `ndarray` can broadcast an array of shape `src` to shape `dst`:
dimensions are aligned at the end, each must be equal or 1 in `src`. `assign` in `move_samples_from`, `src/data.rs` line 730. -/
def canBroadcast (src dst : List Nat) : Bool :=
  src.length ≤ dst.length &&
  (src.zip (dst.drop (dst.length - src.length))).all fun (s, d) => s == d || s == 1

/-- The index in the source of a broadcast for an index of the destination. `assign` in `move_samples_from`, `src/data.rs` line 730. -/
def broadcastIdx (src : List Nat) (idx : List Nat) : List Nat :=
  List.zipWith (fun n i => if n = 1 then 0 else i) src (idx.drop (idx.length - src.length))

/-- Body of the loop in `Array::move_samples_from` for `ndarray`,
`src/data.rs` lines 722-731: `None` is a panic. `index_axis` and
`index_axis_mut` panic when out of bounds, as does `slice_axis_mut`; `assign`
panics when broadcasting is not possible. -/
def moveOne (output input : NdArray) (m : SampleMapping) (start stop : Nat) : Option NdArray :=
  match input.shape, output.shape with
  | nIn :: srcShape, nOut :: outShape =>
    if m.input < nIn ∧ m.output < nOut then
      match outShape.getLast? with
      | none => none
      | some nProp =>
        let dstShape := outShape.dropLast ++ [stop - start]
        if start ≤ nProp ∧ stop ≤ nProp ∧ canBroadcast srcShape dstShape then
          some <| build output.shape fun idx =>
            let last := idx.getLastD 0
            if idx.head? = some m.output ∧ start ≤ last ∧ last < stop then
              input.get (m.input :: broadcastIdx srcShape (idx.tail.dropLast ++ [last - start]))
            else
              output.get idx
        else none
    else none
  | _, _ => none

/-- Loop of `Array::move_samples_from` for `ndarray`, `src/data.rs` lines
722-731. -/
def moveLoop (input : NdArray) (start stop : Nat) : NdArray → List SampleMapping → NdArray × Res Unit
  | output, [] => (output, .ok ())
  | output, m :: samples =>
    match moveOne output input m start stop with
    | some output => moveLoop input start stop output samples
    | none => (output, .err (failed "move_samples_from"))

/-- `Array::move_samples_from` for `ndarray`, `src/data.rs` lines 710-732. The
computation of `property_axis` underflows for arrays with less than 2
dimensions; this panics in debug builds, and in release builds the axis is out
of bounds as soon as there is a sample to move. The model panics for both. -/
def moveSamplesFrom (output input : NdArray) (samples : List SampleMapping) (start stop : Nat) :
    NdArray × Res Unit :=
  if 2 ≤ output.shape.length then
    moveLoop input start stop output samples
  else
    (output, .err (failed "move_samples_from"))

/-- Identifier of the origin "rust.ndarray", `src/data.rs` lines 664-667. The
actual number depends on the registration order; only its difference from the
other origins matters. -/
def originId : Nat := 1

/-- `impl Array for ndarray::ArrayD<f64>`, `src/data.rs` lines 671-733. -/
instance : ArrayLike NdArray where
  origin _ := .ok originId
  data a := .ok a.elements
  shape a := .ok a.shape
  reshape := reshape
  swapAxes := swapAxes
  create a shape := .ok (create a shape)
  moveSamplesFrom := moveSamplesFrom

end NdArray

/-! ### `EmptyArray` -/

/-- `EmptyArray`, `src/data.rs` lines 743-745. -/
structure EmptyArray where
  shape : List Nat
  deriving DecidableEq, Repr

namespace EmptyArray

/-- Identifier of the origin "rust.EmptyArray", `src/data.rs` lines 737-739. -/
def originId : Nat := 2

/-- `Array` for `EmptyArray`, `src/data.rs` lines 754-794. -/
instance : ArrayLike EmptyArray where
  origin _ := .ok originId
  data _ := .err (NdArray.failed "data")
  shape a := .ok a.shape
  reshape _ shape := ({ shape }, .ok ())
  swapAxes a axis₁ axis₂ :=
    if axis₁ < a.shape.length ∧ axis₂ < a.shape.length then
      ({ shape := swapList a.shape axis₁ axis₂ }, .ok ())
    else
      (a, .err (NdArray.failed "swap_axes"))
  create _ shape := .ok { shape }
  moveSamplesFrom a _ _ _ _ := (a, .err (NdArray.failed "move_samples_from"))

end EmptyArray

/-! ### Origin registry -/

namespace Origins

/-- Initial content of `REGISTERED_DATA_ORIGIN`, `src/data.rs` lines 19-23. -/
def init : List String := ["unregistered origin"]

/-- `register_data_origin`, `src/data.rs` lines 27-40: the new content of the
registry and the id. -/
def register (origins : List String) (name : String) : List String × Nat :=
  match origins.findIdx? (· == name) with
  | some i => (origins, i)
  | none =>
    let origins := origins ++ [name]
    (origins, origins.length - 1)

/-- `get_data_origin`, `src/data.rs` lines 44-52. -/
def get (origins : List String) (id : Nat) : Res String :=
  if id < origins.length then
    Res.expect origins[id]? "index out of bounds"
  else
    Res.expect origins[0]? "index out of bounds"

end Origins

end Equistore
