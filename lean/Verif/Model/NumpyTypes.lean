import Verif.Model.Numpy

/-!
# Numpy arrays with any number type

Blocks accept numpy arrays with any number type (`dtype`), `equistore/data.py` lines 159-202. New arrays are
created with the type of an existing array, and numpy converts numbers when they are assigned to an array of
another type.
-/

namespace Equistore

/-- Number types of numpy: `float64`, `float32`, `float16`, `int32`, `bool`, ... What numpy does to convert a number is
part of the trusted base, and is a parameter here.

Simplification: all numbers in these types are numbers of `float64`, which is not the case for `complex128`,
`int64` and `longdouble`; conversions do not fail, which is not the case for strings.
`array.dtype` in `equistore/data.py` lines 232 and 274-277. -/
structure NumberTypes where
  Name : Type
  decEq : DecidableEq Name
  float64 : Name
  /-- The number of this type numpy stores when a number is assigned to an array of this type. -/
  cast : Name → Elt → Elt
  /-- All types contain zero. -/
  cast_zero : ∀ n, cast n 0 = 0
  /-- The number which is stored is a number of the type. -/
  cast_cast : ∀ n x, cast n (cast n x) = cast n x
  /-- `float64` contains all numbers. -/
  cast_float64 : ∀ x, cast float64 x = x

/-- The callbacks in `equistore/data.py` lines 210-325. -/
instance (T : NumberTypes) : DecidableEq T.Name := T.decEq

namespace NumpyArray

/-- Change all elements of an array. Used for the conversion in `equistore/data.py` line 325. -/
def mapElements (f : Elt → Elt) (a : NumpyArray) : NumpyArray :=
  ⟨{ a.array with elements := a.array.elements.map f }, (List.length_map f).trans a.complete⟩

/-- All elements of an array. Arrays in `equistore/data.py` lines 159-203. -/
def AllElements (P : Elt → Prop) (a : NumpyArray) : Prop := ∀ x ∈ a.array.elements, P x

/-! The callbacks only move elements, and fill with zeros. These are part of the model since arrays of a type only contain
numbers of this type. -/

variable {P : Elt → Prop}

theorem get_all (h0 : P 0) {a : NumpyArray} (h : AllElements P a) (idx : List Nat) : P (a.array.get idx) := by
  unfold NdArray.get
  rw [List.getD_eq_getElem?_getD]
  cases h1 : a.array.elements[offset a.array.shape idx]? with
  | none => exact h0
  | some x => exact h x (List.mem_of_getElem? h1)

theorem build_all {f : List Nat → Elt} (h : ∀ idx, P (f idx)) (shape : List Nat) : AllElements P (build shape f) := by
  intro x hx
  obtain ⟨idx, _, rfl⟩ := List.mem_map.1 hx
  exact h idx

theorem mapElements_all {f : Elt → Elt} (h : ∀ x, P (f x)) (a : NumpyArray) : AllElements P (a.mapElements f) := by
  intro x hx
  obtain ⟨y, _, rfl⟩ := List.mem_map.1 hx
  exact h y

theorem reshape_all {a : NumpyArray} (h : AllElements P a) (shape : List Nat) :
    AllElements P (a.reshape shape).1 := by
  unfold reshape
  split <;> exact h

theorem swapAxes_all (h0 : P 0) {a : NumpyArray} (h : AllElements P a) (i j : Nat) :
    AllElements P (a.swapAxes i j).1 := by
  unfold swapAxes
  split
  · exact build_all (fun idx => get_all h0 h _) _
  · exact h

theorem move_all (h0 : P 0) {output input : NumpyArray} (ho : AllElements P output) (hi : AllElements P input)
    (samples : List SampleMapping) (start stop : Nat) :
    AllElements P (moveSamplesFrom output input samples start stop).1 := by
  unfold moveSamplesFrom
  split
  · split
    · split
      · simp only
        split
        · refine build_all (fun idx => ?_) _
          split
          · split
            · exact get_all h0 hi _
            · exact get_all h0 ho _
          · exact get_all h0 ho _
        · exact ho
      · exact ho
    · exact ho
  · exact ho

end NumpyArray

/-- A numpy array with its number type, `storage.array` and `storage.array.dtype` in `equistore/data.py` lines 162-163
and 276. It only contains numbers of its type. -/
structure TypedArray (T : NumberTypes) where
  array : NumpyArray
  dtype : T.Name
  fits : array.AllElements fun x => T.cast dtype x = x
  deriving DecidableEq

namespace TypedArray
variable {T : NumberTypes}

/-- `_eqs_array_data`, `equistore/data.py` lines 230-235: fails if the type is not `float64`. -/
def data (a : TypedArray T) : Res (List Elt) :=
  if a.dtype = T.float64 then .ok a.array.array.elements else .err (NumpyArray.raised "data")

/-- `_eqs_array_reshape`, `equistore/data.py` lines 246-255: the type stays the same. -/
def reshape (a : TypedArray T) (shape : List Nat) : TypedArray T × Res Unit :=
  (⟨(a.array.reshape shape).1, a.dtype, NumpyArray.reshape_all a.fits shape⟩, (a.array.reshape shape).2)

/-- `_eqs_array_swap_axes`, `equistore/data.py` lines 258-264: the type stays the same. -/
def swapAxes (a : TypedArray T) (axis₁ axis₂ : Nat) : TypedArray T × Res Unit :=
  (⟨(a.array.swapAxes axis₁ axis₂).1, a.dtype,
    NumpyArray.swapAxes_all (P := fun x => T.cast a.dtype x = x) (T.cast_zero _) a.fits axis₁ axis₂⟩,
    (a.array.swapAxes axis₁ axis₂).2)

/-- `_eqs_array_create`, `equistore/data.py` lines 267-284: zeros, with the type of the array it is called on. -/
def create (a : TypedArray T) (shape : List Nat) : TypedArray T :=
  ⟨NumpyArray.build shape fun _ => 0, a.dtype,
    NumpyArray.build_all (P := fun x => T.cast a.dtype x = x) (fun _ => T.cast_zero _) shape⟩

/-- `_eqs_array_move_samples_from`, `equistore/data.py` lines 306-325: the assignment in line 325 converts the
numbers to the type of `output`. -/
def moveSamplesFrom (output input : TypedArray T) (samples : List SampleMapping) (start stop : Nat) :
    TypedArray T × Res Unit :=
  (⟨(NumpyArray.moveSamplesFrom output.array (input.array.mapElements (T.cast output.dtype)) samples start stop).1,
    output.dtype,
    NumpyArray.move_all (P := fun x => T.cast output.dtype x = x) (T.cast_zero _) output.fits
      (NumpyArray.mapElements_all (T.cast_cast _) _) _ _ _⟩,
    (NumpyArray.moveSamplesFrom output.array (input.array.mapElements (T.cast output.dtype)) samples start stop).2)

/-- The callbacks, `equistore/data.py` lines 181-202. -/
instance : ArrayLike (TypedArray T) where
  origin _ := .ok NumpyArray.originId
  data := data
  shape a := .ok a.array.array.shape
  reshape := reshape
  swapAxes := swapAxes
  create a shape := .ok (create a shape)
  moveSamplesFrom := moveSamplesFrom

end TypedArray
end Equistore
