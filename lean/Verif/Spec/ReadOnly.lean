import Verif.Spec.History
import Verif.Model.CHeap

/-!
# Specification vocabulary for arrays protected against writing

The arrays a program gives to the library can be protected against writing (read-only `numpy` arrays, memory
mapped files, arrays shared with another part of the program). The elements of an array are only modified by
the callback `move_samples_from` (`src/data.rs` lines 130-152), through its first argument.
-/

namespace Equistore
namespace Spec

/-- An array together with a flag saying whether its elements can be modified. -/
structure Guarded (A : Type) where
  array : A
  writable : Bool
deriving DecidableEq

variable {A : Type} [ArrayLike A]

/-- The callbacks of arrays which can be protected against writing: new arrays can be modified; asking
for a modification of the elements of a protected array fails; the flag stays as it is when the axes of the
array are exchanged or its shape is changed. -/
instance : ArrayLike (Guarded A) where
  origin a := ArrayLike.origin a.array
  data a := ArrayLike.data a.array
  shape a := ArrayLike.shape a.array
  reshape a shape :=
    (⟨(ArrayLike.reshape a.array shape).1, a.writable⟩, (ArrayLike.reshape a.array shape).2)
  swapAxes a axis₁ axis₂ :=
    (⟨(ArrayLike.swapAxes a.array axis₁ axis₂).1, a.writable⟩, (ArrayLike.swapAxes a.array axis₁ axis₂).2)
  create a shape :=
    match ArrayLike.create a.array shape with
    | .ok array => .ok ⟨array, true⟩
    | .err e => .err e
    | .panic m => .panic m
  moveSamplesFrom output input samples start stop :=
    if output.writable then
      (⟨(ArrayLike.moveSamplesFrom output.array input.array samples start stop).1, true⟩,
        (ArrayLike.moveSamplesFrom output.array input.array samples start stop).2)
    else (output, .panic "assignment destination is read-only")

/-- Which arrays of a tensor map can be modified, block by block. -/
def writableFlags (t : TensorMap (Guarded A)) : List (Bool × List (String × Bool)) :=
  t.blocks.map fun b => (b.values.data.writable, b.gradients.map fun g => (g.1, g.2.data.writable))

/-- An array which remembers in which tensor map it was created: the arrays of the program have the number
of the tensor map they were given to, and new arrays have the number of the array they were created from. -/
structure Tagged (A : Type) where
  array : A
  tensor : Nat
  created : Bool
deriving DecidableEq

/-- The callbacks of arrays checking what the documentation of `move_samples_from` guarantees
(`src/data.rs` lines 146-149): the `output` array is created by calling `create` with one of the arrays in
the same tensor map as the `input`. -/
instance : ArrayLike (Tagged A) where
  origin a := ArrayLike.origin a.array
  data a := ArrayLike.data a.array
  shape a := ArrayLike.shape a.array
  reshape a shape :=
    ({ a with array := (ArrayLike.reshape a.array shape).1 }, (ArrayLike.reshape a.array shape).2)
  swapAxes a axis₁ axis₂ :=
    ({ a with array := (ArrayLike.swapAxes a.array axis₁ axis₂).1 }, (ArrayLike.swapAxes a.array axis₁ axis₂).2)
  create a shape :=
    match ArrayLike.create a.array shape with
    | .ok array => .ok ⟨array, a.tensor, true⟩
    | .err e => .err e
    | .panic m => .panic m
  moveSamplesFrom output input samples start stop :=
    if output.created = true ∧ output.tensor = input.tensor then
      ({ output with array := (ArrayLike.moveSamplesFrom output.array input.array samples start stop).1 },
        (ArrayLike.moveSamplesFrom output.array input.array samples start stop).2)
    else (output, .panic "the output array was not created from an array in the same tensor map as the input")

/-- All the arrays in a tensor map have the number of this tensor map. -/
def AllTagged (tensor : Nat) (t : TensorMap (Tagged A)) : Prop :=
  ∀ b ∈ t.blocks, b.values.data.tensor = tensor ∧ ∀ g ∈ b.gradients, g.2.data.tensor = tensor

end Spec
end Equistore
