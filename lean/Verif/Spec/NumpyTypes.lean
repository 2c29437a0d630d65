import Verif.Spec.Layout
import Verif.Model.NumpyTypes

/-!
# Specification vocabulary for the number types of numpy arrays
-/

namespace Equistore
namespace Spec
variable {T : NumberTypes}

/-- The same tensor map, with all numbers stored as `float64`. -/
def withoutTypes (t : TensorMap (TypedArray T)) : TensorMap NumpyArray := t.mapData (·.array)

/-- Convert all numbers of a tensor map to the type `d`. -/
def rounded (d : T.Name) (t : TensorMap NumpyArray) : TensorMap NumpyArray :=
  t.mapData fun a => a.mapElements (T.cast d)

/-- All arrays of a tensor map have this property. -/
def EveryArray {A : Type} (P : A → Prop) (t : TensorMap A) : Prop :=
  ∀ b ∈ t.blocks, P b.values.data ∧ ∀ g ∈ b.gradients, P g.2.data

/-- The types of all arrays are in the list. -/
def TypesAmong (types : List T.Name) (t : TensorMap (TypedArray T)) : Prop :=
  EveryArray (fun a => a.dtype ∈ types) t

/-- All the numbers are numbers of all types in the list. -/
def NumbersIn (types : List T.Name) (t : TensorMap (TypedArray T)) : Prop :=
  EveryArray (fun a => ∀ x ∈ a.array.array.elements, ∀ d ∈ types, T.cast d x = x) t

/-- Converting to `d` gives the same number whether the number has first been converted to one of the types or not: no
type contains fewer numbers than `d`. -/
def Narrowest (T : NumberTypes) (d : T.Name) (types : List T.Name) : Prop :=
  ∀ d' ∈ types, ∀ x, T.cast d (T.cast d' x) = T.cast d x

end Spec
end Equistore
