import Verif.Model.Blocks
import Mathlib.Data.List.Forall2

/-!
# Specification vocabulary for blocks

These predicates only use the public API of labels and arrays: names, count,
shape, origin.
-/

namespace Equistore

/-- Labels which can exist: every `Labels` value is made by a builder. -/
def Labels.FromBuilder (l : Labels) : Prop :=
  ∃ names entries, Labels.build names entries = .ok l

namespace Spec
variable {A : Type} [ArrayLike A]

/-- One dimension per label set (samples, components, properties), each with the
number of entries of these labels. -/
def ShapeMatches (shape : List Nat) (samples : Labels) (components : List Labels)
    (properties : Labels) : Prop :=
  List.Forall₂ (fun n labels => Labels.count labels = .ok n) shape
    (samples :: components ++ [properties])

/-- Components have exactly one name each, and all names are different. -/
def ComponentsOk (components : List Labels) : Prop :=
  (∀ c ∈ components, c.names.length = 1) ∧ (components.map (·.names)).Nodup

/-- Data and labels of a basic block fit together. -/
structure BasicValid (b : BasicBlock A) : Prop where
  shape : ∃ shape, ArrayLike.shape b.data = .ok shape ∧
    ShapeMatches shape b.samples b.components b.properties
  components : ComponentsOk b.components
  labels : ∀ l ∈ b.samples :: b.components ++ [b.properties], l.FromBuilder

/-- A gradient fits the values it belongs to. -/
structure GradientValid (values gradient : BasicBlock A) : Prop where
  basic : BasicValid gradient
  properties : gradient.properties = values.properties
  components : ∃ extra, gradient.components = extra ++ values.components
  samples : gradient.samples.names.head? = some "sample"
  origin : ∃ o, ArrayLike.origin gradient.data = .ok o ∧ ArrayLike.origin values.data = .ok o

/-- A consistent block: valid values, valid gradients with different names, none
of them called "values", and the list of gradient names in sync with the
gradients. -/
structure BlockValid (b : TensorBlock A) : Prop where
  values : BasicValid b.values
  gradients : ∀ name g, (name, g) ∈ b.gradients → GradientValid b.values g
  names : (b.gradients.map Prod.fst).Nodup
  reserved : "values" ∉ b.gradients.map Prod.fst
  list : b.gradientParameters = b.gradients.map Prod.fst

/-- What `add_gradient` has to check. -/
structure GradientAcceptable (b : TensorBlock A) (parameter : String) (data : A)
    (samples : Labels) (components : List Labels) : Prop where
  fresh : b.gradient parameter = none
  reserved : parameter ≠ "values"
  origin : ∃ o, ArrayLike.origin data = .ok o ∧ ArrayLike.origin b.values.data = .ok o
  sampleName : samples.names.head? = some "sample"
  suffix : ∃ extra, components = extra ++ b.values.components
  componentsOk : ComponentsOk components
  shape : ∃ shape, ArrayLike.shape data = .ok shape ∧
    ShapeMatches shape samples components b.values.properties

end Spec
end Equistore
