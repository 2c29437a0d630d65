import Verif.Model.Tensor
import Verif.Spec.Blocks

/-!
# Specification vocabulary for tensor maps

These predicates only use the public API: names, counts, entries, gradients.
-/

namespace Equistore
namespace Spec
variable {A : Type} [ArrayLike A]

/-- Same sample names, and the same component names in the same order. -/
def SameNames (a b : BasicBlock A) : Prop :=
  a.samples.names = b.samples.names ∧ a.components.map (·.names) = b.components.map (·.names)

/-- Two blocks can be part of the same tensor map: same names for samples,
components and properties, gradients with respect to the same parameters, with the
same sample and component names. -/
structure Consistent (a b : TensorBlock A) : Prop where
  values : SameNames a.values b.values
  properties : a.values.properties.names = b.values.properties.names
  parameters : ∀ p, (a.gradient p).isSome = (b.gradient p).isSome
  gradients : ∀ p g g', a.gradient p = some g → b.gradient p = some g' → SameNames g g'

/-- A valid tensor map: one block per key, all blocks valid and consistent with
each other. -/
structure TensorValid (t : TensorMap A) : Prop where
  keys : t.keys.FromBuilder
  count : t.keys.count = .ok t.blocks.length
  blocks : ∀ b ∈ t.blocks, BlockValid b
  consistent : ∀ a ∈ t.blocks, ∀ b ∈ t.blocks, Consistent a b

/-- A key agrees with a row of a selection on all the names of the selection. -/
def Agrees (keyNames : List String) (key : List LabelValue) (names : List String)
    (row : List LabelValue) : Prop :=
  ∀ name value, (name, value) ∈ names.zip row → (name, value) ∈ keyNames.zip key

end Spec
end Equistore
