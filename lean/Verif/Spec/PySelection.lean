import Verif.Model.PySelection
import Verif.Spec.PyLabels
import Verif.Spec.Tensor

/-!
# Specification vocabulary for selecting blocks in Python
-/

namespace Equistore
namespace Spec
variable {A : Type} [ArrayLike A]

/-- The key of block `i` has all of these names, with these values. -/
def KeyIs (t : TensorMap A) (i : Nat) (conditions : List (String × Int)) : Prop :=
  ∃ key, t.keys.index i = .ok key ∧
    ∀ name value, (name, value) ∈ conditions → (name, value) ∈ t.keys.names.zip (key.map Int32.toInt)

/-- Block `i` is what this parameter asks for. -/
def AskedFor (t : TensorMap A) (i : Nat) : SelectionArg → Prop
  | .int k => k = i
  | .labels v => ∃ entry, v.entries = some [entry] ∧ KeyIs t i (v.names.zip (entry.map Int32.toInt))
  | .entry values => KeyIs t i (values.map fun (name, value) => (name, value.toInt))
  | .namedtuple values => KeyIs t i values
  | .other => False

/-- Names which are not also the name of a parameter of the functions. -/
def NotParameterNames (names : List String) : Prop := "self" ∉ names ∧ "__return_selection" ∉ names

/-- The result of `TensorMap.blocks_matching`, where `p` tells which blocks match: their indexes in increasing order, and there
can be none. -/
def MatchIndexes (p : Nat → Prop) (r : Option (Except PyExc (List Nat × Option PyLabels))) : Prop :=
  ∃ blocks, r = some (.ok (blocks, none)) ∧ blocks.Pairwise (· < ·) ∧ ∀ i, i ∈ blocks ↔ p i

/-- The result of `TensorMap.block`, where `p` tells which blocks match: the only matching block, otherwise a `ValueError`. -/
def OnlyMatch (p : Nat → Prop) (r : Option (Except PyExc Nat)) : Prop :=
  (∀ i, r = some (.ok i) ↔ ∀ j, p j ↔ j = i) ∧
  ((¬ ∃ i, ∀ j, p j ↔ j = i) → r = some (.error .valueError))

/-- The result of `TensorMap.blocks`, where `p` tells which blocks match: all the matching blocks in increasing order, or a
`ValueError` if there is none. -/
def AllMatches (p : Nat → Prop) (r : Option (Except PyExc (List Nat))) : Prop :=
  ((∃ i, p i) → ∃ blocks, r = some (.ok blocks) ∧ blocks.Pairwise (· < ·) ∧ ∀ i, i ∈ blocks ↔ p i) ∧
  ((¬ ∃ i, p i) → r = some (.error .valueError))

end Spec
end Equistore
