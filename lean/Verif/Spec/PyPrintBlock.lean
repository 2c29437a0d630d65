import Verif.Model.PyPrintBlock
import Verif.Spec.Tensor

/-!
# Specification vocabulary for printed blocks
-/

namespace Equistore
namespace Spec

/-- A list of names as Python writes it: `['first', 'second']`. -/
def shownList (names : List String) : List Char :=
  "[".toList ++ List.intercalate ", ".toList (names.map fun n => "'".toList ++ n.toList ++ "'".toList) ++ "]".toList

/-- The text of a block. -/
def blockText (samples components properties gradients : List String) : List Char :=
  "TensorBlock".toList ++
  "\n    samples: ".toList ++ shownList samples ++
  "\n    component: ".toList ++ shownList components ++
  "\n    properties: ".toList ++ shownList properties ++
  "\n    gradients: ".toList ++ (if gradients = [] then "no".toList else shownList gradients)

/-- The text of a gradient. -/
def gradientText (parameter : String) (samples components properties : List String) : List Char :=
  "Gradient TensorBlock ".toList ++
  "\nparameter: '".toList ++ parameter.toList ++ "'".toList ++
  "\nsamples: ".toList ++ shownList samples ++
  "\ncomponent: ".toList ++ shownList components ++
  "\nproperties: ".toList ++ shownList properties

variable {A : Type}

/-- The names of all components, in order. -/
def componentNames (b : BasicBlock A) : List String := b.components.flatMap (·.names)

end Spec
end Equistore
