import Verif.Model.PyTensor
import Verif.Spec.PyBlock
import Verif.Spec.Tensor

/-!
# Specification vocabulary for tensor maps in Python
-/

namespace Equistore
namespace Spec
variable {A : Type} [ArrayLike A]

/-- What `sample_names`, `components_names` and `property_names` give. -/
def HasNames (t : TensorMap A) (samples : List String) (components : List (List String)) (properties : List String) : Prop :=
  pySampleNames t = .ok samples ∧ pyComponentsNames t = .ok components ∧ pyPropertyNames t = .ok properties

/-- What the labels of the values of a block have as names, in Python. -/
def BlockHasNames (b : TensorBlock A) (samples : List String) (components : List (List String)) (properties : List String) :
    Prop :=
  (∃ v, pySamples b "values" = .ok v ∧ v.names = samples) ∧
  (∃ vs, pyComponents b "values" = .ok vs ∧ vs.map (·.names) = components) ∧
  ∃ v, pyProperties b "values" = .ok v ∧ v.names = properties

end Spec
end Equistore
