import Verif.Model.Torch
import Verif.Model.Archive
import Verif.Spec.Merge
import Verif.Spec.NumpyTypes

/-!
# Gradients tracked by torch
-/

namespace Equistore
namespace Spec

variable {device : Device}

/-- No array of the tensor map requires gradients. -/
def NoGradients (t : TensorMap (TorchTensor device)) : Prop := EveryArray (fun a => a.requiresGrad = false) t

/-- The block `b'` was made from some blocks: the values require gradients exactly if the values of one of these blocks
require gradients, and the same for each of the gradients of the block. -/
def Tracked (from_ : TensorBlock (TorchTensor device) → Prop) (b' : TensorBlock (TorchTensor device)) : Prop :=
  (b'.values.data.requiresGrad = true ↔ ∃ b, from_ b ∧ b.values.data.requiresGrad = true) ∧
  ∀ parameter g', b'.gradient parameter = some g' →
    (g'.data.requiresGrad = true ↔ ∃ b, from_ b ∧ ∃ g, b.gradient parameter = some g ∧ g.data.requiresGrad = true)

/-- For each block whether the values require gradients, and the same for each gradient. -/
def trackedArrays (t : TensorMap (TorchTensor device)) : List (Bool × List (String × Bool)) :=
  t.blocks.map fun b => (b.values.data.requiresGrad, b.gradients.map fun g => (g.1, g.2.data.requiresGrad))

end Spec
end Equistore
