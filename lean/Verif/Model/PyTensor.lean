import Verif.Model.PyBlock
import Verif.Model.PyMove
import Verif.Model.PySelection

/-!
# Tensor maps in Python: creation, and the names of samples, components and properties

Models `TensorMap.__init__`, `sample_names`, `components_names` and `property_names` in `equistore/tensor.py`. Who owns the
blocks is in `Model/PyObjects.lean`.
-/

namespace Equistore

variable {A : Type} [ArrayLike A]

/-- `TensorMap(keys, blocks)`, `equistore/tensor.py` lines 33-61, and `eqs_tensormap`, `src/c_api/tensor.rs` lines 70-96, for different blocks which
are not already in a tensor map. `none` if the library reads outside of the memory of the labels. -/
def pyNewTensor (hash : HashOrder) (keys : PyLabels) (blocks : List (TensorBlock A)) :
    Option (Except PyExc (TensorMap A)) :=
  if keys.readable then
    some (pyCheck do
      let keys ← Labels.ofC keys.toC
      TensorMap.new hash keys blocks)
  else none

/-- `self.block(0)`, `equistore/tensor.py` lines 348, 353 and 358. -/
def pyFirstBlock (t : TensorMap A) : Except PyExc (TensorBlock A) := do
  let i ← pyBlockById t 0
  match t.blocks[i]? with
  | some b => return b
  | none => .error .equistoreError

/-- `sample_names`, `equistore/tensor.py` lines 345-348. -/
def pySampleNames (t : TensorMap A) : Except PyExc (List String) := do
  let b ← pyFirstBlock t
  let samples ← pySamples b "values"
  return samples.names

/-- `components_names`, `equistore/tensor.py` lines 350-353. -/
def pyComponentsNames (t : TensorMap A) : Except PyExc (List (List String)) := do
  let b ← pyFirstBlock t
  let components ← pyComponents b "values"
  return components.map (·.names)

/-- `property_names`, `equistore/tensor.py` lines 355-358. -/
def pyPropertyNames (t : TensorMap A) : Except PyExc (List String) := do
  let b ← pyFirstBlock t
  let properties ← pyProperties b "values"
  return properties.names

end Equistore
