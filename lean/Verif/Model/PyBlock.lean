import Verif.Model.PyLabels
import Verif.Model.CHeap

/-!
# Blocks in Python

Models the methods of `TensorBlock` and `Gradient` in `equistore/block.py` which create blocks, and give access to labels,
arrays and gradients. The pointers, and how long they stay valid, are in `Model/PyObjects.lean` and `Model/PyViews.lean`.

A `Gradient` is its block and the name of its parameter; `"values"` is the name used for the block itself.
-/

namespace Equistore
variable {A : Type} [ArrayLike A]

/-- `_labels` of a block or of a gradient, `equistore/block.py` lines 216-219 and 381-386. -/
def pyAxisLabels (b : TensorBlock A) (name : String) (axis : Nat) : Except PyExc PyLabels := do
  let labels ← pyCheck (blockLabels b (cstring name) axis)
  PyLabels.ofC labels

/-- `values` of a block and `data` of a gradient, `equistore/block.py` lines 166-176, 331-341 and 389-392. Simplification: the
origin of the array is known to Python (otherwise this is an exception, see `equistore/data.py` lines 128-137). -/
def pyData (b : TensorBlock A) (name : String) : Except PyExc A := do
  let basic ← pyCheck (selectBasic b (cstring name))
  return basic.data

/-- `len(self.values.shape)` and `len(self.data.shape)`, `equistore/block.py` lines 196, 213, 361 and 378. -/
def pyDimensions (b : TensorBlock A) (name : String) : Except PyExc Nat := do
  let data ← pyData b name
  let shape ← pyCheck (ArrayLike.shape data)
  return shape.length

/-- `samples`, `equistore/block.py` lines 178-186 and 343-351. -/
def pySamples (b : TensorBlock A) (name : String) : Except PyExc PyLabels := pyAxisLabels b name 0

/-- `components`, `equistore/block.py` lines 188-202 and 353-367. -/
def pyComponents (b : TensorBlock A) (name : String) : Except PyExc (List PyLabels) := do
  let dimensions ← pyDimensions b name
  (List.range (dimensions - 2)).mapM fun axis => pyAxisLabels b name (axis + 1)

/-- `properties`, `equistore/block.py` lines 204-214 and 369-379. Arrays have at least two dimensions here. -/
def pyProperties (b : TensorBlock A) (name : String) : Except PyExc PyLabels := do
  let dimensions ← pyDimensions b name
  pyAxisLabels b name (dimensions - 1)

/-- `gradients_list`, `equistore/block.py` lines 269-279. -/
def pyGradientsList (b : TensorBlock A) : Except PyExc (List String) :=
  let (parameters, count) := blockGradientsList b
  pyCheck (((parameters.getD []).take count).mapM decodeName)

/-- `has_gradient`, `equistore/block.py` lines 281-289. -/
def pyHasGradient (b : TensorBlock A) (parameter : String) : Except PyExc Bool := do
  let parameters ← pyGradientsList b
  return parameters.contains parameter

/-- `gradient`, `equistore/block.py` lines 221-233: the name of the new `Gradient`. -/
def pyGradient (b : TensorBlock A) (parameter : String) : Except PyExc String := do
  if ← pyHasGradient b parameter then
    return parameter
  else
    .error .valueError

/-- `gradients` run to the end, `equistore/block.py` lines 291-294. -/
def pyGradients (b : TensorBlock A) : Except PyExc (List (String × String)) := do
  let parameters ← pyGradientsList b
  parameters.mapM fun parameter => do
    let gradient ← pyGradient b parameter
    return (parameter, gradient)

/-- `TensorBlock(values, samples, components, properties)`, `equistore/block.py` lines 37-73. `none` if the library reads outside
of the memory of the labels. -/
def pyNewBlock (values : A) (samples : PyLabels) (components : List PyLabels) (properties : PyLabels) :
    Option (Except PyExc (TensorBlock A)) :=
  if (samples :: components ++ [properties]).all PyLabels.readable then
    some (pyCheck (blockOfC values samples.toC (components.map PyLabels.toC) properties.toC))
  else none

/-- `add_gradient`, `equistore/block.py` lines 235-267: the new block and the outcome. `none` if the library reads outside of the
memory of the labels. -/
def pyAddGradient (parameter : String) (data : A) (samples : PyLabels) (components : List PyLabels) (b : TensorBlock A) :
    Option (TensorBlock A × Except PyExc Unit) :=
  if (samples :: components).all PyLabels.readable then
    let (b, r) := addGradientOfC (some (cstring parameter)) data samples.toC (components.map PyLabels.toC) b
    some (b, pyCheck r)
  else none

end Equistore
