import Verif.Model.CLabels
import Verif.Model.Blocks

/-!
# Reading blocks in the C API

Models the functions of `src/c_api/blocks.rs` which do not modify anything.
-/

namespace Equistore

/-- The part of a block selected by `values_gradients`, the same in `eqs_block_labels` and
`eqs_block_data`: `src/c_api/blocks.rs` lines 186-194 and 242-250. `name` is the memory at the
pointer. -/
def selectBasic {A : Type} (block : TensorBlock A) (name : Bytes) : Res (BasicBlock A) := do
  let name ← Res.expect (cstrStr name) "called `Result::unwrap()` on an `Err` value"
  if name = "values" then
    return block.values
  else
    Res.okOr (block.gradients.lookup name) (.invalidParameter
      s!"can not find gradients with respect to '{name}' in this block")

/-- The choice of labels in `eqs_block_labels`, `src/c_api/blocks.rs` lines 196-211. -/
def axisLabels {A : Type} (b : BasicBlock A) (axis : Nat) : Res Labels :=
  if axis = 0 then
    .ok b.samples
  else if axis - 1 < b.components.length then
    Res.expect b.components[axis - 1]? "index out of bounds"
  else if axis = b.components.length + 1 then
    .ok b.properties
  else
    .err (.invalidParameter
      s!"tried to get the labels for axis {axis}, but we only have {b.components.length + 2} axes for this block")

/-- `eqs_block_labels` inside of `catch_unwind`, `src/c_api/blocks.rs` lines 183-217, for pointers which
are not `NULL`: the new value of `*labels`. -/
def blockLabels {A : Type} (block : TensorBlock A) (name : Bytes) (axis : Nat) : Res CLabels := do
  let b ← selectBasic block name
  let labels ← axisLabels b axis
  labels.toC

/-- `eqs_block_gradients_list` inside of `catch_unwind`, `src/c_api/blocks.rs` lines 319-332: the new
values of `*parameters` and `*count`. -/
def blockGradientsList {A : Type} (block : TensorBlock A) : Option (List Bytes) × Nat :=
  (if block.gradientParameters.isEmpty then none else some (block.gradientParameters.map cstring),
    block.gradientParameters.length)

end Equistore
