import Verif.Model.CHeap

/-!
# Lists given to the C API as a pointer and a length

The functions of `src/c_api` turning a pointer and a number of elements in a Rust slice with `from_raw_parts`, with the
conditions this has: a slice can never start at `NULL`, also if it has no elements.
-/

namespace Equistore

/-- A pointer: `NULL`, or the elements which can be read there. Used for the parameters in `src/c_api/blocks.rs` line 63
and `src/c_api/tensor.rs` line 65. -/
abbrev CPtr (α : Type) : Type := Option (List α)

/-- `std::slice::from_raw_parts`: "`data` must be non-null and aligned even for zero-length slices", and all elements have
to be there. `none` is undefined behaviour. `src/c_api/labels.rs` lines 55 and 130, `src/c_api/blocks.rs` lines 73 and 292,
`src/c_api/tensor.rs` lines 73, 216 and 304, `src/data.rs` lines 315, 344, 559, 592 and 655. -/
def fromRawParts {α : Type} (pointer : CPtr α) (count : Nat) : Option (List α) :=
  match pointer with
  | none => none
  | some memory => if count ≤ memory.length then some (memory.take count) else none

/-- `CStr::from_ptr`, which reads up to a NUL, and `to_str`, `src/c_api/labels.rs` lines 47-48. -/
def importName (memory : Bytes) : CAct Unit String := do
  let memory ← CAct.require (if memory.contains 0 then some memory else none)
  CAct.lift (decodeName memory)

/-- The loop reading names, `src/c_api/labels.rs` lines 46-49. -/
def importNames : Nat → List Bytes → CAct Unit (List String)
  | 0, _ => pure []
  | _ + 1, [] => CAct.undefined
  | n + 1, memory :: rest => do
    let name ← importName memory
    let names ← importNames n rest
    return name :: names

/-- `TryFrom<&eqs_labels_t> for Labels`, `src/c_api/labels.rs` lines 33-66. Simplification: `count * size` does not
overflow. -/
def Labels.ofPointers (l : CLabels) : CAct Unit Labels := do
  let names ← CAct.lift (Res.okOr l.names (.invalidParameter "labels.names can not be NULL in eqs_labels_t"))
  CAct.lift (Res.guardErr (!(l.values.isNone && l.count > 0))
    (.invalidParameter "labels.values is NULL but labels.count is >0 in eqs_labels_t"))
  let names ← importNames l.size names
  let builder ← CAct.lift (LabelsBuilder.new names)
  let slice ← CAct.require (fromRawParts l.values (l.count * l.size))
  let builder ← if slice.isEmpty then pure builder else CAct.lift (builder.addAll (chunksExact l.size slice))
  CAct.lift builder.finish

/-- The loops over components, `src/c_api/blocks.rs` lines 72-76 and 291-295. -/
def importAll : List CLabels → CAct Unit (List Labels)
  | [] => pure []
  | l :: rest => do
    let labels ← Labels.ofPointers l
    let all ← importAll rest
    return labels :: all

/-- The conversions and the constructor in `eqs_block`, `src/c_api/blocks.rs` lines 70-80. -/
def blockOfPointers {A : Type} [ArrayLike A] (array : A) (samples : CLabels) (components : CPtr CLabels)
    (componentsCount : Nat) (properties : CLabels) : CAct Unit (TensorBlock A) := do
  let samples ← Labels.ofPointers samples
  let components ← CAct.require (fromRawParts components componentsCount)
  let components ← importAll components
  let properties ← Labels.ofPointers properties
  CAct.lift (TensorBlock.new array samples components properties)

/-- The conversions in `eqs_block_add_gradient`, `src/c_api/blocks.rs` lines 287-295. -/
def gradientOfPointers (name : Option Bytes) (samples : CLabels) (components : CPtr CLabels) (componentsCount : Nat) :
    CAct Unit (String × Labels × List Labels) := do
  let name ← CAct.lift (checkPointer "parameter" name)
  let name ← CAct.require (if name.contains 0 then some name else none)
  let name ← CAct.lift (Res.expect (cstrStr name) "called `Result::unwrap()` on an `Err` value")
  let samples ← Labels.ofPointers samples
  let components ← CAct.require (fromRawParts components componentsCount)
  let components ← importAll components
  return (name, samples, components)

/-- Reading the parameters of `eqs_tensormap`, `src/c_api/tensor.rs` lines 71-73. -/
def tensormapOfPointers (keys : CLabels) (blocks : CPtr BlockPtr) (blocksCount : Nat) :
    CAct Unit (Labels × List BlockPtr) := do
  let keys ← Labels.ofPointers keys
  let blocks ← CAct.require (fromRawParts blocks blocksCount)
  return (keys, blocks)

/-- `eqs_labels_position` inside of `catch_unwind`, `src/c_api/labels.rs` lines 122-135. Simplification: `result` is not
`NULL`. -/
def positionOfPointers (labels : CLabels) (values : CPtr LabelValue) (count : Nat) : CAct Unit Int := do
  let labels ← CAct.lift (Res.okOr labels.labelsPtr
    (.invalidParameter "these labels do not support calling eqs_labels_position"))
  let label ← CAct.require (fromRawParts values count)
  let position ← CAct.lift (labels.position label)
  return match position with
    | none => -1
    | some p => (p : Int)

/-- Reading the parameter `variables` of `eqs_tensormap_components_to_properties`, `src/c_api/tensor.rs` lines 301-308. -/
def variablesOfPointers (variables : CPtr (Option Bytes)) (count : Nat) : CAct Unit (List String) := do
  let _ ← CAct.lift (checkPointer "variables" variables)
  let variables ← CAct.require (fromRawParts variables count)
  CAct.lift (variables.mapM variableName)

/-- The memory for indexes in `eqs_tensormap_blocks_matching`, `src/c_api/tensor.rs` lines 212 and 216. -/
def indexesOfPointers (indexes : CPtr Nat) (count : Nat) : CAct Unit (List Nat) := do
  let _ ← CAct.lift (checkPointer "block_indexes" indexes)
  CAct.require (fromRawParts indexes count)

/-- `eqs_array_t::data` after the callback succeeded, `src/data.rs` lines 291-295 and 314-318. -/
def dataOfPointers (shape : List Nat) (data : CPtr Elt) : CAct Unit (List Elt) :=
  CAct.require (fromRawParts data (shapeSize shape))

/-- `eqs_array_t::shape` after the callback succeeded, `src/data.rs` lines 343-347. -/
def shapeOfPointers (shape : CPtr Nat) (count : Nat) : CAct Unit (List Nat) :=
  CAct.require (fromRawParts shape count)

end Equistore
