import Verif.Model.Labels
import Verif.Model.Data
import Verif.Model.Act

/-!
# Blocks

Models `src/blocks.rs`.
-/

namespace Equistore

/-- `BasicBlock`, `src/blocks.rs` lines 36-42. `Arc` sharing of labels is not
modelled: labels are never modified. -/
structure BasicBlock (A : Type) where
  data : A
  samples : Labels
  components : List Labels
  properties : Labels
  deriving DecidableEq, Repr

/-- `TensorBlock`, `src/blocks.rs` lines 177-183. The `HashMap` of gradients is
modelled by the list of its entries; the functions iterating over it take an
arbitrary `HashOrder`. -/
structure TensorBlock (A : Type) where
  values : BasicBlock A
  gradients : List (String × BasicBlock A)
  gradientParameters : List String
  deriving DecidableEq, Repr

section
variable {A : Type} [ArrayLike A]

/-- Loop over the components in `check_data_and_labels`, `src/blocks.rs` lines
76-86. -/
def checkComponentsShape (context : String) (shape : List Nat) : Nat → List Labels → Res Unit
  | _, [] => .ok ()
  | dimension, component :: components => do
    let n ← Res.expect shape[dimension]? "index out of bounds"
    let count ← component.count
    Res.guardErr (n == count) (.invalidParameter
      s!"{context}: the array shape along axis {dimension} is {n} but we have {count} entries for the corresponding component")
    checkComponentsShape context shape (dimension + 1) components

/-- `check_data_and_labels`, `src/blocks.rs` lines 44-96. -/
def checkDataAndLabels (context : String) (data : A) (samples : Labels) (components : List Labels)
    (properties : Labels) : Res Unit := do
  let shape ← ArrayLike.shape data
  Res.guardErr (shape.length == components.length + 2) (.invalidParameter
    s!"{context}: the array has {shape.length} dimensions, but we have {components.length + 2} separate labels")
  let n ← Res.expect shape[0]? "index out of bounds"
  let count ← samples.count
  Res.guardErr (n == count) (.invalidParameter
    s!"{context}: the array shape along axis 0 is {n} but we have {count} sample labels")
  Res.guardErr (countDistinct (components.map (·.names)) == components.length) (.invalidParameter
    s!"{context}: some of the component names appear more than once in component labels")
  checkComponentsShape context shape 1 components
  let n ← Res.expect shape[1 + components.length]? "index out of bounds"
  let count ← properties.count
  Res.guardErr (n == count) (.invalidParameter
    s!"{context}: the array shape along axis {1 + components.length} is {n} but we have {count} properties labels")

/-- `check_component_labels`, `src/blocks.rs` lines 98-108, starting at component
`i`. -/
def checkComponentLabels (i : Nat) : List Labels → Res Unit
  | [] => .ok ()
  | component :: components => do
    Res.guardErr (component.size == 1) (.invalidParameter
      s!"component labels must have a single variable, got {component.size}: [{String.intercalate ", " component.names}] for component {i}")
    checkComponentLabels (i + 1) components

/-- `BasicBlock::new`, `src/blocks.rs` lines 112-125. -/
def BasicBlock.new (data : A) (samples : Labels) (components : List Labels) (properties : Labels) :
    Res (BasicBlock A) := do
  checkDataAndLabels "data and labels don't match" data samples components properties
  checkComponentLabels 0 components
  return { data, samples, components, properties }

/-- The new properties in `BasicBlock::components_to_properties`,
`src/blocks.rs` lines 144-159. -/
def componentPropertyLabels (movedComponent oldProperties : Labels) : Res Labels := do
  let builder ← LabelsBuilder.new (movedComponent.names ++ oldProperties.names)
  let components ← movedComponent.iter
  -- the inner iterator is only created when there is something to iterate over
  let properties ← if components.isEmpty then pure [] else oldProperties.iter
  let builder ← builder.addAll (components.flatMap fun c => properties.map fun p => c ++ p)
  builder.finish

/-- `BasicBlock::components_to_properties`, `src/blocks.rs` lines 127-172. The
component is removed from the list before anything else can fail. The
subtractions on the number of dimensions can not underflow for an array which
was accepted in a block; they are modelled as panics. -/
def BasicBlock.componentsToProperties (variables : List String) : Act (BasicBlock A) Unit := do
  let self ← Act.get
  match self.components.findIdx? (fun c => c.names == variables) with
  | none => Act.lift (.err (.invalidParameter
      s!"unable to find [{String.intercalate ", " variables}] in the components "))
  | some componentAxis =>
    let movedComponent ← Act.lift (Res.expect self.components[componentAxis]? "index out of bounds")
    Act.set { self with components := self.components.eraseIdx componentAxis }
    let newProperties ← Act.lift (componentPropertyLabels movedComponent self.properties)
    let shape ← Act.lift (ArrayLike.shape self.data)
    Act.lift (Res.assert (2 ≤ shape.length) "attempt to subtract with overflow")
    let propertiesAxis := shape.length - 1
    let count ← Act.lift newProperties.count
    let newShape := shape.set propertiesAxis count
    Act.lift (Res.assert (componentAxis + 1 < newShape.length) "removal index should be < len")
    let newShape := newShape.eraseIdx (componentAxis + 1)
    Act.focus (·.data) (fun data b => { b with data })
      (fun data => ArrayLike.swapAxes data (componentAxis + 1) (propertiesAxis - 1))
    Act.focus (·.data) (fun data b => { b with data })
      (fun data => ArrayLike.reshape data newShape)
    let self ← Act.get
    Act.set { self with properties := newProperties }

namespace TensorBlock

/-- `TensorBlock::new`, `src/blocks.rs` lines 189-200. -/
def new (data : A) (samples : Labels) (components : List Labels) (properties : Labels) :
    Res (TensorBlock A) := do
  let values ← BasicBlock.new data samples components properties
  return { values, gradients := [], gradientParameters := [] }

/-- `TensorBlock::gradient`, `src/blocks.rs` lines 219-221. -/
def gradient (b : TensorBlock A) (parameter : String) : Option (BasicBlock A) :=
  b.gradients.lookup parameter

/-- The comparison of components in `TensorBlock::add_gradient`,
`src/blocks.rs` lines 278-290. -/
def checkGradientComponents (i : Nat) : List (Labels × Labels) → Res Unit
  | [] => .ok ()
  | (gradientLabels, valuesLabels) :: rest => do
    Res.guardErr (gradientLabels == valuesLabels) (.invalidParameter
      s!"gradients and values components mismatch for values component {i} (the corresponding names are [{String.intercalate ", " valuesLabels.names}])")
    checkGradientComponents (i + 1) rest

/-- The checks of `TensorBlock::add_gradient`, `src/blocks.rs` lines 243-295.
Simplification: the names of the origins are not part of the message. -/
def checkGradient (b : TensorBlock A) (parameter : String) (data : A) (samples : Labels)
    (components : List Labels) : Res Unit := do
  Res.guardErr (b.gradients.lookup parameter).isNone (.invalidParameter
    s!"gradient with respect to '{parameter}' already exists for this block")
  let origin ← ArrayLike.origin data
  let valuesOrigin ← ArrayLike.origin b.values.data
  Res.guardErr (origin == valuesOrigin) (.invalidParameter
    "the gradient array has a different origin than the value array")
  Res.guardErr (parameter != "values") (.invalidParameter
    "can not store gradient with respect to 'values'")
  Res.guardErr (samples.names.head? == some "sample") (.invalidParameter
    "first variable in the gradients samples labels must be 'samples'")
  checkComponentLabels 0 components
  Res.guardErr (b.values.components.length ≤ components.length) (.invalidParameter
    "gradients components should contain at least as many labels as the values components")
  let extra := components.length - b.values.components.length
  checkGradientComponents 0 ((components.drop extra).zip b.values.components)
  checkDataAndLabels "gradient data and labels don't match" data samples components
    b.values.properties

/-- `TensorBlock::add_gradient`, `src/blocks.rs` lines 236-309. The gradient is
inserted before its name is converted to a C string, which panics if the name
contains a NUL character. -/
def addGradient (parameter : String) (data : A) (samples : Labels) (components : List Labels) :
    Act (TensorBlock A) Unit := do
  let self ← Act.get
  Act.lift (checkGradient self parameter data samples components)
  Act.set { self with
    gradients := self.gradients ++
      [(parameter, { data, samples, components, properties := self.values.properties })] }
  Act.lift (Res.assert (!parameter.toList.contains '\x00') "invalid C string")
  let self ← Act.get
  Act.set { self with gradientParameters := self.gradientParameters ++ [parameter] }

/-- Replace the entry of a gradient (`values_mut` of a `HashMap`). Used for `src/blocks.rs` lines 317-319. -/
def setGradient (name : String) (g : BasicBlock A) (b : TensorBlock A) : TensorBlock A :=
  { b with gradients := b.gradients.map fun (n, old) => if n = name then (n, g) else (n, old) }

/-- Loop over the gradients in `TensorBlock::components_to_properties`,
`src/blocks.rs` lines 317-319. -/
def gradientsComponentsToProperties (variables : List String) :
    List (String × BasicBlock A) → Act (TensorBlock A) Unit
  | [] => pure ()
  | (name, gradient) :: gradients => do
    Act.focus (fun _ => gradient) (setGradient name) (BasicBlock.componentsToProperties variables)
    gradientsComponentsToProperties variables gradients

/-- `TensorBlock::components_to_properties`, `src/blocks.rs` lines 311-322. -/
def componentsToProperties (hash : HashOrder) (variables : List String) :
    Act (TensorBlock A) Unit := do
  if variables.isEmpty then
    return ()
  Act.focus (·.values) (fun values b => { b with values })
    (BasicBlock.componentsToProperties variables)
  let self ← Act.get
  gradientsComponentsToProperties variables (hash.order self.gradients)

end TensorBlock

end

end Equistore
