import Verif.Model.KeysToSamples

/-!
# Moving keys to properties

Models `src/tensor/keys_to_properties.rs`.
-/

namespace Equistore

variable {A : Type} [ArrayLike A]

/-- The compatibility checks of `merge_blocks_along_properties`,
`src/tensor/keys_to_properties.rs` lines 125-142. -/
def checkMergeProperties (userKeys : Bool) (first : TensorBlock A) :
    List (List LabelValue × TensorBlock A) → Res Unit
  | [] => .ok ()
  | (_, block) :: rest => do
    Res.guardErr (block.values.components == first.values.components) (.invalidParameter
      "can not move keys to properties if the blocks have different components labels, call components_to_properties first")
    Res.guardErr (!userKeys || block.values.properties == first.values.properties)
      (.invalidParameter
        "can not provide values for the keys to move to properties if the blocks have different property labels")
    checkMergeProperties userKeys first rest

/-- The new properties coming from the blocks, each with the given prefix
chosen by `key`: `src/tensor/keys_to_properties.rs` lines 155-161 and 167-173. -/
def collectProperties (key : List LabelValue → List LabelValue) :
    List (List LabelValue × TensorBlock A) → Res (List (List LabelValue))
  | [] => .ok []
  | (moved, block) :: rest => do
    let properties ← block.values.properties.iter
    let others ← collectProperties key rest
    return properties.map (fun p => key moved ++ p) ++ others

/-- The new properties for user-provided entries,
`src/tensor/keys_to_properties.rs` lines 154-162. -/
def collectUserProperties (blocks : List (List LabelValue × TensorBlock A)) :
    List (List LabelValue) → Res (List (List LabelValue))
  | [] => .ok []
  | entry :: entries => do
    let properties ← collectProperties (fun _ => entry) blocks
    let others ← collectUserProperties blocks entries
    return properties ++ others

/-- The entries of the new properties, `src/tensor/keys_to_properties.rs` lines
151-174. -/
def newPropertyEntries (keysToMove : Option Labels)
    (blocks : List (List LabelValue × TensorBlock A)) (firstProperties : Labels) :
    Res (List (List LabelValue)) := do
  match keysToMove with
  | some keysToMove => do
    let entries ← keysToMove.iter
    let collected ← collectUserProperties blocks entries
    let properties := indexSet collected
    let n ← firstProperties.count
    let m ← keysToMove.count
    Res.assert (properties.length == n * m)
      "assertion failed: new_properties.len() == first_property_labels.count() * keys_to_move.count()"
    return properties
  | none => do
    let collected ← collectProperties id blocks
    return indexSet collected

/-- Where the properties of one block go, `src/tensor/keys_to_properties.rs`
lines 199-218. `None` if the key of this block was not requested. -/
def propertyRange (newProperties : Labels) (moved : List LabelValue) (block : TensorBlock A) :
    Res (Option (Nat × Nat)) := do
  let size ← block.values.properties.count
  let firstProperty ← block.values.properties.index 0
  let start ← newProperties.position (moved ++ firstProperty)
  return start.map fun start => (start, start + size)

/-- Move the data of all blocks with a range, `src/tensor/keys_to_properties.rs`
lines 222-231. -/
def moveAllProperties : A → List ((A × List SampleMapping) × Option (Nat × Nat)) → Res A
  | output, [] => .ok output
  | output, ((input, mapping), range) :: rest => do
    match range with
    | some (start, stop) => do
      let output ← moveSamples output input mapping start stop
      moveAllProperties output rest
    | none => moveAllProperties output rest

/-- The loop moving the gradient data of all blocks with a range,
`src/tensor/keys_to_properties.rs` lines 254-284. -/
def moveAllGradientProperties (build : Build) (parameter : String) (newSamples : Labels)
    (newComponents : List Labels) :
    A → List (((List LabelValue × TensorBlock A) × List SampleMapping) × Option (Nat × Nat)) → Res A
  | output, [] => .ok output
  | output, (((_, block), mapping), range) :: rest => do
    match range with
    | some (start, stop) => do
      let gradient ← Res.expect (block.gradient parameter) "missing gradient"
      build.debugAssert (gradient.components == newComponents)
        "assertion failed: *gradient.components == *new_components"
      let samples ← gradientMapping build mapping newSamples gradient
      let output ← moveSamples output gradient.data samples start stop
      moveAllGradientProperties build parameter newSamples newComponents output rest
    | none => moveAllGradientProperties build parameter newSamples newComponents output rest

/-- The loop over gradients in `merge_blocks_along_properties`,
`src/tensor/keys_to_properties.rs` lines 240-289. -/
def mergeGradientsAlongProperties (build : Build) (firstBlock : TensorBlock A)
    (blocks : List (List LabelValue × TensorBlock A)) (mappings : List (List SampleMapping))
    (ranges : List (Option (Nat × Nat))) (propertiesCount : Nat) :
    TensorBlock A → List (String × BasicBlock A) → Res (TensorBlock A)
  | newBlock, [] => .ok newBlock
  | newBlock, (parameter, firstGradient) :: rest => do
    let newSamples ← mergeGradientSamples build blocks parameter mappings
    let shape ← ArrayLike.shape firstGradient.data
    Res.assert (!shape.isEmpty) "index out of bounds"
    let count ← newSamples.count
    let newShape := (shape.set 0 count).set (shape.length - 1) propertiesCount
    let newGradient ← ArrayLike.create firstBlock.values.data newShape
    let newGradient ← moveAllGradientProperties build parameter newSamples
      firstGradient.components newGradient ((blocks.zip mappings).zip ranges)
    let newBlock ← addGradientExpect newBlock parameter newGradient newSamples
      firstGradient.components
    mergeGradientsAlongProperties build firstBlock blocks mappings ranges propertiesCount
      newBlock rest

/-- `merge_blocks_along_properties`, `src/tensor/keys_to_properties.rs` lines
114-292. -/
def mergeBlocksAlongProperties (build : Build) (hash : HashOrder) (keysToMove : Option Labels)
    (extractedNames : List String) (sort : Bool)
    (blocks : List (List LabelValue × TensorBlock A)) : Res (TensorBlock A) := do
  let first ← Res.expect blocks.head? "assertion failed: !blocks_to_merge.is_empty()"
  let firstBlock := first.2
  checkMergeProperties keysToMove.isSome firstBlock blocks
  let (mergedSamples, mappings) ← mergeSamples blocks firstBlock.values.samples.names sort
  let entries ← newPropertyEntries keysToMove blocks firstBlock.values.properties
  let newProperties ← Labels.build (extractedNames ++ firstBlock.values.properties.names) entries
  let propertiesCount ← newProperties.count
  let shape ← ArrayLike.shape firstBlock.values.data
  Res.assert (!shape.isEmpty) "index out of bounds"
  let count ← mergedSamples.count
  let newShape := (shape.set 0 count).set (shape.length - 1) propertiesCount
  let newData ← ArrayLike.create firstBlock.values.data newShape
  let ranges ← blocks.mapM fun (moved, block) => propertyRange newProperties moved block
  let newData ← moveAllProperties newData
    (((blocks.map fun b => b.2.values.data).zip mappings).zip ranges)
  let newBlock ← Res.expectOk
    (TensorBlock.new newData mergedSamples firstBlock.values.components newProperties)
    "constructed an invalid block"
  mergeGradientsAlongProperties build firstBlock blocks mappings ranges propertiesCount newBlock
    (hash.order firstBlock.gradients)

/-- The new content computed by `keys_to_properties`,
`src/tensor/keys_to_properties.rs` lines 44-102. -/
def TensorMap.keysToPropertiesResult (build : Build) (hash : HashOrder) (keysToMove : Labels)
    (sort : Bool) (t : TensorMap A) : Res (Labels × List (TensorBlock A)) := do
  let (newKeys, positions) ← removeVariablesFromKeys t.keys keysToMove.names
  let count ← keysToMove.count
  let userKeys := if count = 0 then none else some keysToMove
  let newBlocks ← mergeForKeys t newKeys positions
    (mergeBlocksAlongProperties build hash userKeys keysToMove.names sort)
  return (newKeys, newBlocks)

/-- `TensorMap::keys_to_properties`, `src/tensor/keys_to_properties.rs` lines
41-109. The tensor map is only modified at the very end (lines 105-106). -/
def TensorMap.keysToProperties (build : Build) (hash : HashOrder) (keysToMove : Labels)
    (sort : Bool) : Act (TensorMap A) Unit := do
  let self ← Act.get
  let (keys, blocks) ← Act.lift (self.keysToPropertiesResult build hash keysToMove sort)
  let self ← Act.get
  Act.set { self with keys }
  let self ← Act.get
  Act.set { self with blocks }

end Equistore
