import Verif.Model.Tensor

/-!
# Moving keys to samples

Models `src/tensor/keys_to_samples.rs`.
-/

namespace Equistore

variable {A : Type} [ArrayLike A]

/-- Move the data of all blocks in a new array, `src/tensor/keys_to_samples.rs`
lines 146-155. -/
def moveAllSamples (stop : Nat) : A → List (A × List SampleMapping) → Res A
  | output, [] => .ok output
  | output, (input, mapping) :: rest => do
    let output ← moveSamples output input mapping 0 stop
    moveAllSamples stop output rest

/-- The loop moving the gradient data of all blocks in a new array,
`src/tensor/keys_to_samples.rs` lines 175-200. -/
def moveAllGradients (build : Build) (parameter : String) (newSamples : Labels)
    (newComponents : List Labels) (stop : Nat) :
    A → List ((List LabelValue × TensorBlock A) × List SampleMapping) → Res A
  | output, [] => .ok output
  | output, ((_, block), mapping) :: rest => do
    let gradient ← Res.expect (block.gradient parameter) "missing gradient"
    build.debugAssert (gradient.components == newComponents)
      "assertion failed: *gradient.components == *new_components"
    let samples ← gradientMapping build mapping newSamples gradient
    let output ← moveSamples output gradient.data samples 0 stop
    moveAllGradients build parameter newSamples newComponents stop output rest

/-- The loop over gradients in `merge_blocks_along_samples`,
`src/tensor/keys_to_samples.rs` lines 164-205. -/
def mergeGradientsAlongSamples (build : Build) (firstBlock : TensorBlock A)
    (blocks : List (List LabelValue × TensorBlock A)) (mappings : List (List SampleMapping))
    (stop : Nat) : TensorBlock A → List (String × BasicBlock A) → Res (TensorBlock A)
  | newBlock, [] => .ok newBlock
  | newBlock, (parameter, firstGradient) :: rest => do
    let newSamples ← mergeGradientSamples build blocks parameter mappings
    let shape ← ArrayLike.shape firstGradient.data
    Res.assert (!shape.isEmpty) "index out of bounds"
    let count ← newSamples.count
    let newGradient ← ArrayLike.create firstBlock.values.data (shape.set 0 count)
    let newGradient ← moveAllGradients build parameter newSamples firstGradient.components stop
      newGradient (blocks.zip mappings)
    let newBlock ← addGradientExpect newBlock parameter newGradient newSamples
      firstGradient.components
    mergeGradientsAlongSamples build firstBlock blocks mappings stop newBlock rest

/-- The compatibility checks of `merge_blocks_along_samples`,
`src/tensor/keys_to_samples.rs` lines 112-126. -/
def checkMergeSamples (first : TensorBlock A) :
    List (List LabelValue × TensorBlock A) → Res Unit
  | [] => .ok ()
  | (_, block) :: rest => do
    Res.guardErr (block.values.components == first.values.components) (.invalidParameter
      "can not move keys to samples if the blocks have different components labels, call components_to_properties first")
    Res.guardErr (block.values.properties == first.values.properties) (.invalidParameter
      "can not move keys to samples if the blocks have different property labels")
    checkMergeSamples first rest

/-- `merge_blocks_along_samples`, `src/tensor/keys_to_samples.rs` lines 101-208. -/
def mergeBlocksAlongSamples (build : Build) (hash : HashOrder) (extractedNames : List String)
    (sort : Bool) (blocks : List (List LabelValue × TensorBlock A)) : Res (TensorBlock A) := do
  let first ← Res.expect blocks.head? "assertion failed: !blocks_to_merge.is_empty()"
  let firstBlock := first.2
  checkMergeSamples firstBlock blocks
  let (mergedSamples, mappings) ←
    mergeSamples blocks (firstBlock.values.samples.names ++ extractedNames) sort
  let shape ← ArrayLike.shape firstBlock.values.data
  Res.assert (!shape.isEmpty) "index out of bounds"
  let count ← mergedSamples.count
  let newData ← ArrayLike.create firstBlock.values.data (shape.set 0 count)
  let stop ← firstBlock.values.properties.count
  let newData ← moveAllSamples stop newData
    ((blocks.map fun b => b.2.values.data).zip mappings)
  let newBlock ← Res.expectOk
    (TensorBlock.new newData mergedSamples firstBlock.values.components
      firstBlock.values.properties) "invalid block"
  mergeGradientsAlongSamples build firstBlock blocks mappings stop newBlock
    (hash.order firstBlock.gradients)

/-- The new content computed by `keys_to_samples`,
`src/tensor/keys_to_samples.rs` lines 34-90. -/
def TensorMap.keysToSamplesResult (build : Build) (hash : HashOrder) (keysToMove : Labels)
    (sort : Bool) (t : TensorMap A) : Res (Labels × List (TensorBlock A)) := do
  let count ← keysToMove.count
  Res.guardErr (count == 0) (.invalidParameter
    "user provided values for the keys to move is not yet implemented, `keys_to_move` should not contain any entry when calling keys_to_samples")
  let (newKeys, positions) ← removeVariablesFromKeys t.keys keysToMove.names
  let newBlocks ← mergeForKeys t newKeys positions
    (mergeBlocksAlongSamples build hash keysToMove.names sort)
  return (newKeys, newBlocks)

/-- `TensorMap::keys_to_samples`, `src/tensor/keys_to_samples.rs` lines 31-97. The
tensor map is only modified at the very end (lines 93-94). -/
def TensorMap.keysToSamples (build : Build) (hash : HashOrder) (keysToMove : Labels) (sort : Bool) :
    Act (TensorMap A) Unit := do
  let self ← Act.get
  let (keys, blocks) ← Act.lift (self.keysToSamplesResult build hash keysToMove sort)
  let self ← Act.get
  Act.set { self with keys }
  let self ← Act.get
  Act.set { self with blocks }

end Equistore
