import Verif.Model.Blocks

/-!
# Tensor maps

Models `src/tensor/mod.rs`, `src/tensor/iter.rs` and
`src/tensor/utils.rs`.
-/

namespace Equistore

/-- `TensorMap`, `src/tensor/mod.rs` lines 26-31. -/
structure TensorMap (A : Type) where
  keys : Labels
  blocks : List (TensorBlock A)
  deriving DecidableEq, Repr

section
variable {A : Type} [ArrayLike A]

/-- Loop over the components in `check_labels_names`, `src/tensor/mod.rs` lines
59-68, for lists of the same length. -/
def checkComponentNames (context : String) : List (Labels × List String) → Res Unit
  | [] => .ok ()
  | (component, names) :: rest => do
    Res.guardErr (component.names == names) (.invalidParameter
      s!"all blocks must have the same component label names, got [{String.intercalate ", " component.names}] and [{String.intercalate ", " names}]{context}")
    checkComponentNames context rest

/-- `check_labels_names`, `src/tensor/mod.rs` lines 34-71. -/
def checkLabelsNames (block : BasicBlock A) (sampleNames : List String)
    (componentsNames : List (List String)) (context : String) : Res Unit := do
  Res.guardErr (block.samples.names == sampleNames) (.invalidParameter
    s!"all blocks must have the same sample label names, got [{String.intercalate ", " block.samples.names}] and [{String.intercalate ", " sampleNames}]{context}")
  Res.guardErr (block.components.length == componentsNames.length) (.invalidParameter
    s!"all blocks must contains the same set of components, the current block has {block.components.length} components while the first block has {componentsNames.length}{context}")
  checkComponentNames context (block.components.zip componentsNames)

/-- Loop over the gradients of a block in `TensorMap::new`, `src/tensor/mod.rs`
lines 125-142, where `first` are the gradients of the first block. -/
def checkGradientsNames (first : List (String × BasicBlock A)) :
    List (String × BasicBlock A) → Res Unit
  | [] => .ok ()
  | (parameter, gradient) :: rest => do
    match first.lookup parameter with
    | none => .err (.invalidParameter
        s!"missing gradient with respect to {parameter} in one of the blocks")
    | some g => do
      checkLabelsNames gradient g.samples.names (g.components.map (·.names))
        s!" for gradients with respect to {parameter}"
      checkGradientsNames first rest

/-- Loop over the blocks in `TensorMap::new`, `src/tensor/mod.rs` lines 108-143. -/
def checkBlocks (hash : HashOrder) (first : TensorBlock A) : List (TensorBlock A) → Res Unit
  | [] => .ok ()
  | block :: blocks => do
    checkLabelsNames block.values first.values.samples.names
      (first.values.components.map (·.names)) ""
    Res.guardErr (block.values.properties.names == first.values.properties.names) (.invalidParameter
      s!"all blocks must have the same property label names, got [{String.intercalate ", " block.values.properties.names}] and [{String.intercalate ", " first.values.properties.names}]")
    Res.guardErr (block.gradients.length == first.gradients.length) (.invalidParameter
      "all blocks must contains the same set of gradients")
    checkGradientsNames first.gradients (hash.order block.gradients)
    checkBlocks hash first blocks

namespace TensorMap

/-- `TensorMap::new`, `src/tensor/mod.rs` lines 80-150. -/
def new (hash : HashOrder) (keys : Labels) (blocks : List (TensorBlock A)) :
    Res (TensorMap A) := do
  let count ← keys.count
  Res.guardErr (blocks.length == count) (.invalidParameter
    s!"expected the same number of blocks ({count}) as the number of entries in the keys when creating a tensor, got {blocks.length}")
  match blocks with
  | [] => pure ()
  | first :: _ => checkBlocks hash first blocks
  return { keys, blocks }

/-- The search for the requested names in `TensorMap::blocks_matching`,
`src/tensor/mod.rs` lines 184-197. -/
def requestedVariables (keyNames : List String) : List String → Res (List Nat)
  | [] => .ok []
  | requested :: rest => do
    let i ← Res.okOr (keyNames.findIdx? (· == requested)) (.invalidParameter
      s!"'{requested}' is not part of the keys for this tensor")
    let is ← requestedVariables keyNames rest
    return i :: is

/-- Whether a key agrees with the selection, `src/tensor/mod.rs` lines 203-209. -/
def keySelected (key : List LabelValue) : List (Nat × LabelValue) → Res Bool
  | [] => .ok true
  | (i, value) :: rest => do
    let v ← Res.expect key[i]? "index out of bounds"
    if v ≠ value then
      return false
    else
      keySelected key rest

/-- The loop over keys in `TensorMap::blocks_matching`, `src/tensor/mod.rs` lines
202-214. -/
def matchingLoop (request : List (Nat × LabelValue)) : List (List LabelValue × Nat) → Res (List Nat)
  | [] => .ok []
  | (key, i) :: rest => do
    let selected ← keySelected key request
    let others ← matchingLoop request rest
    return if selected then i :: others else others

/-- `TensorMap::blocks_matching`, `src/tensor/mod.rs` lines 172-217. -/
def blocksMatching (t : TensorMap A) (selection : Labels) : Res (List Nat) := do
  if selection.size = 0 then
    return List.range t.blocks.length
  else
    let count ← selection.count
    Res.guardErr (count == 1) (.invalidParameter
      s!"block selection labels must contain a single row, got {count}")
    let variables ← requestedVariables t.keys.names selection.names
    let rows ← selection.iter
    let row ← Res.expect rows.head? "empty selection"
    let keys ← t.keys.iter
    matchingLoop (variables.zip row) keys.zipIdx

/-- `TensorMap::block_matching`, `src/tensor/mod.rs` lines 223-246. The message
uses `selection[0]`. -/
def blockMatching (t : TensorMap A) (selection : Labels) : Res Nat := do
  let matching ← t.blocksMatching selection
  match matching with
  | [i] => return i
  | _ => do
    let row ← selection.index 0
    let selectionStr := String.intercalate ", "
      ((selection.names.zip row).map fun (name, value) => s!"{name} = {value}")
    if matching.isEmpty then
      .err (.invalidParameter s!"no blocks matched the selection ({selectionStr})")
    else
      .err (.invalidParameter
        s!"{matching.length} blocks matched the selection ({selectionStr}), expected only one")

/-- `TensorMap::block`, `src/tensor/mod.rs` lines 252-254. -/
def block (t : TensorMap A) (selection : Labels) : Res (TensorBlock A) := do
  let i ← t.blockMatching selection
  Res.expect t.blocks[i]? "index out of bounds"

/-- Loop of `TensorMap::components_to_properties`, `src/tensor/mod.rs` lines
263-265, on the blocks starting at index `i`. -/
def componentsToPropertiesLoop (hash : HashOrder) (variables : List String) :
    List (TensorBlock A) → List (TensorBlock A) × Res Unit
  | [] => ([], .ok ())
  | block :: blocks =>
    match TensorBlock.componentsToProperties hash variables block with
    | (block, .ok ()) =>
      let (blocks, r) := componentsToPropertiesLoop hash variables blocks
      (block :: blocks, r)
    | (block, .err e) => (block :: blocks, .err e)
    | (block, .panic m) => (block :: blocks, .panic m)

/-- `TensorMap::components_to_properties`, `src/tensor/mod.rs` lines 258-268. -/
def componentsToProperties (hash : HashOrder) (variables : List String) : Act (TensorMap A) Unit :=
  if variables.isEmpty then
    pure ()
  else
    Act.focus (·.blocks) (fun blocks t => { t with blocks })
      (componentsToPropertiesLoop hash variables)

/-- `TensorMap::iter` and `TensorMap::iter_mut` run to the end,
`src/tensor/iter.rs` lines 9-21. -/
def iter (t : TensorMap A) : Res (List (List LabelValue × TensorBlock A)) := do
  let keys ← t.keys.iter
  return keys.zip t.blocks

end TensorMap

/-! ### Utilities for moving keys -/

/-- Read some positions of a key: `for &i in positions { label.push(key[i]) }`. `src/tensor/utils.rs` lines 52-55. -/
def project (positions : List Nat) (key : List LabelValue) : Res (List LabelValue) :=
  positions.mapM fun i => Res.expect key[i]? "index out of bounds"

/-- `IndexSet` filled by insertions: first occurrences, in order.
Used in `src/tensor/utils.rs` lines 50 and 116, and `src/tensor/keys_to_properties.rs` line 151. -/
def indexSet {α : Type} [DecidableEq α] (l : List α) : List α := l.eraseDups

/-- Lexicographic comparison of `Vec<LabelValue>`, the derived `Ord`. `src/labels.rs` lines 14-16. -/
def lexLe : List LabelValue → List LabelValue → Bool
  | [], _ => true
  | _ :: _, [] => false
  | a :: as, b :: bs => if a < b then true else if b < a then false else lexLe as bs

/-- Insertion in a sorted list. Used by `sort_unstable`, `src/tensor/utils.rs` line 129. -/
def insertRow (r : List LabelValue) : List (List LabelValue) → List (List LabelValue)
  | [] => [r]
  | a :: l => if lexLe r a then r :: a :: l else a :: insertRow r l

/-- Sorting with the derived order: `IndexSet::sort_unstable` (all entries are
different, so the algorithm and stability do not matter). Used in `src/tensor/utils.rs` lines 77 and 129. -/
def sortRows (l : List (List LabelValue)) : List (List LabelValue) := l.foldr insertRow []

/-- `BTreeSet` filled by insertions, in iteration order. Used in `src/tensor/utils.rs` line 77. -/
def btreeSet (l : List (List LabelValue)) : List (List LabelValue) := sortRows (indexSet l)

/-- `remove_variables_from_keys`, `src/tensor/utils.rs` lines 23-70: the new keys
and the positions of the removed variables in the old ones. -/
def removeVariablesFromKeys (keys : Labels) (variables : List String) :
    Res (Labels × List Nat) := do
  match variables.find? (fun v => !keys.names.contains v) with
  | some missing => .err (.invalidParameter
      s!"'{missing}' is not part of the keys for this tensor map")
  | none =>
    let extracted := (keys.names.zipIdx.filter fun p => variables.contains p.1).map Prod.snd
    let remaining := keys.names.zipIdx.filter fun p => !variables.contains p.1
    let newKeys ←
      if remaining.isEmpty then
        Labels.single
      else do
        let rows ← keys.iter
        let labels ← rows.mapM (project (remaining.map Prod.snd))
        Labels.build (remaining.map Prod.fst) (indexSet labels)
    return (newKeys, extracted)

/-- A sample extended with the moved key, `src/tensor/utils.rs` lines 119-122 and
145-148. -/
def extendSample (addKey : Bool) (key sample : List LabelValue) : List LabelValue :=
  if addKey then sample ++ key else sample

/-- All samples of the blocks to merge, `src/tensor/utils.rs` lines 116-126. -/
def collectSamples (addKey : Bool) :
    List (List LabelValue × TensorBlock A) → Res (List (List LabelValue))
  | [] => .ok []
  | (key, block) :: blocks => do
    let samples ← block.values.samples.iter
    let rest ← collectSamples addKey blocks
    return samples.map (extendSample addKey key) ++ rest

/-- Mapping of the samples of one block, `src/tensor/utils.rs` lines 141-154. -/
def sampleMapping (merged : Labels) (addKey : Bool) (key : List LabelValue)
    (block : TensorBlock A) : Res (List SampleMapping) := do
  let samples ← block.values.samples.iter
  samples.zipIdx.mapM fun (sample, i) => do
    let position ← merged.position (extendSample addKey key sample)
    let output ← Res.expect position "missing entry in merged samples"
    return { input := i, output }

/-- `merge_samples`, `src/tensor/utils.rs` lines 107-158. -/
def mergeSamples (blocks : List (List LabelValue × TensorBlock A)) (newNames : List String)
    (sort : Bool) : Res (Labels × List (List SampleMapping)) := do
  let first ← Res.expect blocks.head? "index out of bounds"
  let addKey := decide (first.2.values.samples.size < newNames.length)
  let collected ← collectSamples addKey blocks
  let unique := indexSet collected
  let samples := if sort then sortRows unique else unique
  let merged ← Labels.build newNames samples
  let mappings ← blocks.mapM fun (key, block) => sampleMapping merged addKey key block
  return (merged, mappings)

/-- A gradient sample with its first value translated from the old to the new
sample index, `src/tensor/utils.rs` lines 87-93 (and the same lines in
`src/tensor/keys_to_samples.rs` 181-187, `src/tensor/keys_to_properties.rs`
265-271). -/
def translateGradientSample (build : Build) (mapping : List SampleMapping)
    (sample : List LabelValue) : Res (List LabelValue) := do
  let value ← Res.expect sample[0]? "index out of bounds"
  let old ← LabelValue.usize value
  let m ← Res.expect mapping[old]? "index out of bounds"
  build.debugAssert (m.input == old) "assertion failed: mapping.input == old_sample_i"
  let output ← LabelValue.ofUsize m.output
  return sample.set 0 output

/-- The loop of `merge_gradient_samples`, `src/tensor/utils.rs` lines 79-97. -/
def collectGradientSamples (build : Build) (parameter : String) :
    List ((List LabelValue × TensorBlock A) × List SampleMapping) → Res (List (List LabelValue))
  | [] => .ok []
  | ((_, block), mapping) :: rest => do
    let gradient ← Res.expect (block.gradient parameter) "missing gradient"
    let samples ← gradient.samples.iter
    let translated ← samples.mapM (translateGradientSample build mapping)
    let others ← collectGradientSamples build parameter rest
    return translated ++ others

/-- `merge_gradient_samples`, `src/tensor/utils.rs` lines 72-105. -/
def mergeGradientSamples (build : Build) (blocks : List (List LabelValue × TensorBlock A))
    (parameter : String) (mappings : List (List SampleMapping)) : Res Labels := do
  let collected ← collectGradientSamples build parameter (blocks.zip mappings)
  let first ← Res.expect (blocks.zip mappings).head? "missing gradient samples names"
  let gradient ← Res.expect (first.1.2.gradient parameter) "missing gradient"
  Labels.build gradient.samples.names (btreeSet collected)

/-- Which rows of a gradient go where in the merged gradient:
`src/tensor/keys_to_samples.rs` lines 179-194 and
`src/tensor/keys_to_properties.rs` lines 263-278. -/
def gradientMapping (build : Build) (mapping : List SampleMapping) (newSamples : Labels)
    (gradient : BasicBlock A) : Res (List SampleMapping) := do
  let samples ← gradient.samples.iter
  samples.zipIdx.mapM fun (sample, i) => do
    let translated ← translateGradientSample build mapping sample
    let position ← newSamples.position translated
    let output ← Res.expect position "missing entry in merged samples"
    return { input := i, output }

/-- A local array on which `move_samples_from` is called; on failure the array
is dropped. `src/tensor/keys_to_samples.rs` lines 148-199 and `src/tensor/keys_to_properties.rs` lines 220-283. -/
def moveSamples (output input : A) (samples : List SampleMapping) (start stop : Nat) : Res A :=
  match ArrayLike.moveSamplesFrom output input samples start stop with
  | (output, .ok ()) => .ok output
  | (_, .err e) => .err e
  | (_, .panic m) => .panic m

/-- `block.add_gradient(...).expect(...)` on a local block.
`src/tensor/keys_to_samples.rs` lines 202-204 and `src/tensor/keys_to_properties.rs` lines 286-288. -/
def addGradientExpect (block : TensorBlock A) (parameter : String) (data : A) (samples : Labels)
    (components : List Labels) : Res (TensorBlock A) :=
  match TensorBlock.addGradient parameter data samples components block with
  | (block, .ok ()) => .ok block
  | (_, .err _) => .panic "created invalid gradients"
  | (_, .panic m) => .panic m

/-- The blocks to merge for one of the new keys: all of them when there is a
single new key, otherwise those matching it. `src/tensor/keys_to_samples.rs`
lines 70-82, `src/tensor/keys_to_properties.rs` lines 80-92. -/
def blocksToMerge (t : TensorMap A) (positions : List Nat) (indices : List Nat) :
    Res (List (List LabelValue × TensorBlock A)) :=
  indices.mapM fun i => do
    let block ← Res.expect t.blocks[i]? "index out of bounds"
    let key ← t.keys.index i
    let moved ← project positions key
    return (moved, block)

/-- All the blocks with the moved part of their key, for a single new key:
`src/tensor/keys_to_samples.rs` lines 47-57. -/
def allBlocksToMerge (t : TensorMap A) (positions : List Nat) :
    Res (List (List LabelValue × TensorBlock A)) := do
  let keys ← t.keys.iter
  (keys.zip t.blocks).mapM fun (key, block) => do
    let moved ← project positions key
    return (moved, block)

/-- The common structure of `keys_to_samples` and `keys_to_properties`:
merge the blocks for each of the new keys. `src/tensor/keys_to_samples.rs` lines
44-90, `src/tensor/keys_to_properties.rs` lines 53-102. -/
def mergeForKeys (t : TensorMap A) (newKeys : Labels) (positions : List Nat)
    (merge : List (List LabelValue × TensorBlock A) → Res (TensorBlock A)) :
    Res (List (TensorBlock A)) := do
  let count ← newKeys.count
  if count = 1 then
    let blocks ← allBlocksToMerge t positions
    let block ← merge blocks
    return [block]
  else
    let entries ← newKeys.iter
    entries.mapM fun entry => do
      let selection ← Labels.build newKeys.names [entry]
      let matching ← t.blocksMatching selection
      let blocks ← blocksToMerge t positions matching
      merge blocks

end

end Equistore
