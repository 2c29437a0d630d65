import Verif.Model.Npy
import Verif.Model.Tensor

/-!
# Tensor maps in NPZ files

Models `load` and `save` in `src/io/mod.rs`. The `zip` crate is a dependency and is not modelled: an archive
is the list of its entries, in the order in which they have been written. Simplification: `finish`
does not fail, and the writer accepts all bytes.
-/

namespace Equistore

/-- A ZIP archive: names and contents of the entries. `zip::ZipArchive` and `zip::ZipWriter` in `src/io/mod.rs` lines 51-112 and 119-169. -/
abbrev Archive := List (String × Bytes)

namespace Archive

/-- `ZipArchive::by_name`. For entries with the same name, the last one is used. Used in `src/io/mod.rs` lines 55-101. -/
def byName (archive : Archive) (name : String) : Res Bytes :=
  match archive.reverse.lookup name with
  | some bytes => .ok bytes
  | none => .err (.serialization s!"specified file not found in archive: {name}")

/-- `ZipArchive::file_names`: the keys of a hash map. Used in `src/io/mod.rs` line 58. -/
def fileNames (hash : HashOrder) (archive : Archive) : List String :=
  (hash.order ((archive.map Prod.fst).eraseDups.map fun name => (name, ()))).map Prod.fst

end Archive

/-- `str::split_at` for ASCII boundaries, on characters. Used in `src/io/mod.rs` lines 60-61. -/
def splitAt (l : List Char) (n : Nat) : Res (List Char × List Char) :=
  if n ≤ l.length then .ok (l.take n, l.drop n) else .panic "failed to slice string"

/-- Loop of `load` over the names in the archive, `src/io/mod.rs` lines 57-64. -/
def gradientParameters (build : Build) : List String → Res (List String)
  | [] => .ok []
  | name :: names => do
    if "blocks/0/gradients/".toList.isPrefixOf name.toList && "/data.npy".toList.isSuffixOf name.toList then
      let (_, parameter) ← splitAt name.toList 19
      let stop ← usizeSub build parameter.length 9
      let (parameter, _) ← splitAt parameter stop
      let others ← gradientParameters build names
      return String.ofList parameter :: others
    else
      gradientParameters build names

/-- Loop of `load` over the components, `src/io/mod.rs` lines 77-81 and 98-102, starting at
index `i`, for `n` components. -/
def loadComponents (build : Build) (py : PyLiteral) (archive : Archive) (path : Nat → String) :
    Nat → Nat → Res (List Labels)
  | 0, _ => .ok []
  | n + 1, i => do
    let file ← archive.byName (path i)
    let component ← readNpyLabels build py file
    let others ← loadComponents build py archive path n (i + 1)
    return component :: others

/-- The path of an entry for the values of a block in `load` and `save`. `src/io/mod.rs` lines 68-83 and 131-145. -/
def valuesPath (block : Nat) (what : String) : String := s!"blocks/{block}/values/{what}.npy"

/-- The path of an entry for a gradient of a block in `load` and `save`. `src/io/mod.rs` lines 90-100 and 150-159. -/
def gradientPath (block : Nat) (parameter : String) (what : String) : String :=
  s!"blocks/{block}/gradients/{parameter}/{what}.npy"

/-- Loop of `load` over the gradients, `src/io/mod.rs` lines 89-105. -/
def loadGradients (build : Build) (py : PyLiteral) (archive : Archive) (i : Nat) :
    List String → TensorBlock NdArray → Res (TensorBlock NdArray)
  | [], block => .ok block
  | parameter :: parameters, block => do
    let file ← archive.byName (gradientPath i parameter "data")
    let data ← readData build py file
    let file ← archive.byName (gradientPath i parameter "samples")
    let samples ← readNpyLabels build py file
    let n ← usizeSub build data.shape.length 2
    let components ← loadComponents build py archive
      (fun c => gradientPath i parameter s!"components/{c}") n 0
    match block.addGradient parameter data samples components with
    | (block, .ok ()) => loadGradients build py archive i parameters block
    | (_, .err e) => .err e
    | (_, .panic m) => .panic m

/-- Body of the loop of `load` over the blocks, `src/io/mod.rs` lines 67-108. -/
def loadBlock (build : Build) (py : PyLiteral) (archive : Archive) (parameters : List String) (i : Nat) :
    Res (TensorBlock NdArray) := do
  let file ← archive.byName (valuesPath i "data")
  let data ← readData build py file
  let file ← archive.byName (valuesPath i "samples")
  let samples ← readNpyLabels build py file
  let n ← usizeSub build data.shape.length 2
  let components ← loadComponents build py archive (fun c => valuesPath i s!"components/{c}") n 0
  let file ← archive.byName (valuesPath i "properties")
  let properties ← readNpyLabels build py file
  let block ← TensorBlock.new data samples components properties
  loadGradients build py archive i parameters block

/-- `load`, `src/io/mod.rs` lines 51-112. `hash` is the order of the entries in the archive, and `hash'` the
order of gradients in `TensorMap::new`. -/
def load (build : Build) (py : PyLiteral) (hash hash' : HashOrder) (archive : Archive) :
    Res (TensorMap NdArray) := do
  let file ← archive.byName "keys.npy"
  let keys ← readNpyLabels build py file
  let parameters ← gradientParameters build (archive.fileNames hash)
  let count ← keys.count
  let blocks ← (List.range count).mapM (loadBlock build py archive parameters)
  TensorMap.new hash' keys blocks

section
variable {A : Type} [ArrayLike A]

/-- Loop of `save` over the components, `src/io/mod.rs` lines 141-145 and 160-164. -/
def saveComponents (build : Build) (py : PyLiteral) (native : Endian) (path : Nat → String) :
    List Labels → Nat → Res Archive
  | [], _ => .ok []
  | component :: components, i => do
    let bytes ← writeNpyLabels build py native component
    let others ← saveComponents build py native path components (i + 1)
    return (path i, bytes) :: others

/-- Loop of `save` over the gradients, `src/io/mod.rs` lines 151-165. -/
def saveGradients (build : Build) (py : PyLiteral) (native : Endian) (i : Nat) :
    List (String × BasicBlock A) → Res Archive
  | [] => .ok []
  | (parameter, gradient) :: gradients => do
    let data ← writeData build py native gradient.data
    let samples ← writeNpyLabels build py native gradient.samples
    let components ← saveComponents build py native (fun c => gradientPath i parameter s!"components/{c}")
      gradient.components 0
    let others ← saveGradients build py native i gradients
    return (gradientPath i parameter "data", data) :: (gradientPath i parameter "samples", samples) ::
      components ++ others

/-- Loop of `save` over the blocks, `src/io/mod.rs` lines 131-166. -/
def saveBlocks (build : Build) (py : PyLiteral) (native : Endian) (hash : HashOrder) :
    List (TensorBlock A) → Nat → Res Archive
  | [], _ => .ok []
  | block :: blocks, i => do
    let data ← writeData build py native block.values.data
    let samples ← writeNpyLabels build py native block.values.samples
    let components ← saveComponents build py native (fun c => valuesPath i s!"components/{c}")
      block.values.components 0
    let properties ← writeNpyLabels build py native block.values.properties
    let gradients ← saveGradients build py native i (hash.order block.gradients)
    let others ← saveBlocks build py native hash blocks (i + 1)
    return (valuesPath i "data", data) :: (valuesPath i "samples", samples) ::
      components ++ (valuesPath i "properties", properties) :: gradients ++ others

/-- `save`, `src/io/mod.rs` lines 119-169: the entries written. -/
def save (build : Build) (py : PyLiteral) (native : Endian) (hash : HashOrder) (tensor : TensorMap A) :
    Res Archive := do
  let keys ← writeNpyLabels build py native tensor.keys
  let blocks ← saveBlocks build py native hash tensor.blocks 0
  return ("keys.npy", keys) :: blocks

end

end Equistore
