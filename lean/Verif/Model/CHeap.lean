import Verif.Model.CBlocks
import Verif.Model.KeysToProperties
import Verif.Model.Archive

/-!
# Objects behind the pointers of the C API

Models who owns the arrays, blocks and tensor maps behind the pointers of `src/c_api/blocks.rs`,
`src/c_api/tensor.rs` and `src/c_api/io.rs`, when arrays are destroyed and when a call accesses something
which does not exist (any more).
-/

namespace Equistore

/-- `eqs_array_t`, `src/data.rs` lines 72-165: the array `ptr` points to, and whether `destroy` is set. The
other callbacks are determined by the array. -/
structure CArray where
  ptr : Nat
  destroy : Bool
  deriving DecidableEq, Repr

/-- The callbacks of arrays which matter for the C API: those of `ArrayLike`, and `copy` (`none` when it is
`NULL` or fails). `ofNdArray` are the arrays made by `load`. `eqs_array_t`, `src/data.rs` lines 74-165. -/
class ArrayCallbacks (B : Type) extends ArrayLike B where
  copy : B → Option B
  ofNdArray : NdArray → B

/-- `Array::copy` for `ndarray`, `src/data.rs` lines 688-690. -/
instance : ArrayCallbacks NdArray where
  copy a := some a
  ofNdArray a := a

/-- An `eqs_array_t` inside of Rust functions, with the content of the array behind it. The handle is
`none` for the arrays created during this call. `src/data.rs` lines 74-165. -/
structure Live (B : Type) where
  handle : Option CArray
  content : B
  deriving DecidableEq, Repr

/-- The callbacks called through an `eqs_array_t`, `src/data.rs` lines 271-452: they only access the array
behind the pointer. -/
instance {B : Type} [ArrayLike B] : ArrayLike (Live B) where
  origin a := ArrayLike.origin a.content
  data a := ArrayLike.data a.content
  shape a := ArrayLike.shape a.content
  reshape a shape :=
    let r := ArrayLike.reshape a.content shape
    ({ a with content := r.1 }, r.2)
  swapAxes a axis₁ axis₂ :=
    let r := ArrayLike.swapAxes a.content axis₁ axis₂
    ({ a with content := r.1 }, r.2)
  create a shape := do
    let content ← ArrayLike.create a.content shape
    return { handle := none, content }
  moveSamplesFrom output input samples start stop :=
    let r := ArrayLike.moveSamplesFrom output.content input.content samples start stop
    ({ output with content := r.1 }, r.2)

/-! ### All the arrays of blocks and tensor maps -/

/-- Change each element of a list from left to right, with a state. Loops over blocks, for example `src/c_api/tensor.rs` lines 82-87. -/
def mapAccum {σ α β : Type} (f : σ → α → σ × β) : σ → List α → σ × List β
  | s, [] => (s, [])
  | s, a :: l =>
    let r := f s a
    let rest := mapAccum f r.1 l
    (rest.1, r.2 :: rest.2)

namespace BasicBlock
variable {A A' σ : Type}

/-- The same labels with another array. `BasicBlock`, `src/blocks.rs` lines 37-42. -/
def withData (b : BasicBlock A) (data : A') : BasicBlock A' :=
  { data, samples := b.samples, components := b.components, properties := b.properties }

end BasicBlock

namespace TensorBlock
variable {A A' σ : Type}

/-- The arrays of a block: values and gradients. `TensorBlock`, `src/blocks.rs` lines 178-183. -/
def arrays (b : TensorBlock A) : List A := b.values.data :: b.gradients.map fun g => g.2.data

/-- Change each of the arrays. `TensorBlock`, `src/blocks.rs` lines 178-183. -/
def mapData (f : A → A') (b : TensorBlock A) : TensorBlock A' where
  values := b.values.withData (f b.values.data)
  gradients := b.gradients.map fun g => (g.1, g.2.withData (f g.2.data))
  gradientParameters := b.gradientParameters

/-- Change each of the arrays, with a state. `TensorBlock`, `src/blocks.rs` lines 178-183. -/
def mapAccumData (f : σ → A → σ × A') (s : σ) (b : TensorBlock A) : σ × TensorBlock A' :=
  let values := f s b.values.data
  let gradients := mapAccum (fun s g =>
    let r := f s g.2.data
    (r.1, (g.1, g.2.withData r.2))) values.1 b.gradients
  (gradients.1,
    { values := b.values.withData values.2, gradients := gradients.2, gradientParameters := b.gradientParameters })

end TensorBlock

namespace TensorMap
variable {A A' σ : Type}

/-- The arrays of all the blocks. `TensorMap`, `src/tensor/mod.rs` lines 27-31. -/
def arrays (t : TensorMap A) : List A := t.blocks.flatMap TensorBlock.arrays

/-- Change each of the arrays. `TensorMap`, `src/tensor/mod.rs` lines 27-31. -/
def mapData (f : A → A') (t : TensorMap A) : TensorMap A' where
  keys := t.keys
  blocks := t.blocks.map (TensorBlock.mapData f)

/-- Change each of the arrays, with a state. `TensorMap`, `src/tensor/mod.rs` lines 27-31. -/
def mapAccumData (f : σ → A → σ × A') (s : σ) (t : TensorMap A) : σ × TensorMap A' :=
  let blocks := mapAccum (TensorBlock.mapAccumData f) s t.blocks
  (blocks.1, { keys := t.keys, blocks := blocks.2 })

end TensorMap

/-! ### The heap -/

/-- Everything behind the pointers. All addresses are different numbers; simplification: they are never used
again, so that a pointer to something which was freed stays invalid.
`eqs_block_t` and `eqs_tensormap_t`, `src/c_api/blocks.rs` lines 19-38 and `src/c_api/tensor.rs` lines 14-42. -/
structure Heap (B : Type) where
  /-- the arrays behind the `ptr` of `eqs_array_t` -/
  arrays : Nat → Option B
  /-- all the arrays which were ever created, in order -/
  created : List Nat
  /-- the calls to `destroy`, in order -/
  destroyed : List Nat
  /-- `Box<eqs_block_t>` -/
  blocks : Nat → Option (TensorBlock CArray)
  /-- `Box<eqs_tensormap_t>`, with the address of the `Vec` containing the blocks -/
  tensors : Nat → Option (TensorMap CArray × Nat)
  /-- the next unused address -/
  next : Nat

/-- Replace the value at one address. Used for all functions of `src/c_api/blocks.rs` and `src/c_api/tensor.rs` lines 63-359. -/
def setAt {α : Type} (f : Nat → Option α) (i : Nat) (x : Option α) : Nat → Option α :=
  fun j => if j = i then x else f j

/-- `*mut eqs_block_t`: `NULL`, a block which is owned by the caller, or the `index`-th block of a `Vec` in a
tensor map. `src/c_api/blocks.rs` lines 19-38, and `eqs_tensormap_block_by_id`, `src/c_api/tensor.rs` lines 170-187. -/
inductive BlockPtr where
  | null
  | owned (address : Nat)
  | inside (tensor vector index : Nat)
  deriving DecidableEq, Repr

namespace Heap
variable {B : Type}

/-- When the program starts. No function of `src/c_api/blocks.rs` lines 60-332 was called. -/
def empty : Heap B :=
  { arrays := fun _ => none, created := [], destroyed := [], blocks := fun _ => none,
    tensors := fun _ => none, next := 0 }

/-- Make an array. `eqs_array_t::new`, `src/data.rs` lines 218-236. -/
def createArray (h : Heap B) (content : B) : Heap B × CArray :=
  ({ h with arrays := setAt h.arrays h.next (some content), created := h.created ++ [h.next], next := h.next + 1 },
    { ptr := h.next, destroy := true })

/-- `Drop for eqs_array_t`, `src/data.rs` lines 192-198. Undefined behaviour if the array does not
exist. -/
def dropArray (h : Heap B) (a : CArray) : Option (Heap B) :=
  if a.destroy then
    match h.arrays a.ptr with
    | none => none
    | some _ => some { h with arrays := setAt h.arrays a.ptr none, destroyed := h.destroyed ++ [a.ptr] }
  else
    some h

/-- Drop some arrays. Simplification: in this order; Rust drops gradients in the order of their hash map.
`Drop` for `eqs_array_t`, `src/data.rs` lines 194-200. -/
def dropArrays : List CArray → Heap B → Option (Heap B)
  | [], h => some h
  | a :: l, h =>
    match h.dropArray a with
    | none => none
    | some h => dropArrays l h

/-- An array on which callbacks can be called: undefined behaviour if it does not exist.
The functions of `eqs_array_t`, `src/data.rs` lines 272-452. -/
def live (h : Heap B) (a : CArray) : Option (Live B) :=
  (h.arrays a.ptr).map fun content => { handle := some a, content }

/-- Write the array in the heap after a Rust function, with an address if it is new.
The array in a block at the end of the functions in `src/c_api/blocks.rs` lines 60-332. -/
def settle (h : Heap B) (a : Live B) : Heap B × CArray :=
  match a.handle with
  | some c => ({ h with arrays := setAt h.arrays c.ptr (some a.content) }, c)
  | none => h.createArray a.content

/-- A block with the content of its arrays: undefined behaviour if one of them does not exist.
`&*block` in `src/c_api/blocks.rs` lines 60-332. -/
def thawBlock [Inhabited B] (h : Heap B) (b : TensorBlock CArray) : Option (TensorBlock (Live B)) :=
  if b.arrays.all (fun a => (h.arrays a.ptr).isSome) then
    some (b.mapData fun a => { handle := some a, content := (h.arrays a.ptr).getD default })
  else
    none

/-- A tensor map with the content of its arrays: undefined behaviour if one of them does not exist.
`&*tensor` in `src/c_api/tensor.rs` lines 117-359. -/
def thawTensor [Inhabited B] (h : Heap B) (t : TensorMap CArray) : Option (TensorMap (Live B)) :=
  if t.arrays.all (fun a => (h.arrays a.ptr).isSome) then
    some (t.mapData fun a => { handle := some a, content := (h.arrays a.ptr).getD default })
  else
    none

/-- The end of a Rust function which had the arrays `before` and leaves a block behind: its arrays are
kept, all the others are dropped. The end of the functions in `src/c_api/blocks.rs` lines 60-332. -/
def commitBlock (h : Heap B) (before : List CArray) (b : TensorBlock (Live B)) :
    Option (Heap B × TensorBlock CArray) :=
  let r := b.mapAccumData settle h
  match dropArrays (before.filter fun a => a ∉ r.2.arrays) r.1 with
  | none => none
  | some h => some (h, r.2)

/-- The end of a Rust function which had the arrays `before` and leaves a tensor map behind: its arrays are
kept, all the others are dropped. The end of the functions in `src/c_api/tensor.rs` lines 117-359. -/
def commitTensor (h : Heap B) (before : List CArray) (t : TensorMap (Live B)) :
    Option (Heap B × TensorMap CArray) :=
  let r := t.mapAccumData settle h
  match dropArrays (before.filter fun a => a ∉ r.2.arrays) r.1 with
  | none => none
  | some h => some (h, r.2)

/-- `Box::into_raw(Box::new(block))`. `src/c_api/blocks.rs` lines 60-101 and 132-155. -/
def putBlock (h : Heap B) (b : TensorBlock CArray) : Heap B × Nat :=
  ({ h with blocks := setAt h.blocks h.next (some b), next := h.next + 1 }, h.next)

/-- `eqs_tensormap_t::into_boxed_raw`, `src/c_api/tensor.rs` lines 18-21. -/
def putTensor (h : Heap B) (t : TensorMap CArray) : Heap B × Nat :=
  ({ h with tensors := setAt h.tensors h.next (some (t, h.next + 1)), next := h.next + 2 }, h.next)

/-- The block behind a pointer which is not `NULL`: `none` if there is none. `&*block` in `src/c_api/blocks.rs` lines 132-332. -/
def block (h : Heap B) : BlockPtr → Option (TensorBlock CArray)
  | .null => none
  | .owned n => h.blocks n
  | .inside t vector i =>
    match h.tensors t with
    | none => none
    | some (tensor, v) => if v = vector then tensor.blocks[i]? else none

/-- Write to a block behind a pointer. `&mut *block` in `src/c_api/blocks.rs` lines 278-312. -/
def setBlock (h : Heap B) (b : TensorBlock CArray) : BlockPtr → Heap B
  | .null => h
  | .owned n => { h with blocks := setAt h.blocks n (some b) }
  | .inside t _ i =>
    match h.tensors t with
    | none => h
    | some (tensor, v) =>
      { h with tensors := setAt h.tensors t (some ({ tensor with blocks := tensor.blocks.set i b }, v)) }

/-- Write to a tensor map. `&mut *tensor` in `src/c_api/tensor.rs` lines 264-359. -/
def setTensor (h : Heap B) (t : TensorMap CArray) (address vector : Nat) : Heap B :=
  { h with tensors := setAt h.tensors address (some (t, vector)) }

end Heap

/-! ### Functions of the C API -/

section
variable {B : Type} [Inhabited B] [ArrayCallbacks B]

/-- What `check_pointers!` reports for a block, `src/c_api/status.rs` lines 84-99. -/
def nullBlock {α : Type} : Res α := checkPointer "block" none

/-- The conversions and the constructor in `eqs_block`, `src/c_api/blocks.rs` lines 70-80. -/
def blockOfC {A : Type} [ArrayLike A] (array : A) (samples : CLabels) (components : List CLabels)
    (properties : CLabels) : Res (TensorBlock A) := do
  let samples ← Labels.ofC samples
  let components ← components.mapM Labels.ofC
  let properties ← Labels.ofC properties
  TensorBlock.new array samples components properties

/-- `eqs_block` inside of `catch_unwind`, `src/c_api/blocks.rs` lines 69-88: the address of the block. The
array belongs to the function from the start, and is dropped when there is an error. -/
def eqsBlock (data : CArray) (samples : CLabels) (components : List CLabels) (properties : CLabels) :
    CAct (Heap B) Nat := fun h =>
  match h.live data with
  | none => none
  | some array =>
    match blockOfC array samples components properties with
    | .ok block =>
      match h.commitBlock [data] block with
      | none => none
      | some (h, block) =>
        let r := h.putBlock block
        some (r.1, .ok r.2)
    | .err e => (h.dropArrays [data]).map fun h => (h, .err e)
    | .panic m => (h.dropArrays [data]).map fun h => (h, .panic m)

/-- `eqs_block_free` inside of `catch_unwind`, `src/c_api/blocks.rs` lines 112-118. Only a pointer to a box can
be given to `Box::from_raw`. -/
def eqsBlockFree (block : BlockPtr) : CAct (Heap B) Unit := fun h =>
  match block with
  | .null => some (h, .ok ())
  | .inside _ _ _ => none
  | .owned n =>
    match h.blocks n with
    | none => none
    | some b => (h.dropArrays b.arrays).map fun h => ({ h with blocks := setAt h.blocks n none }, .ok ())

/-- `Clone for eqs_array_t`, `src/data.rs` lines 200-211. -/
def cloneArray (a : Live B) : Res (Live B) := do
  let content ← Res.expect (ArrayCallbacks.copy a.content) "calling eqs_array_t.copy failed"
  return { handle := none, content }

/-- `Clone for TensorBlock`, derived in `src/blocks.rs` lines 36 and 177. When the copy of one array fails,
the copies made before are dropped again; simplification: these are not part of the heap. -/
def cloneBlock (b : TensorBlock (Live B)) : Res (TensorBlock (Live B)) := do
  let values ← cloneArray b.values.data
  let gradients ← b.gradients.mapM fun g => do
    let data ← cloneArray g.2.data
    return (g.1, g.2.withData data)
  return { values := b.values.withData values, gradients, gradientParameters := b.gradientParameters }

/-- `eqs_block_copy` inside of `catch_unwind`, `src/c_api/blocks.rs` lines 137-147. -/
def eqsBlockCopy (block : BlockPtr) : CAct (Heap B) Nat := fun h =>
  if block = .null then some (h, nullBlock) else
  match h.block block with
  | none => none
  | some b =>
    match h.thawBlock b with
    | none => none
    | some b =>
      match cloneBlock b with
      | .ok copy =>
        match h.commitBlock [] copy with
        | none => none
        | some (h, copy) =>
          let r := h.putBlock copy
          some (r.1, .ok r.2)
      | .err e => some (h, .err e)
      | .panic m => some (h, .panic m)

/-- `eqs_block_labels` inside of `catch_unwind`, `src/c_api/blocks.rs` lines 183-217. -/
def eqsBlockLabels (block : BlockPtr) (name : Bytes) (axis : Nat) : CAct (Heap B) CLabels := fun h =>
  if block = .null then some (h, nullBlock) else
  match h.block block with
  | none => none
  | some b => some (h, blockLabels b name axis)

/-- `eqs_block_data` inside of `catch_unwind`, `src/c_api/blocks.rs` lines 239-256: the new value of `*data`.
`old` is the value before; the assignment drops it. The new value is made by `raw_copy`
(`src/data.rs` lines 238-251), which does not keep `destroy`. -/
def eqsBlockData (block : BlockPtr) (name : Bytes) (old : CArray) : CAct (Heap B) CArray := fun h =>
  if block = .null then some (h, nullBlock) else
  match h.block block with
  | none => none
  | some b =>
    match selectBasic b name with
    | .ok part => (h.dropArray old).map fun h => (h, .ok { ptr := part.data.ptr, destroy := false })
    | .err e => some (h, .err e)
    | .panic m => some (h, .panic m)

/-- The conversions and `add_gradient` in `eqs_block_add_gradient`, `src/c_api/blocks.rs` lines 287-297. -/
def addGradientOfC {A : Type} [ArrayLike A] (name : Option Bytes) (array : A) (samples : CLabels)
    (components : List CLabels) : Act (TensorBlock A) Unit := do
  let name ← Act.lift (checkPointer "parameter" name)
  let name ← Act.lift (Res.expect (cstrStr name) "called `Result::unwrap()` on an `Err` value")
  let samples ← Act.lift (Labels.ofC samples)
  let components ← Act.lift (components.mapM Labels.ofC)
  TensorBlock.addGradient name array samples components

/-- `eqs_block_add_gradient` inside of `catch_unwind`, `src/c_api/blocks.rs` lines 286-299. The array belongs
to the function from the start, also if another pointer is `NULL`; it is dropped unless it ended up in the
block. -/
def eqsBlockAddGradient (block : BlockPtr) (name : Option Bytes) (data : CArray) (samples : CLabels)
    (components : List CLabels) : CAct (Heap B) Unit := fun h =>
  if block = .null then (h.dropArrays [data]).map fun h => (h, nullBlock) else
  match h.block block with
  | none => none
  | some b =>
    match h.live data, h.thawBlock b with
    | some array, some liveBlock =>
      let r := addGradientOfC name array samples components liveBlock
      match h.commitBlock (b.arrays ++ [data]) r.1 with
      | none => none
      | some (h, b) => some (h.setBlock b block, r.2)
    | _, _ => none

/-- `eqs_block_gradients_list` inside of `catch_unwind`, `src/c_api/blocks.rs` lines 319-332. -/
def eqsBlockGradientsList (block : BlockPtr) : CAct (Heap B) (Option (List Bytes) × Nat) := fun h =>
  if block = .null then some (h, nullBlock) else
  match h.block block with
  | none => none
  | some b => some (h, .ok (blockGradientsList b))

/-- Move blocks out of their boxes, `src/c_api/tensor.rs` lines 83-88. Undefined behaviour for anything but a
pointer to a box which exists. -/
def takeBlocks : List BlockPtr → Heap B → Option (Heap B × List (TensorBlock CArray))
  | [], h => some (h, [])
  | .owned n :: rest, h =>
    match h.blocks n with
    | none => none
    | some b =>
      match takeBlocks rest { h with blocks := setAt h.blocks n none } with
      | none => none
      | some (h, blocks) => some (h, b :: blocks)
  | _ :: _, _ => none

/-- `eqs_tensormap` inside of `catch_unwind`, `src/c_api/tensor.rs` lines 70-96: the address of the tensor map,
and the pointers in the array of the caller afterwards. -/
def eqsTensormap (hash : HashOrder) (keys : CLabels) (blocks : List BlockPtr) (h : Heap B) :
    Option (Heap B × List BlockPtr × Res Nat) :=
  match Labels.ofC keys with
  | .err e => some (h, blocks, .err e)
  | .panic m => some (h, blocks, .panic m)
  | .ok keys =>
    if countDistinct blocks ≠ blocks.length then
      some (h, blocks, .err (.invalidParameter
        "got the same block more than once when constructing a tensor map"))
    else
      match takeBlocks blocks h with
      | none => none
      | some (h, moved) =>
        let nulls := blocks.map fun _ => BlockPtr.null
        let arrays := moved.flatMap TensorBlock.arrays
        match moved.mapM h.thawBlock with
        | none => none
        | some liveBlocks =>
          match TensorMap.new hash keys liveBlocks with
          | .ok tensor =>
            match h.commitTensor arrays tensor with
            | none => none
            | some (h, tensor) =>
              let r := h.putTensor tensor
              some (r.1, nulls, .ok r.2)
          | .err e => (h.dropArrays arrays).map fun h => (h, nulls, .err e)
          | .panic m => (h.dropArrays arrays).map fun h => (h, nulls, .panic m)

/-- `eqs_tensormap_free` inside of `catch_unwind`, `src/c_api/tensor.rs` lines 118-124. -/
def eqsTensormapFree (tensor : Option Nat) : CAct (Heap B) Unit := fun h =>
  match tensor with
  | none => some (h, .ok ())
  | some n =>
    match h.tensors n with
    | none => none
    | some (t, _) => (h.dropArrays t.arrays).map fun h => ({ h with tensors := setAt h.tensors n none }, .ok ())

/-- What `check_pointers!` reports for a tensor map, `src/c_api/status.rs` lines 84-99. -/
def nullTensor {α : Type} : Res α := checkPointer "tensor" none

/-- `eqs_tensormap_keys` inside of `catch_unwind`, `src/c_api/tensor.rs` lines 145-150. -/
def eqsTensormapKeys (tensor : Option Nat) : CAct (Heap B) CLabels := fun h =>
  match tensor with
  | none => some (h, nullTensor)
  | some n =>
    match h.tensors n with
    | none => none
    | some (t, _) => some (h, t.keys.toC)

/-- `eqs_tensormap_block_by_id` inside of `catch_unwind`, `src/c_api/tensor.rs` lines 175-181: the new value of
`*block`. -/
def eqsTensormapBlockById (tensor : Option Nat) (index : Nat) : CAct (Heap B) BlockPtr := fun h =>
  match tensor with
  | none => some (h, nullTensor)
  | some n =>
    match h.tensors n with
    | none => none
    | some (t, vector) =>
      if index < t.blocks.length then
        some (h, .ok (.inside n vector index))
      else
        some (h, .panic "index out of bounds")

/-- `eqs_tensormap_blocks_matching` inside of `catch_unwind`, `src/c_api/tensor.rs` lines 211-223, with a
buffer which is large enough: the indexes written (see `blocksMatchingC` for the buffer). The arrays are not
accessed, they only have to be there because of the types in the model. -/
def eqsBlocksMatching (tensor : Option Nat) (selection : CLabels) : CAct (Heap B) (List Nat) := fun h =>
  match tensor with
  | none => some (h, nullTensor)
  | some n =>
    match h.tensors n with
    | none => none
    | some (t, _) =>
      match h.thawTensor t with
      | none => none
      | some t => some (h, do
        let selection ← Labels.ofC selection
        t.blocksMatching selection)

/-- The structure of `eqs_tensormap_keys_to_properties`, `eqs_tensormap_components_to_properties` and
`eqs_tensormap_keys_to_samples`: run a function on the tensor map. If it succeeds and `replaces` is true, the
blocks are in another `Vec` afterwards. `src/c_api/tensor.rs` lines 264-277, 295-314 and 346-359. -/
def modifyTensor (tensor : Option Nat) (replaces : Bool) (action : Act (TensorMap (Live B)) Unit) :
    CAct (Heap B) Unit := fun h =>
  match tensor with
  | none => some (h, nullTensor)
  | some n =>
    match h.tensors n with
    | none => none
    | some (t, vector) =>
      match h.thawTensor t with
      | none => none
      | some liveTensor =>
        let r := action liveTensor
        match h.commitTensor t.arrays r.1 with
        | none => none
        | some (h, t) =>
          if replaces ∧ r.2 = .ok () then
            some ({ h.setTensor t n h.next with next := h.next + 1 }, r.2)
          else
            some (h.setTensor t n vector, r.2)

/-- `eqs_tensormap_keys_to_properties` inside of `catch_unwind`, `src/c_api/tensor.rs` lines 269-276. -/
def eqsKeysToProperties (build : Build) (hash : HashOrder) (tensor : Option Nat) (keysToMove : CLabels)
    (sort : Bool) : CAct (Heap B) Unit :=
  modifyTensor tensor true do
    let keysToMove ← Act.lift (Labels.ofC keysToMove)
    TensorMap.keysToProperties build hash keysToMove sort

/-- `eqs_tensormap_keys_to_samples` inside of `catch_unwind`, `src/c_api/tensor.rs` lines 351-358. -/
def eqsKeysToSamples (build : Build) (hash : HashOrder) (tensor : Option Nat) (keysToMove : CLabels)
    (sort : Bool) : CAct (Heap B) Unit :=
  modifyTensor tensor true do
    let keysToMove ← Act.lift (Labels.ofC keysToMove)
    TensorMap.keysToSamples build hash keysToMove sort

/-- One of the names given to `eqs_tensormap_components_to_properties`, `src/c_api/tensor.rs` lines
305-307. -/
def variableName (pointer : Option Bytes) : Res String := do
  let memory ← checkPointer "variable" pointer
  Res.expect (cstrStr memory) "invalid utf8"

/-- `eqs_tensormap_components_to_properties` inside of `catch_unwind`, `src/c_api/tensor.rs` lines
300-313. -/
def eqsComponentsToProperties (hash : HashOrder) (tensor : Option Nat) (names : List (Option Bytes)) :
    CAct (Heap B) Unit :=
  modifyTensor tensor false do
    let names ← Act.lift (names.mapM variableName)
    TensorMap.componentsToProperties hash names

/-- `eqs_tensormap_load` inside of `catch_unwind`, `src/c_api/io.rs` lines 25-37, for a file with the given
content: the address of the tensor map. Simplification: arrays made before an error are not part of the
heap. -/
def eqsTensormapLoad (build : Build) (py : PyLiteral) (hash hash' : HashOrder) (archive : Archive) :
    CAct (Heap B) Nat := fun h =>
  match load build py hash hash' archive with
  | .ok tensor =>
    match h.commitTensor [] (tensor.mapData fun a => { handle := none, content := ArrayCallbacks.ofNdArray a }) with
    | none => none
    | some (h, tensor) =>
      let r := h.putTensor tensor
      some (r.1, .ok r.2)
  | .err e => some (h, .err e)
  | .panic m => some (h, .panic m)

/-- `eqs_tensormap_save` inside of `catch_unwind`, `src/c_api/io.rs` lines 63-70: what is written. -/
def eqsTensormapSave (build : Build) (py : PyLiteral) (native : Endian) (hash : HashOrder) (tensor : Option Nat) :
    CAct (Heap B) Archive := fun h =>
  match tensor with
  | none => some (h, nullTensor)
  | some n =>
    match h.tensors n with
    | none => none
    | some (t, _) =>
      match h.thawTensor t with
      | none => none
      | some t => some (h, save build py native hash t)

end

end Equistore
