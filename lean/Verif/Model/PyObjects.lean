import Verif.Spec.Ownership

/-!
# The Python classes `TensorBlock` and `TensorMap`

Models the objects of `equistore/block.py`, `equistore/tensor.py` and `equistore/data.py`: which pointers they
have, who keeps whom alive, and which functions of the C API their methods call. The C API itself is the model in
`Verif/Model/CHeap.lean`, through `Spec.Call.run`.
-/

namespace Equistore
open Spec

/-- `TensorBlock`, `equistore/block.py` lines 37-91: the attributes `_ptr`, `_owning` and `_parent` (a
`TensorMap`), and the arrays whose `ArrayWrapper` is in `_values` or `_gradients`. -/
structure PyBlock where
  ptr : BlockPtr
  owning : Bool
  parent : Option Nat
  arrays : List Nat
  deriving DecidableEq, Repr

/-- `TensorMap`, `equistore/tensor.py` lines 33-71: the attributes `_ptr` and `_blocks`. The latter is a Python
list, which the user may also have. -/
structure PyTensor where
  ptr : Option Nat
  blocks : Nat
  deriving DecidableEq, Repr

/-- The Python objects, and what is behind the pointers of the C API. Simplification: objects are deleted one by
one, when the user drops the last reference to them, and their identities are never used again.
`equistore/block.py` lines 18-100, `equistore/tensor.py` lines 13-75 and `equistore/data.py` lines 159-203. -/
structure PyState (B : Type) where
  heap : Heap B
  /-- the `TensorBlock` objects -/
  blocks : Nat → Option PyBlock
  /-- the `TensorMap` objects -/
  tensors : Nat → Option PyTensor
  /-- the lists of `TensorBlock` objects -/
  lists : List (List Nat)
  /-- for an array which is an `ArrayWrapper` object, all the `ArrayWrapper` objects which keep it alive: the
  object itself, the one which has it in `_children`, and so on (`equistore/data.py` lines 159-202 and 282).
  Empty for the arrays which are not made by Python. -/
  keepers : Nat → List Nat
  /-- the `ArrayWrapper` objects which have been garbage collected, with the memory of their callbacks -/
  collected : List Nat
  /-- whether the cyclic garbage collector is enabled -/
  gcEnabled : Bool
  /-- the next unused identity of an object -/
  next : Nat

/-- What a method returns. `equistore/block.py` lines 166-295 and `equistore/tensor.py` lines 99-359. -/
inductive PyReply where
  | done
  | block (b : Nat)
  | tensor (t : Nat)
  | list (i : Nat)
  /-- there was an exception -/
  | raised
  deriving DecidableEq, Repr

/-- Python statements: calls of the methods of `TensorBlock` and `TensorMap`, changes to lists, dropping the last
reference to an object, and runs of the garbage collector (which may collect some or all of the
`ArrayWrapper` objects which are garbage). `equistore/block.py` lines 37-295 and `equistore/tensor.py` lines 33-359. -/
inductive PyCall (B : Type) where
  | newBlock (values : B) (samples : CLabels) (components : List CLabels) (properties : CLabels)
  | copyBlock (b : Nat)
  | deleteBlock (b : Nat)
  | labels (b : Nat) (name : Bytes) (axis : Nat)
  | data (b : Nat) (name : Bytes)
  | gradientsList (b : Nat)
  | addGradient (b : Nat) (parameter : Bytes) (data : B) (samples : CLabels) (components : List CLabels)
  | newList (blocks : List Nat)
  | setList (i : Nat) (blocks : List Nat)
  | newTensor (keys : CLabels) (blocks : Nat)
  | deleteTensor (t : Nat)
  | keys (t : Nat)
  | block (t : Nat) (index : Nat)
  | blocksMatching (t : Nat) (selection : CLabels)
  | keysToProperties (t : Nat) (keysToMove : CLabels) (sort : Bool) (parents : Nat → Nat)
  | keysToSamples (t : Nat) (keysToMove : CLabels) (sort : Bool) (parents : Nat → Nat)
  | componentsToProperties (t : Nat) (names : List (Option Bytes)) (parents : Nat → Nat)
  | load (archive : Archive)
  | save (t : Nat)
  | collect (choice : Nat → Bool)

/-- The addresses of some arrays. `eqs_array_t.ptr`, `equistore/data.py` lines 176-179. -/
def arrayIds (l : List CArray) : List Nat := l.map (·.ptr)

/-- The arrays of the block behind a pointer. `eqs_array_t.ptr`, `equistore/data.py` lines 176-179. -/
def blockIds {B : Type} (h : Heap B) (q : BlockPtr) : List Nat :=
  match h.block q with
  | none => []
  | some b => arrayIds b.arrays

/-- The arrays of a tensor map. `eqs_array_t.ptr`, `equistore/data.py` lines 176-179. -/
def tensorIds {B : Type} (h : Heap B) (t : Option Nat) : List Nat :=
  match t with
  | none => []
  | some n =>
    match h.tensors n with
    | none => []
    | some (t, _) => arrayIds t.arrays

/-- The arrays whose callbacks a call may use. Simplification: all those of the blocks and tensor maps it gets;
some functions use less, e.g. `eqs_block_labels`. The callbacks in `equistore/data.py` lines 210-325. -/
def touched {B : Type} (h : Heap B) : Call B → List Nat
  | .arrayNew _ | .load _ => []
  | .arrayDestroy a => [a.ptr]
  | .arrayWrite (.own a) _ | .arrayWrite (.view _ a) _ => [a]
  | .block data _ _ _ => [data.ptr]
  | .blockFree b | .blockCopy b | .blockLabels b _ _ | .blockData b _ _ | .blockGradientsList b => blockIds h b
  | .blockAddGradient b _ data _ _ => data.ptr :: blockIds h b
  | .tensormap _ blocks => blocks.flatMap (blockIds h)
  | .tensormapFree t | .tensormapKeys t | .tensormapBlockById t _ | .tensormapBlocksMatching t _
  | .keysToProperties t _ _ | .keysToSamples t _ _ | .componentsToProperties t _ | .save t => tensorIds h t

namespace PyState
variable {B : Type}

/-- When Python starts. `equistore/block.py` lines 18-100. -/
def empty : PyState B :=
  { heap := Heap.empty, blocks := fun _ => none, tensors := fun _ => none, lists := [], keepers := fun _ => [],
    collected := [], gcEnabled := true, next := 0 }

/-- Whether an array is an `ArrayWrapper` which can be reached from an object.
`_values` in `equistore/block.py` lines 56-58 and `_children` in `equistore/data.py` lines 166 and 282. -/
def reachable (s : PyState B) (a : Nat) : Bool :=
  (s.keepers a).any fun x => (List.range s.next).any fun b =>
    match s.blocks b with
    | none => false
    | some o => o.arrays.contains x

/-- A new `TensorBlock` object. `equistore/block.py` lines 37-91. -/
def putBlock (s : PyState B) (o : PyBlock) : PyState B × PyReply :=
  ({ s with blocks := setAt s.blocks s.next (some o), next := s.next + 1 }, .block s.next)

/-- A new `TensorMap` object. `equistore/tensor.py` lines 33-71. -/
def putTensor (s : PyState B) (o : PyTensor) : PyState B × PyReply :=
  ({ s with tensors := setAt s.tensors s.next (some o), next := s.next + 1 }, .tensor s.next)

/-- Make an array the child of no other (`parent` is `none`) or of another `ArrayWrapper`.
`storage._children.append(wrapper)`, `equistore/data.py` line 282. -/
def keep (s : PyState B) (a : Nat) (parents : List Nat) : PyState B :=
  { s with keepers := fun x => if x = a then a :: parents else s.keepers x }

/-- The arrays which were created by a function that had the arrays `before` and leaves the arrays `after`:
they are made by the `create` callback of one of the arrays, `_eqs_array_create` in `equistore/data.py` lines
268-284, and become its children. `parents` chooses which one. -/
def adopt (parents : Nat → Nat) (before after : List Nat) (s : PyState B) : PyState B :=
  { s with keepers := fun x =>
      if x ∈ after ∧ x ∉ before then
        match if parents x ∈ before then some (parents x) else before.head? with
        | none => []
        | some q => if s.keepers q = [] then [] else x :: s.keepers q
      else s.keepers x }

/-- The loop in `TensorMap.__init__`, `equistore/tensor.py` lines 45-52: false if it raises. -/
def claim : List Nat → PyState B → PyState B × Bool
  | [], s => (s, true)
  | b :: rest, s =>
    match s.blocks b with
    | none => (s, false)
    | some o =>
      if o.owning then
        claim rest { s with blocks := setAt s.blocks b (some { o with ptr := .null }) }
      else
        (s, false)

/-- Whether an object is in a list. `self._blocks = blocks`, `equistore/tensor.py` lines 54-56. -/
def inList (s : PyState B) (b : Nat) : Bool := s.lists.any (·.contains b)

/-- Whether an object is the `_parent` of a `TensorBlock`. `obj._parent = parent`, `equistore/block.py` line 90. -/
def isParent (s : PyState B) (t : Nat) : Bool :=
  (List.range s.next).any fun b =>
    match s.blocks b with
    | none => false
    | some o => o.parent = some t

variable [Inhabited B] [ArrayCallbacks B]

/-- Call a function of the C API: undefined behaviour if it uses the callbacks of an array which does not exist
any more. `self._lib.eqs_...` in `equistore/block.py` lines 64-385 and `equistore/tensor.py` lines 58-345. -/
def call (p : Platform) (c : Call B) (s : PyState B) : Option (PyState B × Reply) :=
  if (touched s.heap c).any (s.collected.contains ·) then none else
  match c.run p s.heap with
  | none => none
  | some (h, r) => some ({ s with heap := h }, r)

/-- A method of a `TensorMap` which changes it: `equistore/tensor.py` lines 296-299, 326-330, 339-343. -/
def modify (p : Platform) (parents : Nat → Nat) (t : Nat) (c : Option Nat → Call B) (s : PyState B) :
    Option (PyState B × PyReply) := do
  match s.tensors t with
  | none => return (s, .raised)
  | some o =>
    let before := tensorIds s.heap o.ptr
    let (s, r) ← s.call p (c o.ptr)
    let s := s.adopt parents before (tensorIds s.heap o.ptr)
    match r with
    | .done (.ok _) => return (s, .done)
    | _ => return (s, .raised)

end PyState

/-- One of the methods which only look at a block. `equistore/block.py` lines 166-295. -/
def PyCall.readBlock {B : Type} [Inhabited B] [ArrayCallbacks B] (p : Platform) (b : Nat) (c : BlockPtr → Call B)
    (s : PyState B) : Option (PyState B × PyReply) := do
  match s.blocks b with
  | none => return (s, .raised)
  | some o =>
    let (s, r) ← s.call p (c o.ptr)
    match r with
    | .array (.err _) | .array (.panic _) => return (s, .raised)
    | _ => return (s, if o.ptr = .null then .raised else .done)

/-- One of the methods which only look at a tensor map. `equistore/tensor.py` lines 99-260. -/
def PyCall.readTensor {B : Type} [Inhabited B] [ArrayCallbacks B] (p : Platform) (t : Nat) (c : Option Nat → Call B)
    (s : PyState B) : Option (PyState B × PyReply) := do
  match s.tensors t with
  | none => return (s, .raised)
  | some o =>
    let (s, _) ← s.call p (c o.ptr)
    return (s, .done)

/-- Run one statement, `none` for undefined behaviour. Statements about objects which do not exist do
nothing.

- `newBlock`: `TensorBlock.__init__`, `equistore/block.py` lines 54-73;
- `copyBlock`: `TensorBlock.__deepcopy__`, lines 98-129. Simplification: the loop over
  `self.gradients_list()` is replaced by all the arrays of the copy;
- `deleteBlock`: `TensorBlock.__del__`, lines 93-96. Objects in a list are still referenced, and are not
  deleted. Simplification: all lists exist forever, the user has to empty them;
- `labels`, `data`, `gradientsList`: lines 166-219, 269-279, 331-386 and 389-392;
- `addGradient`: lines 253-267;
- `newTensor`: `TensorMap.__init__`, `equistore/tensor.py` lines 38-61;
- `deleteTensor`: `TensorMap.__del__`, lines 73-75. Not deleted when it is the parent of some block;
- `keys`: lines 99-104, `block`: lines 256-259, `blocksMatching`: lines 237-254. Simplification: whether the
  selection is valid is not part of the outcome;
- `keysToProperties`, `keysToSamples`, `componentsToProperties`: lines 261-343;
- `load`: `equistore/io.py` lines 29-30 with `TensorMap._from_ptr`, `equistore/tensor.py` lines 63-71;
- `save`: `equistore/io.py` lines 56-57.
-/
def PyCall.run {B : Type} [Inhabited B] [ArrayCallbacks B] (p : Platform) (s : PyState B) :
    PyCall B → Option (PyState B × PyReply)
  | .newBlock values samples components properties => do
    let (s, r) ← s.call p (.arrayNew values)
    match r with
    | .array (.ok a) =>
      let s := s.keep a.ptr []
      let (s, r) ← s.call p (.block a samples components properties)
      match r with
      | .block (.ok n) => return s.putBlock { ptr := .owned n, owning := true, parent := none, arrays := [a.ptr] }
      | _ => return (s, .raised)
    | _ => return (s, .raised)
  | .copyBlock b => do
    match s.blocks b with
    | none => return (s, .raised)
    | some o =>
      let reset := s.gcEnabled
      let before := blockIds s.heap o.ptr
      let (s, r) ← s.call p (.blockCopy o.ptr)
      match r with
      | .block (.ok n) =>
        let arrays := blockIds s.heap (.owned n)
        let s := { s with
          keepers := fun x =>
            match (before.zip arrays).find? (fun y : Nat × Nat => y.2 = x) with
            | none => s.keepers x
            | some y => if s.keepers y.1 = [] then [] else [x]
          gcEnabled := reset }
        return s.putBlock { ptr := .owned n, owning := true, parent := none, arrays }
      | _ => return ({ s with gcEnabled := false }, .raised)
  | .deleteBlock b => do
    match s.blocks b with
    | none => return (s, .raised)
    | some o =>
      if s.inList b then return (s, .done) else
      let s := { s with blocks := setAt s.blocks b none }
      if o.owning then
        let (s, _) ← s.call p (.blockFree o.ptr)
        return (s, .done)
      else
        return (s, .done)
  | .labels b name axis => PyCall.readBlock p b (.blockLabels · name axis) s
  | .data b name => PyCall.readBlock p b (.blockData · name { ptr := 0, destroy := false }) s
  | .gradientsList b => PyCall.readBlock p b .blockGradientsList s
  | .addGradient b parameter content samples components => do
    match s.blocks b with
    | none => return (s, .raised)
    | some o =>
      let (s, r) ← s.call p (.arrayNew content)
      match r with
      | .array (.ok a) =>
        let s := s.keep a.ptr []
        let s := { s with blocks := setAt s.blocks b (some { o with arrays := o.arrays ++ [a.ptr] }) }
        let (s, r) ← s.call p (.blockAddGradient o.ptr (some parameter) a samples components)
        match r with
        | .done (.ok _) => return (s, .done)
        | _ => return (s, .raised)
      | _ => return (s, .raised)
  | .newList blocks =>
    return ({ s with lists := s.lists ++ [blocks.filter fun b => (s.blocks b).isSome] }, .list s.lists.length)
  | .setList i blocks =>
    return ({ s with lists := s.lists.set i (blocks.filter fun b => (s.blocks b).isSome) }, .done)
  | .newTensor names i => do
    match s.lists[i]? with
    | none => return (s, .raised)
    | some blocks =>
      let pointers := blocks.map fun b => ((s.blocks b).map (·.ptr)).getD .null
      let (s, claimed) := s.claim blocks
      if claimed then
        let (s, r) ← s.call p (.tensormap names pointers)
        match r with
        | .newTensor (.ok n) _ => return s.putTensor { ptr := some n, blocks := i }
        | _ => return (s, .raised)
      else
        return (s, .raised)
  | .deleteTensor t => do
    match s.tensors t with
    | none => return (s, .raised)
    | some o =>
      if s.isParent t then return (s, .done) else
      let s := { s with tensors := setAt s.tensors t none }
      let (s, _) ← s.call p (.tensormapFree o.ptr)
      return (s, .done)
  | .keys t => PyCall.readTensor p t .tensormapKeys s
  | .block t index => do
    match s.tensors t with
    | none => return (s, .raised)
    | some o =>
      let (s, r) ← s.call p (.tensormapBlockById o.ptr index)
      match r with
      | .blockPtr (.ok q) => return s.putBlock { ptr := q, owning := false, parent := some t, arrays := [] }
      | _ => return (s, .raised)
  | .blocksMatching t selection => PyCall.readTensor p t (.tensormapBlocksMatching · selection) s
  | .keysToProperties t keysToMove sort parents => s.modify p parents t (.keysToProperties · keysToMove sort)
  | .keysToSamples t keysToMove sort parents => s.modify p parents t (.keysToSamples · keysToMove sort)
  | .componentsToProperties t names parents => s.modify p parents t (.componentsToProperties · names)
  | .load archive => do
    let (s, r) ← s.call p (.load archive)
    match r with
    | .tensor (.ok n) =>
      return { s with lists := s.lists ++ [[]] }.putTensor { ptr := some n, blocks := s.lists.length }
    | _ => return (s, .raised)
  | .save t => PyCall.readTensor p t .save s
  | .collect choice =>
    return ({ s with
      collected := s.collected ++ (List.range s.heap.next).filter fun a =>
        choice a && !(s.keepers a).isEmpty && !s.reachable a }, .done)

end Equistore
