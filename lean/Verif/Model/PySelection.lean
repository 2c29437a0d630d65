import Verif.Model.PyLabels
import Verif.Model.CBuffers

/-!
# Selecting blocks in Python

Models `TensorMap.block`, `TensorMap.blocks`, `TensorMap.blocks_matching` and iteration in `equistore/tensor.py`. A
block of the tensor map is identified by its index.
-/

namespace Equistore

/-- A positional parameter of `TensorMap.block`. `equistore/tensor.py` lines 134-135 and 207-229. -/
inductive SelectionArg where
  /-- an instance of `int`; `True` and `False` are 1 and 0 -/
  | int (i : Int)
  /-- an instance of `Labels` -/
  | labels (v : PyLabels)
  /-- an entry of some labels with its names: `labels[i]` (an instance of `np.void`), or a named tuple from
  `as_namedtuples` -/
  | entry (values : List (String × LabelValue))
  /-- another named tuple, from `collections.namedtuple` or `typing.NamedTuple`, with integers -/
  | namedtuple (values : List (String × Int))
  /-- anything else -/
  | other
  deriving DecidableEq, Repr

/-- `np.array(values, dtype=np.int32)` for a list of integers. Numpy 2 raises an exception for integers which do not fit; before
(`wraps`), only the last 32 bits of integers fitting in 64 bits are kept. Used in `equistore/tensor.py` line 234. -/
def int32Array (wraps : Bool) (values : List Int) : Except PyExc (List LabelValue) :=
  if values.all fun x => -2147483648 ≤ x && x < 2147483648 then .ok (values.map Int32.ofInt)
  else if wraps && values.all fun x => -9223372036854775808 ≤ x && x < 9223372036854775808 then
    .ok (values.map Int32.ofInt)
  else .error .overflowError

/-- The labels made from keyword parameters, `equistore/tensor.py` lines 231-235. -/
def selectionOfKeywords (wraps : Bool) (kwargs : List (String × Int)) : Except PyExc PyLabels := do
  let values ← int32Array wraps (kwargs.map Prod.snd)
  PyLabels.new (kwargs.map Prod.fst) (.array true [1, kwargs.length] (values.map Int32.toInt)) none

/-- Whether `self.blocks_matching(**kwargs, __return_selection=...)` gives the same parameter twice, `equistore/tensor.py` lines
137-139, 187-189, 217-225. Python raises a `TypeError` for this. -/
def givenTwice (names : List String) : Bool :=
  names.contains "self" || names.contains "__return_selection"

/-- The selection in `blocks_matching`, `equistore/tensor.py` lines 205-235. Keyword parameters are not used if there is a
positional one. The method `as_dict` is added to named tuples in `as_namedtuples`: other named tuples do
not have it, unless this is the name of one of their fields, which is an integer and can not be called. -/
def pySelection (wraps : Bool) (args : List SelectionArg) (kwargs : List (String × Int)) : Except PyExc PyLabels :=
  match args with
  | [] => selectionOfKeywords wraps kwargs
  | [.labels v] => .ok v
  | [.entry values] =>
    if givenTwice (values.map Prod.fst) then .error .typeError
    else selectionOfKeywords wraps (values.map fun (name, value) => (name, value.toInt))
  | [.namedtuple values] => .error (if (values.map Prod.fst).contains "as_dict" then .typeError else .attributeError)
  | _ => .error .valueError

variable {A : Type} [ArrayLike A]

/-- The rest of `blocks_matching`, `equistore/tensor.py` lines 237-249: the size of the buffer is the number of keys. `none`
is undefined behaviour. -/
def pyMatching (t : TensorMap A) (selection : PyLabels) : Option (Except PyExc (List Nat)) :=
  match t.keys.toC with
  | .ok keys =>
    if selection.readable then
      match blocksMatchingC t selection.toC (List.replicate keys.count 0, keys.count) with
      | none => none
      | some ((buffer, count), .ok ()) => some (.ok (buffer.take count))
      | some (_, _) => some (.error .equistoreError)
    else none
  | _ => some (.error .equistoreError)

/-- `blocks_matching(*args, **kwargs, __return_selection=True)`, `equistore/tensor.py` lines 199-254, as called in lines
137-139 and 187-189. -/
def pyBlocksMatching (wraps : Bool) (t : TensorMap A) (args : List SelectionArg) (kwargs : List (String × Int)) :
    Option (Except PyExc (List Nat × PyLabels)) :=
  if givenTwice (kwargs.map Prod.fst) then some (.error .typeError)
  else
    match pySelection wraps args kwargs with
    | .error e => some (.error e)
    | .ok selection => (pyMatching t selection).map fun r => r.map fun blocks => (blocks, selection)

/-- `blocks_matching` called by the user, `equistore/tensor.py` lines 199-254: the selection is also returned if there is a keyword
parameter `__return_selection` which is not 0. -/
def pyBlocksMatchingUser (wraps : Bool) (t : TensorMap A) (args : List SelectionArg) (kwargs : List (String × Int)) :
    Option (Except PyExc (List Nat × Option PyLabels)) :=
  if (kwargs.map Prod.fst).contains "self" then some (.error .typeError)
  else
    let returnSelection := (kwargs.lookup "__return_selection").getD 0 != 0
    match pySelection wraps args (kwargs.filter fun p => p.1 != "__return_selection") with
    | .error e => some (.error e)
    | .ok selection =>
      (pyMatching t selection).map fun r => r.map fun blocks => (blocks, if returnSelection then some selection else none)

/-- `_get_block_by_id`, `equistore/tensor.py` lines 256-259, and `eqs_tensormap_block_by_id`, `src/c_api/tensor.rs` lines
170-182. Only the last 64 bits of an integer are given to a `c_uint64` parameter. -/
def pyBlockById (t : TensorMap A) (id : Int) : Except PyExc Nat :=
  let index := (id % 18446744073709551616).toNat
  if index < t.blocks.length then .ok index else .error .equistoreError

/-- The exception raised if no block or more than one block matches, `equistore/tensor.py` lines 141-151: the message needs
the first entry of the selection as a named tuple. -/
def noSingleMatch (selection : PyLabels) : PyExc :=
  match selection.asNamedtuples with
  | .error e => e
  | .ok [] => .stopIteration
  | .ok (_ :: _) => .valueError

/-- `TensorMap.block`, `equistore/tensor.py` lines 106-153. A keyword parameter `self` is given twice. -/
def pyBlock (wraps : Bool) (t : TensorMap A) (args : List SelectionArg) (kwargs : List (String × Int)) :
    Option (Except PyExc Nat) :=
  if (kwargs.map Prod.fst).contains "self" then some (.error .typeError) else
  match args with
  | .int id :: _ => some (pyBlockById t id)
  | _ =>
    (pyBlocksMatching wraps t args kwargs).map fun r => do
      let (blocks, selection) ← r
      match blocks with
      | [i] => pyBlockById t i
      | _ => .error (noSingleMatch selection)

/-- `TensorMap.blocks`, `equistore/tensor.py` lines 155-197. A keyword parameter `self` is given twice. -/
def pyBlocks (wraps : Bool) (t : TensorMap A) (args : List SelectionArg) (kwargs : List (String × Int)) :
    Option (Except PyExc (List Nat)) :=
  if (kwargs.map Prod.fst).contains "self" then some (.error .typeError) else
  match args with
  | .int id :: _ => some ((pyBlockById t id).map fun i => [i])
  | _ =>
    (pyBlocksMatching wraps t args kwargs).map fun r => do
      let (blocks, selection) ← r
      match blocks with
      | [] => .error (noSingleMatch selection)
      | blocks => blocks.mapM fun (i : Nat) => pyBlockById t i

/-- The property `keys`, `equistore/tensor.py` lines 99-104. -/
def pyKeys (t : TensorMap A) : Except PyExc PyLabels := do
  let keys ← pyCheck t.keys.toC
  PyLabels.ofC keys

/-- `__len__`, `equistore/tensor.py` lines 82-83. -/
def pyLen (t : TensorMap A) : Except PyExc Nat := do
  let keys ← pyKeys t
  return keys.count

/-- `__iter__` run to the end, `equistore/tensor.py` lines 77-80: each key with its names, and a block. -/
def pyIter (t : TensorMap A) : Except PyExc (List (List (String × LabelValue) × Nat)) := do
  let keys ← pyKeys t
  match keys.entries with
  | none => .error .exception
  | some entries => entries.zipIdx.mapM fun (key, i) => do
    let block ← pyBlockById t i
    return (keys.names.zip key, block)

end Equistore
