import Verif.Model.CLabels

/-!
# Labels in Python

Models the class `Labels` of `equistore/labels.py`. It is a subclass of `np.ndarray`: one-dimensional arrays
with one `int32` field per name.

What numpy does is part of the trusted base: the conversion of integers, the names of fields, indexing with slices, lists of
positions and lists of names, `view` and `reshape`.
-/

namespace Equistore

/-- Exceptions raised by the Python code. Messages are not modelled.
Raised in `equistore/labels.py` lines 59-113 and 205-236, and by numpy. -/
inductive PyExc where
  | typeError
  | valueError
  | keyError
  | indexError
  | overflowError
  | stopIteration
  | assertionError
  | attributeError
  /-- `Exception` itself -/
  | exception
  /-- `EquistoreError`, `equistore/status.py` lines 8-18 -/
  | equistoreError
  deriving DecidableEq, Repr

/-- A call to the C API: `_check_status`, `equistore/status.py` lines 29-38, raises an exception for all
failures. Simplification: see `catchUnwind` for failures which can not be reported. -/
def pyCheck {α : Type} : Res α → Except PyExc α
  | .ok a => .ok a
  | .err _ => .error .equistoreError
  | .panic _ => .error .equistoreError

/-- The parameter `values` of `Labels`: something else than an array, or an array with the given
shape and elements (in row-major order). `integers` tells whether the elements are booleans or integers with any number of
bits (otherwise `elements` has no meaning). `equistore/labels.py` lines 59-68. -/
inductive ValuesArg where
  | other
  | array (integers : Bool) (shape : List Nat) (elements : List Int)
  deriving DecidableEq, Repr

/-- An instance of `Labels`, `equistore/labels.py` lines 11-115. This is a view into some memory, where
everything is counted in elements of 4 bytes. Simplification: all memory behind an array is initialized, and writing to it is not
modelled here, see `Model/LabelsMemory.lean`. Labels without names are arrays of shape `(count, 0)`. -/
structure PyLabels where
  /-- memory of the array this is a view of -/
  memory : List LabelValue
  /-- position of the first entry in this memory -/
  start : Nat
  /-- distance between an entry and the next one -/
  stride : Int
  /-- number of entries -/
  count : Nat
  /-- `dtype.itemsize` -/
  itemsize : Nat
  /-- names and offsets of the fields, from the `dtype` -/
  fields : List (String × Nat)
  /-- `_eqs_labels` -/
  eqsLabels : Option CLabels
  deriving DecidableEq, Repr

/-- Names of fields in a numpy `dtype`: an empty name is replaced by `f` and its position. Used for `equistore/labels.py` lines 91-94. -/
def fieldNames (names : List String) : List String :=
  names.zipIdx.map fun (name, i) => if name = "" then "f" ++ toString i else name

namespace PyLabels

/-- Property `names`, `equistore/labels.py` lines 124-127. -/
def names (v : PyLabels) : List String := v.fields.map Prod.fst

/-- `labels[i][name]` for the field with this offset: `none` if this is outside of the memory.
Used for `equistore/labels.py` lines 160-161. -/
def read (v : PyLabels) (i offset : Nat) : Option LabelValue :=
  let position : Int := v.start + i * v.stride + offset
  if 0 ≤ position then v.memory[position.toNat]? else none

/-- All the entries, `[tuple(e) for e in labels]`: `none` if one of them is outside of the memory.
Used for `equistore/labels.py` lines 160-161. -/
def entries (v : PyLabels) : Option (List (List LabelValue)) :=
  (List.range v.count).mapM fun i => v.fields.mapM fun f => v.read i f.2

/-- A view into a whole contiguous array of shape `(count, names.length)`: `values.view(dtype=dtype)`,
`equistore/labels.py` lines 90-93. -/
def ofMemory (names : List String) (memory : List LabelValue) (count : Nat) (eqsLabels : Option CLabels) :
    PyLabels :=
  { memory, start := 0, stride := names.length, count, itemsize := names.length, fields := names.zipIdx, eqsLabels }

/-- `Labels.__new__`, `equistore/labels.py` lines 59-113. With `casting="same_kind"` all integers are accepted, and
only the last 32 bits are kept. The names of a `dtype` must be different from each other. Simplifications: names are already
strings; `_parent` is not modelled; the new labels do not share their memory with `values` (the code does not make a copy if
`values` is a contiguous array of `int32`, see `Model/LabelsMemory.lean`). -/
def new (names : List String) (values : ValuesArg) (eqsLabels : Option CLabels) : Except PyExc PyLabels :=
  match values with
  | .other => .error .valueError
  | .array integers shape elements =>
    match shape with
    | [count, size] =>
      if names.length ≠ size then .error .valueError
      else if !integers then .error .typeError
      else
        let memory := elements.map Int32.ofInt
        if size = 0 then .ok (ofMemory [] memory count eqsLabels)
        else if !decide (fieldNames names).Nodup then .error .valueError
        else if eqsLabels.isNone && countDistinct (chunksExact size memory) != count then .error .valueError
        else .ok (ofMemory (fieldNames names) memory count eqsLabels)
    | _ => .error .valueError

/-- `_as_eqs_labels_t`, `equistore/labels.py` lines 161-177. The pointer to the values is the start of the array, and
the strides and offsets are not used. -/
def toC (v : PyLabels) : CLabels :=
  { labelsPtr := none, names := some (v.names.map cstring), values := some (v.memory.drop v.start),
    size := v.names.length, count := v.count }

/-- What the library reads for some labels, `src/c_api/labels.rs` lines 43-61, is inside of their memory. -/
def readable (v : PyLabels) : Bool :=
  v.count * v.names.length ≤ (v.memory.drop v.start).length

/-- `_from_eqs_labels_t`, `equistore/labels.py` lines 179-203. The memory read at the pointers is what the library
put there. -/
def ofC (c : CLabels) : Except PyExc PyLabels := do
  let names ← pyCheck (((c.names.getD []).take c.size).mapM decodeName)
  if c.count ≠ 0 then
    let elements := ((c.values.getD []).take (c.count * c.size)).map Int32.toInt
    new names (.array true [c.count, c.size] elements) (some c)
  else
    new names (.array true [0, names.length] []) none

/-- `position`, `equistore/labels.py` lines 205-237. `ctypes.c_int32(v)` only keeps the last 32 bits
of an integer. -/
def position (v : PyLabels) (label : List Int) : Except PyExc (Option Nat) :=
  match v.eqsLabels with
  | none => .error .exception
  | some c => do
    let result ← pyCheck (labelsPosition c (label.map Int32.ofInt) label.length)
    return if result ≥ 0 then some result.toNat else none

/-- `__contains__`, `equistore/labels.py` lines 243-244. -/
def contains (v : PyLabels) (label : List Int) : Except PyExc Bool := do
  return (← v.position label).isSome

/-- `asarray`, `equistore/labels.py` lines 239-241: the rows of the array. `view` raises an exception if the size of the elements
changes and the array is not contiguous, and `reshape` if there are no rows. -/
def asarray (v : PyLabels) : Except PyExc (List (List LabelValue)) :=
  if v.count = 0 then .error .valueError
  else if v.fields.isEmpty then .ok (List.replicate v.count [])
  else if v.itemsize ≠ 1 ∧ 1 < v.count ∧ v.stride ≠ v.itemsize then .error .valueError
  else
    match (List.range v.count).mapM fun i => (List.range v.itemsize).mapM fun j => v.read i j with
    | some rows => .ok rows
    | none => .error .exception

/-- `Labels.single`, `equistore/labels.py` lines 129-136. -/
def single : Except PyExc PyLabels := new ["_"] (.array true [1, 1] [0]) none

/-- Keywords of Python 3.7 and later, `keyword.kwlist`. Used by `namedtuple`, `equistore/labels.py` line 157. -/
def keywords : List String :=
  ["False", "None", "True", "and", "as", "assert", "async", "await", "break", "class", "continue", "def", "del", "elif",
   "else", "except", "finally", "for", "from", "global", "if", "import", "in", "is", "lambda", "nonlocal", "not", "or",
   "pass", "raise", "return", "try", "while", "with", "yield"]

/-- `as_namedtuples` run to the end, `equistore/labels.py` lines 138-159. `collections.namedtuple` raises an exception
for names which are keywords or start with an underscore. Simplification: it also does for names which are not identifiers, where
identifiers of Python with other characters than ASCII are not considered. -/
def asNamedtuples (v : PyLabels) : Except PyExc (List (List (String × LabelValue))) :=
  if v.names.any fun name => !isValidLabelName name || keywords.contains name || name.startsWith "_" then
    .error .valueError
  else
    match v.entries with
    | some entries => .ok (entries.map fun entry => v.names.zip entry)
    | none => .error .exception

end PyLabels

/-! ### Indexing -/

/-- `labels[...]` giving labels again. `equistore/labels.py` lines 32-39 (documentation) and 115-122. -/
inductive LabelsIndex where
  /-- `labels[start:stop:step]`, where each part can be missing -/
  | slice (start stop step : Option Int)
  /-- `labels[[2, 0, -1]]`, or the positions selected by an array of booleans -/
  | positions (indices : List Int)
  /-- `labels[["b", "a"]]` -/
  | names (names : List String)
  deriving DecidableEq, Repr

/-- Python's `slice(start, stop, step).indices(n)`: the first position, the step and the number of positions. `none` is an
exception: the step can not be 0. Used for indexing, `equistore/labels.py` lines 115-122 and 301-308. -/
def sliceIndices (n : Nat) (start stop step : Option Int) : Option (Int × Int × Nat) :=
  let step := step.getD 1
  let size : Int := n
  let wrap (x : Int) : Int := if x < 0 then x + size else x
  if step = 0 then none
  else if 0 < step then
    let first := (start.map fun x => max 0 (min size (wrap x))).getD 0
    let last := (stop.map fun x => max 0 (min size (wrap x))).getD size
    some (first, step, if first < last then ((last - first - 1) / step + 1).toNat else 0)
  else
    let first := (start.map fun x => max (-1) (min (size - 1) (wrap x))).getD (size - 1)
    let last := (stop.map fun x => max (-1) (min (size - 1) (wrap x))).getD (-1)
    some (first, step, if last < first then ((first - last - 1) / (-step) + 1).toNat else 0)

/-- A position in a list used as index by numpy, for `n` entries: negative positions count from the end. `none` is an
`IndexError`. Used for indexing, `equistore/labels.py` lines 115-122 and 301-308. -/
def wrapIndex (n : Nat) (i : Int) : Option Nat :=
  let i := if i < 0 then i + n else i
  if 0 ≤ i ∧ i < n then some i.toNat else none

/-- `labels[index]`. Slices and lists of names give a view into the same memory, lists of positions make a copy, with
the same `dtype`. `__array_finalize__` (`equistore/labels.py` lines 115-122) removes `_eqs_labels`. Simplifications: an empty list
of names is an empty list of positions for numpy, and raises an exception here; labels without
names are arrays with two dimensions, where the same holds as long as the index is not a list of
names. -/
def PyLabels.getItem (v : PyLabels) : LabelsIndex → Except PyExc PyLabels
  | .slice start stop step =>
    match sliceIndices v.count start stop step with
    | none => .error .valueError
    | some (first, step, count) =>
      .ok { v with
        start := if count = 0 then v.start else (v.start + first * v.stride).toNat
        stride := v.stride * step
        count
        eqsLabels := none }
  | .positions indices =>
    match indices.mapM (wrapIndex v.count) with
    | none => .error .indexError
    | some indices =>
      .ok { v with
        memory := indices.flatMap fun i => (List.range v.itemsize).map fun (j : Nat) => (v.read i j).getD 0
        start := 0
        stride := v.itemsize
        count := indices.length
        eqsLabels := none }
  | .names names =>
    if names.isEmpty || !decide names.Nodup then .error .valueError
    else
      match names.mapM fun name => (v.fields.lookup name).map fun offset => (name, offset) with
      | none => .error .keyError
      | some fields => .ok { v with fields, eqsLabels := none }

end Equistore
