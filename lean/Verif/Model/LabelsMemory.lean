import Verif.Model.PyLabels

/-!
# Memory of labels in Python

Models which arrays and labels of a Python program use the same memory, and what assigning to them changes: the creation of
`Labels` does not copy arrays of `int32` in row-major order, and labels given by the library use its
memory. `Model/PyLabels.lean` is about labels which nobody assigns to.

Simplifications: all arrays have two dimensions; the flag `writeable` is never changed by the program; blocks and tensor maps are not
part of the model, only the labels they contain, and these are never freed (see `Model/PyViews.lean` for this).
-/

namespace Equistore
namespace LabelsMemory

/-- Where the elements of an array are: in memory of numpy, or in the labels of the library. `equistore/labels.py` lines 80-90 and
`equistore/utils.py` lines 38-53. -/
inductive Place where
  | numpy (n : Nat)
  | library (k : Nat)
  deriving DecidableEq, Repr

/-- A `np.ndarray` with two dimensions, used for the parameter `values` in `equistore/labels.py` lines 59-90. Positions and strides are
counted in elements. -/
structure IntArray where
  place : Place
  /-- `dtype` is `np.int32`, otherwise it is another type of integers -/
  int32 : Bool
  start : Nat
  rows : Nat
  columns : Nat
  rowStride : Int
  columnStride : Int
  /-- `flags.writeable` -/
  writeable : Bool
  deriving DecidableEq, Repr

/-- An instance of `Labels`, `equistore/labels.py` lines 11-122. The field `memory` of the view is not used, see `State.see`. -/
structure LabelsObject where
  place : Place
  view : PyLabels
  /-- `flags.writeable` -/
  writeable : Bool
  deriving DecidableEq, Repr

/-- Everything a program has: memory, arrays, labels in Python (`equistore/labels.py`) and labels in the library
(`src/labels.rs` lines 214-226). -/
structure State where
  buffers : List (List Int)
  library : List Labels
  arrays : List IntArray
  labels : List LabelsObject
  deriving DecidableEq, Repr

/-- A program which has not done anything, before using `equistore/labels.py` lines 11-122. -/
def State.empty : State := { buffers := [], library := [], arrays := [], labels := [] }

/-- The elements which are at some place. Labels of the library are behind `eqs_labels.values`, `src/c_api/labels.rs` lines 76-80. -/
def State.memory (s : State) : Place → List Int
  | .numpy n => s.buffers.getD n []
  | .library k => ((s.library[k]?).map fun l => l.values.map Int32.toInt).getD []

/-- What is seen with some labels at this time, for `equistore/labels.py` lines 124-244. -/
def State.see (s : State) (o : LabelsObject) : PyLabels :=
  { o.view with memory := (s.memory o.place).map Int32.ofInt }

/-- Change one element in memory, for assignments in Python to the arrays of `equistore/labels.py` lines 11-122. Assignments do
not change `positions` in the labels of the library. -/
def State.write (s : State) (place : Place) (position : Nat) (x : LabelValue) : State :=
  match place with
  | .numpy n => { s with buffers := s.buffers.set n ((s.buffers.getD n []).set position x.toInt) }
  | .library k =>
    match s.library[k]? with
    | none => s
    | some l => { s with library := s.library.set k { l with values := l.values.set position x } }

/-- Position in memory of an element, for the parameter of `equistore/labels.py` lines 59-90. -/
def IntArray.position (a : IntArray) (i j : Nat) : Int := a.start + i * a.rowStride + j * a.columnStride

/-- All elements of an array, row by row: `values.astype(...)`, `equistore/labels.py` lines 79-88. -/
def State.elements (s : State) (a : IntArray) : List Int :=
  (List.range a.rows).flatMap fun i => (List.range a.columns).map fun j => (s.memory a.place).getD (a.position i j).toNat 0

/-- `flags.c_contiguous` in numpy: `astype` with `copy=False` and `np.ascontiguousarray` do not make a copy then,
`equistore/labels.py` lines 79-88. -/
def IntArray.contiguous (a : IntArray) : Bool :=
  a.rows * a.columns == 0 || ((decide (a.columns ≤ 1) || a.columnStride == 1) && (decide (a.rows ≤ 1) || a.rowStride == a.columns))

/-- Labels with their own memory: the result of a copy (`equistore/labels.py` lines 79-88), of indexing with positions, and labels without entries
(lines 199-203). -/
def State.withCopy (s : State) (v : PyLabels) : State :=
  { s with
    buffers := s.buffers ++ [v.memory.map Int32.toInt]
    labels := s.labels ++ [{ place := .numpy s.buffers.length, view := v, writeable := true }] }

/-- Statements of a program. Objects are given by the position at which they were created. `equistore/labels.py` lines 59-244 and the functions
of the library using labels. -/
inductive Statement where
  /-- `np.array(...)` -/
  | newArray (int32 : Bool) (rows columns : Nat) (elements : List Int)
  /-- another view into the memory of an array: `array[1:, ::2]`, `array.T` -/
  | viewArray (a start rows columns : Nat) (rowStride columnStride : Int)
  /-- `array.copy()` -/
  | copyArray (a : Nat)
  /-- `Labels(names, array)` -/
  | newLabels (names : List String) (a : Nat)
  /-- `labels[...]` -/
  | index (l : Nat) (i : LabelsIndex)
  /-- `labels.asarray()` -/
  | asarray (l : Nat)
  /-- `array[i, j] = x` -/
  | writeArray (a i j : Nat) (x : LabelValue)
  /-- `labels[name][i] = x` -/
  | writeLabels (l : Nat) (name : String) (i : Nat) (x : LabelValue)
  /-- giving labels to a function of the library which keeps them, for example for a new block -/
  | give (l : Nat)
  /-- taking labels from the library, for example `block.samples` -/
  | take (k : Nat)
  deriving DecidableEq, Repr

/-- Run a statement: the new state, and `some` exception if it raises one. The result is `none` for undefined behaviour: the library reads outside of
the memory of the labels. Statements about objects which do not exist raise an exception. `equistore/labels.py` lines 59-122 (creation and
views), 161-177 (`give`), 179-203 (`take`), 239-241 (`asarray`); `src/c_api/labels.rs` lines 33-66 (`give`). -/
def State.run (s : State) : Statement → Option (State × Option PyExc)
  | .newArray int32 rows columns elements =>
    if elements.length ≠ rows * columns then some (s, some .valueError)
    else if int32 && elements.any fun x => decide ((Int32.ofInt x).toInt ≠ x) then some (s, some .overflowError)
    else some ({ s with
      buffers := s.buffers ++ [elements]
      arrays := s.arrays ++
        [IntArray.mk (.numpy s.buffers.length) int32 0 rows columns columns 1 true] }, none)
  | .viewArray a start rows columns rowStride columnStride =>
    match s.arrays[a]? with
    | none => some (s, some .exception)
    | some array =>
      let view := { array with start, rows, columns, rowStride, columnStride }
      let size := (s.memory array.place).length
      if decide (start ≤ size) && (List.range rows).all (fun i => (List.range columns).all fun j =>
          decide (0 ≤ view.position i j) && decide (view.position i j < (size : Int))) then
        some ({ s with arrays := s.arrays ++ [view] }, none)
      else some (s, some .valueError)
  | .copyArray a =>
    match s.arrays[a]? with
    | none => some (s, some .exception)
    | some array =>
      some ({ s with
        buffers := s.buffers ++ [s.elements array]
        arrays := s.arrays ++
          [IntArray.mk (.numpy s.buffers.length) array.int32 0 array.rows array.columns array.columns 1 true] }, none)
  | .newLabels names a =>
    match s.arrays[a]? with
    | none => some (s, some .exception)
    | some array =>
      match PyLabels.new names (.array true [array.rows, array.columns] (s.elements array)) none with
      | .error e => some (s, some e)
      | .ok v =>
        if array.int32 && array.contiguous then
          some ({ s with labels := s.labels ++
            [LabelsObject.mk array.place { v with start := array.start } array.writeable] }, none)
        else some (s.withCopy v, none)
  | .index l i =>
    match s.labels[l]? with
    | none => some (s, some .exception)
    | some o =>
      match (s.see o).getItem i with
      | .error e => some (s, some e)
      | .ok v =>
        match i with
        | .positions _ => some (s.withCopy v, none)
        | _ => some ({ s with labels := s.labels ++ [{ o with view := v }] }, none)
  | .asarray l =>
    match s.labels[l]? with
    | none => some (s, some .exception)
    | some o =>
      match (s.see o).asarray with
      | .error e => some (s, some e)
      | .ok _ =>
        some ({ s with arrays := s.arrays ++
          [IntArray.mk o.place true o.view.start o.view.count o.view.itemsize o.view.stride 1 o.writeable] }, none)
  | .writeArray a i j x =>
    match s.arrays[a]? with
    | none => some (s, some .exception)
    | some array =>
      if !(decide (i < array.rows) && decide (j < array.columns)) then some (s, some .indexError)
      else if !array.writeable then some (s, some .valueError)
      else some (s.write array.place (array.position i j).toNat x, none)
  | .writeLabels l name i x =>
    match s.labels[l]? with
    | none => some (s, some .exception)
    | some o =>
      match o.view.fields.lookup name with
      | none => some (s, some .valueError)
      | some offset =>
        if !decide (i < o.view.count) then some (s, some .indexError)
        else if !o.writeable then some (s, some .valueError)
        else some (s.write o.place (o.view.start + i * o.view.stride + offset : Int).toNat x, none)
  | .give l =>
    match s.labels[l]? with
    | none => some (s, some .exception)
    | some o =>
      if !(s.see o).readable then none
      else
        match Labels.ofC (s.see o).toC with
        | .ok l => some ({ s with library := s.library ++ [l] }, none)
        | _ => some (s, some .equistoreError)
  | .take k =>
    match s.library[k]? with
    | none => some (s, some .exception)
    | some l =>
      match l.toC with
      | .ok c =>
        match PyLabels.ofC c with
        | .error e => some (s, some e)
        | .ok v =>
          if c.count ≠ 0 then
            some ({ s with labels := s.labels ++ [{ place := .library k, view := v, writeable := false }] }, none)
          else some (s.withCopy v, none)
      | _ => some (s, some .equistoreError)

end LabelsMemory
end Equistore
