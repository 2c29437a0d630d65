import Verif.Model.PyObjects

/-!
# Arrays taken from blocks in Python

`TensorBlock.values` and `Gradient.data` return the numpy array the program has given, if the array was made by Python.
Otherwise, the array belongs to the library, and they return a numpy array which points into memory of the library, with a
reference to the `TensorBlock` it comes from.
-/

namespace Equistore
open Spec

/-- `_RustNDArray`, `equistore/data.py` lines 90-125: the `TensorBlock` which is kept alive by `_parent`
(for gradients, through the `Gradient` object), and the array of the library whose memory it points to. -/
structure PyArray where
  parent : Nat
  array : Nat
  deriving DecidableEq, Repr

/-- The objects of a program, and its numpy arrays which point into memory of the library; `none` for those which have been
deleted. `_RustNDArray`, `equistore/data.py` lines 90-125. -/
structure ArrayState (B : Type) where
  py : PyState B
  arrays : List (Option PyArray)

/-- Python statements with arrays:

- all the statements without;
- `block.values` and `block.gradient(name).data`, `equistore/block.py` lines 166-176 and 331-341;
- writing to a numpy array;
- deleting a numpy array. -/
inductive ArrayCall (B : Type) where
  | statement (c : PyCall B)
  | data (b : Nat) (name : Bytes)
  | write (v : Nat) (change : B → B)
  | drop (v : Nat)

/-- What a statement returns. `TensorBlock.values`, `equistore/block.py` lines 166-176. -/
inductive ArrayReply where
  | statement (reply : PyReply)
  /-- a numpy array pointing to memory of the library -/
  | view (v : Nat)
  /-- the Python object which has been given to the library -/
  | object
  | done
  /-- there was an exception -/
  | raised
  deriving DecidableEq, Repr

namespace ArrayState
variable {B : Type}

/-- When Python starts. `equistore/data.py` lines 90-125. -/
def empty : ArrayState B := { py := PyState.empty, arrays := [] }

/-- Whether a `TensorBlock` is the `_parent` of some array. `_parent`, `equistore/data.py` lines 117-125. -/
def isParent (s : ArrayState B) (b : Nat) : Bool :=
  s.arrays.any fun v =>
    match v with
    | none => false
    | some view => view.parent = b

/-- Whether this statement deletes an object, which some array still refers to. `_parent`, `equistore/data.py` lines 117-125. -/
def keepsAlive (s : ArrayState B) : PyCall B → Bool
  | .deleteBlock b => s.isParent b
  | _ => false

/-- `eqs_array_to_python_object`, `equistore/data.py` lines 128-137. The arrays which have keepers are those made by
Python. -/
def fromC (s : ArrayState B) (parent : Nat) : Res CArray → ArrayState B × ArrayReply
  | .ok a =>
    if s.py.keepers a.ptr = [] then
      ({ s with arrays := s.arrays ++ [some { parent, array := a.ptr }] }, .view s.arrays.length)
    else
      (s, .object)
  | _ => (s, .raised)

end ArrayState

/-- Run one statement, `none` for undefined behaviour in the library, and for writing to memory which does not exist. A
`TensorBlock` which is the parent of an array is not deleted.
`equistore/block.py` lines 166-176 and 331-341, `equistore/data.py` lines 90-137. -/
def ArrayCall.run {B : Type} [Inhabited B] [ArrayCallbacks B] (p : Platform) (s : ArrayState B) :
    ArrayCall B → Option (ArrayState B × ArrayReply)
  | .statement c =>
    if s.keepsAlive c then
      some (s, .statement .done)
    else
      (c.run p s.py).map fun (py, reply) => ({ s with py }, .statement reply)
  | .data b name => do
    match s.py.blocks b with
    | none => return (s, .raised)
    | some o =>
      let (py, _) ← s.py.call p (.blockData o.ptr name { ptr := 0, destroy := false })
      let (_, r) ← eqsBlockData o.ptr name { ptr := 0, destroy := false } s.py.heap
      return { s with py }.fromC b r
  | .write v change =>
    match s.arrays[v]? with
    | some (some view) =>
      match s.py.heap.arrays view.array with
      | none => none
      | some content =>
        let heap := { s.py.heap with arrays := setAt s.py.heap.arrays view.array (some (change content)) }
        some ({ s with py := { s.py with heap } }, .done)
    | _ => some (s, .raised)
  | .drop v => some ({ s with arrays := s.arrays.set v none }, .done)

end Equistore
