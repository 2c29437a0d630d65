import Verif.Model.PyObjects

/-!
# Labels taken from blocks and tensor maps in Python

The `Labels` returned by `TensorBlock.samples`, `TensorBlock.components`, `TensorBlock.properties`, the same
properties of `Gradient`, and `TensorMap.keys` are numpy arrays which point into memory of the library. They have a
reference to the `TensorBlock` or `TensorMap` they come from, which keeps it alive.
-/

namespace Equistore
open Spec

/-- The attribute `_parent` of `Labels`. `equistore/labels.py` lines 104-107. -/
inductive PyParent where
  | block (b : Nat)
  | tensor (t : Nat)
  deriving DecidableEq, Repr

/-- `Labels` which are a view, `equistore/labels.py` lines 179-203: the parent, and the labels of the library whose
memory the array points to. Simplification: like in `Spec.Lifetimes`, this memory is identified with its content. -/
structure PyView where
  parent : PyParent
  labels : Labels
  deriving DecidableEq, Repr

/-- The objects of a program, and its `Labels` which are views; `none` for those which have been deleted.
`equistore/labels.py` lines 179-203. -/
structure ViewState (B : Type) where
  py : PyState B
  views : List (Option PyView)

/-- Python statements with views:

- all the statements without views;
- `block.samples` etc. (`equistore/block.py` lines 179-219) and the same for `block.gradient(name)` (lines
  340-386), which ask for one axis of the values or of a gradient;
- `tensor.keys` (`equistore/tensor.py` lines 99-104);
- deleting `Labels`. -/
inductive ViewCall (B : Type) where
  | statement (c : PyCall B)
  | labels (b : Nat) (name : Bytes) (axis : Nat)
  | keys (t : Nat)
  | drop (v : Nat)

/-- What a statement returns. `equistore/block.py` lines 178-219 and `equistore/tensor.py` lines 99-104. -/
inductive ViewReply where
  | statement (reply : PyReply)
  /-- `Labels` which are a view -/
  | view (v : Nat)
  /-- `Labels` which are a copy, or nothing -/
  | done
  /-- there was an exception -/
  | raised
  deriving DecidableEq, Repr

namespace ViewState
variable {B : Type}

/-- When Python starts. `equistore/labels.py` lines 179-203. -/
def empty : ViewState B := { py := PyState.empty, views := [] }

/-- Whether an object is the `_parent` of some `Labels`. `equistore/labels.py` lines 104-107. -/
def isParent (s : ViewState B) (parent : PyParent) : Bool :=
  s.views.any fun v =>
    match v with
    | none => false
    | some view => view.parent = parent

/-- Whether this statement deletes an object, which some `Labels` still refer to. `equistore/labels.py` lines 104-107 and 115-117. -/
def keepsAlive (s : ViewState B) : PyCall B → Bool
  | .deleteBlock b => s.isParent (.block b)
  | .deleteTensor t => s.isParent (.tensor t)
  | _ => false

/-- `_from_eqs_labels_t`, `equistore/labels.py` lines 179-203: a view, or a copy if there are no entries. -/
def fromC (s : ViewState B) (parent : PyParent) : Res CLabels → ViewState B × ViewReply
  | .ok L =>
    match L.count, L.labelsPtr with
    | 0, _ => (s, .done)
    | _, some labels => ({ s with views := s.views ++ [some { parent, labels }] }, .view s.views.length)
    | _, none => (s, .raised)
  | _ => (s, .raised)

end ViewState

/-- Run one statement, `none` for undefined behaviour in the library. An object which is the parent of some `Labels`
is not deleted. `equistore/labels.py` lines 179-203, `equistore/block.py` lines 178-219 and 343-387, `equistore/tensor.py` lines 99-104. -/
def ViewCall.run {B : Type} [Inhabited B] [ArrayCallbacks B] (p : Platform) (s : ViewState B) :
    ViewCall B → Option (ViewState B × ViewReply)
  | .statement c =>
    if s.keepsAlive c then
      some (s, .statement .done)
    else
      (c.run p s.py).map fun (py, reply) => ({ s with py }, .statement reply)
  | .labels b name axis => do
    match s.py.blocks b with
    | none => return (s, .raised)
    | some o =>
      let (py, _) ← s.py.call p (.blockLabels o.ptr name axis)
      let (_, r) ← eqsBlockLabels o.ptr name axis s.py.heap
      return { s with py }.fromC (.block b) r
  | .keys t => do
    match s.py.tensors t with
    | none => return (s, .raised)
    | some o =>
      let (py, _) ← s.py.call p (.tensormapKeys o.ptr)
      let (_, r) ← eqsTensormapKeys o.ptr s.py.heap
      return { s with py }.fromC (.tensor t) r
  | .drop v => some ({ s with views := s.views.set v none }, .done)

end Equistore
