import Verif.Model.PyWrapper
import Verif.Spec.History

/-!
# What a program can do with the arrays in a tensor map, and what it sees
-/

namespace Equistore.Spec

/-- What a program does with the array it gets from `block.values` or `gradient.data`. -/
inductive Edit
  /-- `array[...] = ...`: the element at (row-major) position `k` is now `f k` -/
  | write (f : Nat → Elt)
  /-- `array.shape = ...` -/
  | setShape (shape : List Nat)

/-- What numpy does for an edit: `array.shape = shape` raises an exception if the number of elements is not the
same. Not modelled: it also raises for some arrays which are not contiguous. -/
def Edit.onArray (a : NumpyArray) : Edit → NumpyArray
  | .write f => ⟨{ a.array with elements := a.array.elements.mapIdx fun k _ => f k }, by
      simpa using a.complete⟩
  | .setShape shape =>
    if h : shapeSize shape = shapeSize a.array.shape then
      ⟨{ a.array with shape }, a.complete.trans h.symm⟩
    else a

/-- `block.values` is the array in the wrapper: this is what is edited. -/
def Edit.onWrapper (w : PyWrapper) (e : Edit) : PyWrapper := { w with array := w.array.map e.onArray }

/-- Change the array of the values (`none`) or of a gradient in the block at position `i`. -/
def editArray {A : Type} (i : Nat) (gradient : Option String) (f : A → A) (t : TensorMap A) : TensorMap A :=
  { t with blocks := t.blocks.mapIdx fun j b =>
      if j = i then
        match gradient with
        | none => { b with values := { b.values with data := f b.values.data } }
        | some g => { b with gradients := b.gradients.map fun p =>
            if p.1 = g then (p.1, { p.2 with data := f p.2.data }) else p }
      else b }

/-- One step of a Python program using a tensor map: an operation of the library, or an edit of one of the arrays. -/
inductive PyStep
  | operation (op : Op)
  | edit (block : Nat) (gradient : Option String) (e : Edit)

/-- The steps of a program on a tensor map where edits do `onEdit`. An operation which fails raises an exception,
and the program continues. The outcomes of all operations, in order, are in the result. -/
def runSteps {A : Type} [ArrayLike A] (onEdit : Edit → A → A) (build : Build) :
    (Nat → HashOrder) → List PyStep → TensorMap A → TensorMap A × List (Res Unit)
  | _, [], t => (t, [])
  | hash, .operation op :: steps, t =>
    let (t, r) := op.run build (hash 0) t
    let (t, rs) := runSteps onEdit build (fun n => hash (n + 1)) steps t
    (t, r :: rs)
  | hash, .edit i g e :: steps, t =>
    runSteps onEdit build (fun n => hash (n + 1)) steps (editArray i g (onEdit e) t)

/-- The shape the library has for an array is the shape of the array, as the program sees it. -/
def ShapeIsKnown (w : PyWrapper) : Prop :=
  ∃ a, w.array = some a ∧ ArrayLike.shape w = .ok a.array.shape

/-- The same for all the arrays of a tensor map. -/
def ShapesAreKnown (t : TensorMap PyWrapper) : Prop :=
  ∀ b ∈ t.blocks, ShapeIsKnown b.values.data ∧ ∀ p ∈ b.gradients, ShapeIsKnown p.2.data

/-- The array in a wrapper. -/
def unwrap (w : PyWrapper) : NumpyArray := w.array.getD (NumpyArray.build [0] fun _ => 0)

/-- What the library can call for a single wrapper, and what the program can do with the array. -/
inductive WrapperStep
  | reshape (shape : List Nat)
  | swapAxes (axis₁ axis₂ : Nat)
  | moveSamplesFrom (input : PyWrapper) (samples : List SampleMapping) (start stop : Nat)
  | edit (e : Edit)

/-- A single step for a wrapper. -/
def WrapperStep.run (w : PyWrapper) : WrapperStep → PyWrapper
  | .reshape shape => (ArrayLike.reshape w shape).1
  | .swapAxes i j => (ArrayLike.swapAxes w i j).1
  | .moveSamplesFrom input samples start stop => (ArrayLike.moveSamplesFrom w input samples start stop).1
  | .edit e => e.onWrapper w

end Equistore.Spec
