import Verif.Model.Strided
import Verif.Model.PyLabels

/-!
# Python arrays using memory of the library
-/

namespace Equistore
namespace PyPointers

/-- A numpy array made from a pointer: it uses the memory at the pointer, or its own memory, which has no elements.
`equistore/utils.py` lines 40-55. Simplification: the type of numbers is the one of the pointer (the assertion in line 46). -/
structure PyArray where
  shape : List Nat
  shared : Bool
  writeable : Bool
  deriving DecidableEq

/-- `reduce(operator.mul, shape)`, `equistore/utils.py` line 41: without a first value, this raises for empty lists. -/
def reduceMul : List Nat → Except PyExc Nat
  | [] => .error .typeError
  | n :: shape => .ok (shape.foldl (· * ·) n)

/-- `_ptr_to_ndarray`, `equistore/utils.py` lines 40-49. `null` says whether the pointer is `NULL`. Simplification: a `NULL`
pointer is `None`. -/
def ptrToNdarray (null : Bool) (shape : List Nat) : Except PyExc PyArray := do
  let size ← reduceMul shape
  if size = 0 then
    return ⟨shape, false, true⟩
  if null then
    throw .assertionError
  return ⟨shape, true, true⟩

/-- `_ptr_to_const_ndarray`, `equistore/utils.py` lines 52-55. -/
def ptrToConstNdarray (null : Bool) (shape : List Nat) : Except PyExc PyArray := do
  let array ← ptrToNdarray null shape
  return { array with writeable := false }

/-- `_RustNDArray.__new__`, `equistore/data.py` lines 98-121: an error of `eqs_get_rust_array` is raised. The pointer to the
data is never `NULL`. -/
def rustNDArray (a : Strided) : Except PyExc PyArray :=
  match a.getRustArray with
  | .ok (_, shape) => ptrToNdarray false shape
  | _ => .error .equistoreError

/-- Whether numpy accepts an index. Used for the arrays of `equistore/data.py` lines 114-115. Simplification: no negative
indexes, and one index for each axis. -/
def validIndex : List Nat → List Nat → Bool
  | [], [] => true
  | n :: shape, i :: idx => i < n && validIndex shape idx
  | _, _ => false

/-- Read an element, where `memory` is what is at the pointer: `none` if this is outside of it. Arrays made by `as_array` are in
row-major order, `equistore/utils.py` line 45. -/
def PyArray.read {α : Type} (array : PyArray) (memory : List α) (idx : List Nat) : Option (Except PyExc α) :=
  if validIndex array.shape idx then
    if array.shared then memory[offset array.shape idx]?.map .ok else none
  else
    some (.error .indexError)

/-- Assign to an element: the memory afterwards. numpy first checks the flag set in `equistore/utils.py` lines 48 and 54. -/
def PyArray.assign {α : Type} (array : PyArray) (memory : List α) (idx : List Nat) (value : α) :
    Option (List α × Except PyExc Unit) :=
  if !array.writeable then some (memory, .error .valueError)
  else if validIndex array.shape idx then
    if array.shared && offset array.shape idx < memory.length then
      some (memory.set (offset array.shape idx) value, .ok ())
    else none
  else some (memory, .error .indexError)

end PyPointers
end Equistore
