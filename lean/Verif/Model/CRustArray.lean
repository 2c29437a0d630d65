import Verif.Model.RustCallbacks

/-!
# `eqs_get_rust_array`, with all pointers

Models `src/c_api/data.rs` lines 76-105. Which arrays of `ndarray` are in row-major order is in `Model/Strided.lean`.
-/

namespace Equistore
namespace RustCallbacks

open RustArrays

variable {D : Type} [DynArray D] (thread : ThreadId) (foreign : Foreign D)

/-- `eqs_get_rust_array`, `src/c_api/data.rs` lines 76-105. `own` is `NDARRAY_DATA_ORIGIN`, `ndarray` says if the library was
compiled with this feature, and `rowMajor` is `is_standard_layout` of the array in the box at an address: then the memory starting
at `*data` has the elements in this order. Simplification: only the end of the message of `assert_eq!` is modelled, as in
`CArrayT.asArray`. -/
def getRustArray (own : Nat) (ndarray : Bool) (rowMajor : Ptr → Bool) (array : Option CArrayT) (data shape count : Result) :
    Callback D (List Elt × List Nat × Nat) := catching thread do
  let array ← CAct.lift (checkPointer "array" array)
  let _ ← CAct.lift (checkPointer "data" data)
  let _ ← CAct.lift (checkPointer "shape" shape)
  let _ ← CAct.lift (checkPointer "shape_count" count)
  if ndarray then
    let a ← array.asArray thread foreign own
    CAct.lift (Res.assert (rowMajor array.ptr) "assertion failed: array.is_standard_layout()")
    return (a.elements, a.shape, a.shape.length)
  else
    CAct.lift (.err (.internal "support for rust ndarray is disabled, please recompile the code to activate it"))

end RustCallbacks
end Equistore
