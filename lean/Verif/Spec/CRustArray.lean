import Verif.Model.CRustArray
import Verif.Spec.RustCallbacks

/-!
# Specification vocabulary for `eqs_get_rust_array`
-/

namespace Equistore
namespace Spec
namespace RustCallbacks

open _root_.Equistore.Spec.RustArrays _root_.Equistore.RustArrays _root_.Equistore.RustCallbacks

variable {D : Type} [DynArray D]

/-- The array does not say that it comes from `ndarray` in Rust when it does not: the function for the origin is missing, or it is
the one of Rust arrays and the array exists (or is `NULL`), or it is a function of somebody else, which returns and does not give
the origin of `ndarray`. -/
def Truthful (own : Nat) (foreign : Foreign D) (s : State D) (a : CArrayT) : Prop :=
  match a.origin with
  | none => True
  | some .rust => a.ptr = none ∨ ∃ d, At s a.ptr d ∧ NoNul (DynArray.origin d)
  | some (.foreign id) => ∃ s' status out, foreign.origin id a.ptr s = some (s', status, out) ∧ ¬ (status = 0 ∧ out = some own)

/-- This is an array of `ndarray`, with this content, and in row-major order. -/
def IsNdarray (own : Nat) (rowMajor : Ptr → Bool) (s : State D) (a : CArrayT) (content : NdArray) : Prop :=
  a.origin = some .rust ∧ (∃ d, At s a.ptr d ∧ DynArray.origin d = .ok own ∧ DynArray.ndarray d = some content) ∧
    rowMajor a.ptr = true

end RustCallbacks
end Spec
end Equistore
