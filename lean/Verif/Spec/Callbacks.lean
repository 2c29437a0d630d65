import Verif.Spec.Backend

/-!
# Specification vocabulary for callbacks which fail

The callbacks of `eqs_array_t` (`src/data.rs` lines 72-165) return a status, and may fail at any time, for example
if there is not enough memory.
-/

namespace Equistore
namespace Spec

/-- The messages of the panics when a callback is `NULL`, `src/data.rs` lines 273-431. -/
def missingCallback : List String :=
  ["origin", "data", "shape", "reshape", "swap_axes", "create", "move_samples_from"].map
    fun name => "eqs_array_t." ++ name ++ " function is NULL"

/-- A callback returned a status which is not `EQS_SUCCESS`, or there is no such callback. -/
def CallbackError {α : Type} : Res α → Prop
  | .err (.external status _) => status ≠ 0
  | .panic message => message ∈ missingCallback
  | _ => False

instance {α : Type} (r : Res α) : Decidable (CallbackError r) := by
  unfold CallbackError
  split
  · exact inferInstance
  · exact inferInstance
  · exact isFalse id

/-- A type of arrays whose callbacks either do what the documentation says, or fail with a status, or are missing. Nothing is
assumed about calls which are not allowed, nor about the array a failed callback leaves behind. See `Implements` for
arrays whose callbacks never fail. -/
structure MayFail {A : Type} [ArrayLike A] (view : A → NdArray) : Prop where
  origin : ∃ o, ∀ a : A, ArrayLike.origin a = .ok o ∨ CallbackError (ArrayLike.origin a)
  elements : ∀ a, ArrayOk (view a)
  shape : ∀ a, ArrayLike.shape a = .ok (view a).shape ∨ CallbackError (ArrayLike.shape a)
  create : ∀ a shape, (∃ a', ArrayLike.create a shape = .ok a' ∧ (view a').shape = shape ∧
      ∀ idx, InShape shape idx → (view a').get idx = 0) ∨ CallbackError (ArrayLike.create a shape)
  reshape : ∀ a shape, ReshapeAllowed (view a).shape shape →
    (∃ a', ArrayLike.reshape a shape = (a', .ok ()) ∧ (view a').shape = shape ∧
      (view a').elements = (view a).elements) ∨ CallbackError (ArrayLike.reshape a shape).2
  swapAxes : ∀ a i j, SwapAllowed (view a).shape i j →
    (∃ a', ArrayLike.swapAxes a i j = (a', .ok ()) ∧ (view a').shape = swapList (view a).shape i j ∧
      ∀ idx, InShape (swapList (view a).shape i j) idx →
        (view a').get idx = (view a).get (swapList idx i j)) ∨ CallbackError (ArrayLike.swapAxes a i j).2
  move : ∀ output input samples start stop,
    MoveAllowed (view output).shape (view input).shape samples start stop →
    (∃ output', ArrayLike.moveSamplesFrom output input samples start stop = (output', .ok ()) ∧
      (view output').shape = (view output).shape ∧
      ∀ i between j, InShape (view output).shape (i :: between ++ [j]) →
        (∀ m ∈ samples, m.output = i → start ≤ j → j < stop →
          (view output').get (i :: between ++ [j]) = (view input).get (m.input :: between ++ [j - start])) ∧
        ((∀ m ∈ samples, m.output = i → ¬ (start ≤ j ∧ j < stop)) →
          (view output').get (i :: between ++ [j]) = (view output).get (i :: between ++ [j]))) ∨
    CallbackError (ArrayLike.moveSamplesFrom output input samples start stop).2

/-- The messages of the panics in `keys_to_samples` and `keys_to_properties` when the new block or gradient can not
be checked. -/
def notChecked : List String := ["invalid block", "constructed an invalid block", "created invalid gradients"]

/-- The caller is told about a failed callback: the operation fails with the status of this callback, or with an internal
error (a panic) about the callback which is missing or the block being created. -/
def Reported {α : Type} : Res α → Prop
  | .err e => CallbackError (.err e : Res α)
  | .panic message => message ∈ missingCallback ∨ message ∈ notChecked
  | .ok _ => False

end Spec
end Equistore
