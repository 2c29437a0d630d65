import Verif.Model.PyOrigins

/-!
# Specification vocabulary for the origins of arrays in Python
-/

namespace Equistore
namespace Spec
open PyOrigins

/-- What reading an array from Python should give. -/
def ReadsAs : What → Outcome → Prop
  /- the object which was wrapped -/
  | .python _ _, outcome => outcome = .object
  /- a view of the array -/
  | .rust _, outcome => outcome = .view
  /- an exception telling where the array is from -/
  | .other name, outcome => outcome = .valueError name
  | .failing, outcome => ∃ name, outcome = .valueError name

/-- Two arrays are made by the same implementation: both wrap numpy arrays, both wrap torch tensors, both are of the library, or
both are of the same other one. -/
def SameImplementation : What → What → Prop
  | .python torch _, .python torch' _ => torch = torch'
  | .rust _, .rust _ => True
  | .other name, .other name' => name = name'
  | _, _ => False

/-- Other implementations use their own names. -/
def OwnNames (events : List Event) : Prop :=
  ∀ name, Event.other name ∈ events →
    name ≠ "equistore.data.numpy" ∧ name ≠ "equistore.data.torch" ∧ name ≠ "rust.ndarray"

/-- Callbacks which fail do not write anything before. -/
def NothingWritten (events : List Event) : Prop :=
  ∀ written, Event.failing written ∈ events → written = none

/-- A thread does not start anything new. -/
def StartsNothing (thread : Nat) (events : List Event) : Prop :=
  ∀ e ∈ events, match e with
    | .wrap t _ _ => t ≠ thread
    | .read t _ => t ≠ thread
    | .allocated t _ => t ≠ thread
    | _ => True

end Spec
end Equistore
