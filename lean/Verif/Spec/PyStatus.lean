import Verif.Model.PyStatus

/-!
# Specification vocabulary for exceptions raised in callbacks
-/

namespace Equistore
namespace Spec
open PyStatus

/-- The exception raised by a callback. -/
def exceptionOf : Body → Option Nat
  | .returns => none
  | .raises e => some e
  | .interrupted e => some e

/-- The first exception raised while the library runs. -/
def firstException (call : Call) : Option Nat := call.callbacks.findSome? fun c => exceptionOf c.body

/-- The status of an error: only functions returning a status have one. -/
def statusOf (call : Call) (status : Int32) : Option Int32 :=
  match call.returns with
  | .status => some status
  | .pointer => none

/-- The method did what it should: it succeeds if no callback raised an exception and the library found no other problem; it
fails because of the exception raised in a callback, with status -1, if there is one; and fails with the status of the
library and without such a cause otherwise. -/
def OutcomeRight (call : Call) (outcome : Outcome) : Prop :=
  match firstException call with
  | some e => outcome = .error (statusOf call (-1)) (some e)
  | none => if call.final = 0 then outcome = .success else outcome = .error (statusOf call (Int32.ofNat call.final)) none

/-- The method fails exactly when it should. -/
def FailsRight (call : Call) (outcome : Outcome) : Prop :=
  outcome = .success ↔ firstException call = none ∧ call.final = 0

/-- The status codes of the library itself (`src/c_api/status.rs` lines 39-52) are between 0 and 255. -/
def StatusOk (call : Call) : Prop := call.final ≤ 255

/-- No callback is interrupted by `KeyboardInterrupt` or similar. -/
def NotInterrupted (call : Call) : Prop := ∀ c ∈ call.callbacks, ∀ e, c.body ≠ .interrupted e

/-- The status of callbacks raising an exception is reported to Python. -/
def StatusReported (call : Call) : Prop := ∀ c ∈ call.callbacks, ∀ e, c.body = .raises e → c.onFailure = .report

/-- While a thread is inside of a call to the library, no other one is: for example when all calls are made with the same
lock. -/
def OneAtATime (s : State) (schedule : List Nat) : Prop :=
  ∀ n i j : Nat, i ≠ j → ∀ t u : Thread, (s.run (schedule.take n)).threads[i]? = some t →
    (s.run (schedule.take n)).threads[j]? = some u → t.current = none ∨ u.current = none

/-- The cause of an error. -/
def causeOf : Outcome → Option Nat
  | .error _ cause => cause
  | .success => none

/-- All the exceptions the callbacks of this call can raise. -/
def exceptions (call : Call) : List Nat := call.callbacks.filterMap fun c => exceptionOf c.body

end Spec
end Equistore
