import Verif.Model.CStatus

/-!
# Exceptions raised in Python callbacks

Models `equistore/status.py`, `catch_exceptions` of `equistore/utils.py`, and the threads of a Python program calling the
library. Exceptions are numbered.
-/

namespace Equistore
namespace PyStatus

/-- What a Python function used as callback of an array does.
The functions with `@catch_exceptions` in `equistore/data.py` lines 181-325. -/
inductive Body where
  /-- it returns -/
  | returns
  /-- it raises an exception which inherits from `Exception` -/
  | raises (exception : Nat)
  /-- it raises an exception which only inherits from `BaseException`, such as `KeyboardInterrupt` or `SystemExit` -/
  | interrupted (exception : Nat)
  deriving DecidableEq, Repr

/-- What the wrapped function does: return a status, or raise an exception. `catch_exceptions`, `equistore/utils.py` lines 28-37. -/
inductive Wrapped where
  | status (status : Int32)
  | raised (exception : Nat)
  deriving DecidableEq, Repr

/-- `catch_exceptions`, `equistore/utils.py` lines 28-37, with `_save_exception`, `equistore/status.py` lines 24-26. The
first argument is `LAST_EXCEPTION`. -/
def catchExceptions (last : Option Nat) : Body → Option Nat × Wrapped
  | .returns => (last, .status 0)
  | .raises e => (some e, .status (-1))
  | .interrupted e => (last, .raised e)

/-- Calling a Python function from C: `ctypes` prints the exceptions which are raised, and returns a status Python does not
control (`unspecified`). `equistore/data.py` lines 186-202. -/
def fromC (unspecified : Int32) : Wrapped → Int32
  | .status s => s
  | .raised _ => unspecified

/-- What the library does with the status of a callback which failed. `src/data.rs` lines 272-452: `?` or `expect`. -/
inductive OnFailure where
  /-- return it to the caller: the operator `?`, for example in `src/blocks.rs` line 41 -/
  | report
  /-- panic: `expect`, in `src/tensor/keys_to_samples.rs` lines 162 and 204, `src/tensor/keys_to_properties.rs` lines 238 and
  288 -/
  | expect
  deriving DecidableEq, Repr

/-- One callback called by the library. `src/data.rs` lines 272-452 and `equistore/data.py` lines 181-325. -/
structure Callback where
  body : Body
  onFailure : OnFailure
  /-- the status if the Python function does not return -/
  unspecified : Int32
  deriving DecidableEq, Repr

/-- How the library reports failures: with a status, checked by `_check_status` (all `restype` in `equistore/_c_api.py`), or
with a `NULL` pointer, checked by `_check_pointer` (`equistore/block.py` lines 73 and 81, `equistore/tensor.py` lines 61 and
66). -/
inductive Returns where
  | status
  | pointer
  deriving DecidableEq, Repr

/-- One call to a function of the library: the callbacks it calls one after the other when all of them succeed, and
its own status afterwards, 0 or one of the positive error codes. Simplification: which callbacks are
called is known from the start. `self._lib.eqs_...` in `equistore/block.py` lines 64-385 and `equistore/tensor.py` lines 58-345. -/
structure Call where
  callbacks : List Callback
  final : Nat
  returns : Returns
  deriving DecidableEq, Repr

/-- The result of a method in Python: a value, or an `EquistoreError` with its status and the exception which
caused it (`__cause__`). `equistore/status.py` lines 8-49. -/
inductive Outcome where
  | success
  | error (status : Option Int32) (cause : Option Nat)
  deriving DecidableEq, Repr

/-- `_check_status`, `equistore/status.py` lines 29-38. -/
def checkStatus (last : Option Nat) (status : Int32) : Option Nat × Outcome :=
  if status = 0 then (last, .success)
  else if 0 < status then (last, .error (some status) none)
  else (none, .error (some status) last)

/-- `_check_pointer`, `equistore/status.py` lines 41-49. -/
def checkPointer (last : Option Nat) (null : Bool) : Option Nat × Outcome :=
  if null then
    match last with
    | some e => (none, .error none (some e))
    | none => (last, .error none none)
  else (last, .success)

/-- A thread: the callbacks the library still has to call and the status of one which failed (`none` between two calls), and
the calls still to be made. `equistore/status.py` lines 21-49, called from several threads. -/
structure Thread where
  current : Option (Call × List Callback × Option Int32)
  calls : List Call
  deriving DecidableEq, Repr

/-- The global variable `LAST_EXCEPTION` (`equistore/status.py` line 21), the threads, and the results
of all finished calls, the most recent one first. -/
structure State where
  last : Option Nat
  threads : List Thread
  log : List (Call × Outcome)
  deriving DecidableEq, Repr

/-- The library returns to Python with a status. `equistore/status.py` lines 29-49. -/
def finish (last : Option Nat) (call : Call) (status : Int32) : Option Nat × Outcome :=
  match call.returns with
  | .status => checkStatus last status
  | .pointer => checkPointer last (status != 0)

/-- One step of a thread: start the next call, run one callback, or return to Python. Callbacks and checks run with the global
interpreter lock, which the library does not hold in between. Simplification: Python does not switch threads inside of
`_check_status` and `_check_pointer`. `equistore/status.py` lines 21-49 and `equistore/utils.py` lines 28-37. -/
def Thread.step (last : Option Nat) (t : Thread) : Option Nat × Thread × Option (Call × Outcome) :=
  match t.current with
  | none =>
    match t.calls with
    | [] => (last, t, none)
    | call :: calls => (last, ⟨some (call, call.callbacks, none), calls⟩, none)
  | some (call, _, some status) =>
    let (last, outcome) := finish last call status
    (last, ⟨none, t.calls⟩, some (call, outcome))
  | some (call, [], none) =>
    let (last, outcome) := finish last call (Int32.ofNat call.final)
    (last, ⟨none, t.calls⟩, some (call, outcome))
  | some (call, callback :: callbacks, none) =>
    let (last, wrapped) := catchExceptions last callback.body
    let status := fromC callback.unspecified wrapped
    let failed : Option Int32 :=
      if status = 0 then none
      else match callback.onFailure with
        | .report => some status
        | .expect => some internalErrorStatus
    (last, ⟨some (call, callbacks, failed), t.calls⟩, none)

/-- One step of the given thread of a program. `equistore/status.py` lines 21-49, called from several threads. -/
def State.step (s : State) (thread : Nat) : State :=
  match s.threads[thread]? with
  | none => s
  | some t =>
    match t.step s.last with
    | (last, t, none) => { s with last, threads := s.threads.set thread t }
    | (last, t, some entry) => { last, threads := s.threads.set thread t, log := entry :: s.log }

/-- A program with the calls of each thread, before it starts. `equistore/status.py` line 21. -/
def State.init (programs : List (List Call)) : State := ⟨none, programs.map fun calls => ⟨none, calls⟩, []⟩

/-- Run the threads in the given order. `equistore/status.py` lines 21-49, called from several threads. -/
def State.run (s : State) (schedule : List Nat) : State := schedule.foldl State.step s

end PyStatus
end Equistore
