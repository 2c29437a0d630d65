import Verif.Model.Bytes

/-!
# Status codes and error messages of the C API

Models `src/c_api/status.rs` and `src/lib.rs` lines 68-79 and 111-123.
-/

namespace Equistore

/-- `Display for Error`, `src/lib.rs` lines 68-79. -/
def Error.display : Error → String
  | .invalidParameter e => "invalid parameter: " ++ e
  | .io e => "io error: " ++ e
  | .serialization e => "serialization format error: " ++ e
  | .bufferSize e => "buffer is not big enough: " ++ e
  | .external status context =>
    "external error: " ++ context ++ " (status " ++ toString status.toInt ++ ")"
  | .internal e => "internal error: " ++ e

/-- `EQS_SUCCESS`, `src/c_api/status.rs` line 39. -/
def successStatus : Int32 := 0
/-- `EQS_INVALID_PARAMETER_ERROR`, `src/c_api/status.rs` line 41. -/
def invalidParameterStatus : Int32 := 1
/-- `EQS_IO_ERROR`, `src/c_api/status.rs` line 43. -/
def ioStatus : Int32 := 2
/-- `EQS_SERIALIZATION_ERROR`, `src/c_api/status.rs` line 46. -/
def serializationStatus : Int32 := 3
/-- `EQS_BUFFER_SIZE_ERROR`, `src/c_api/status.rs` line 49. -/
def bufferSizeStatus : Int32 := 254
/-- `EQS_INTERNAL_ERROR`, `src/c_api/status.rs` line 52. -/
def internalErrorStatus : Int32 := 255

/-- The status code of an error, `src/c_api/status.rs` lines 61-68. -/
def Error.status : Error → Int32
  | .invalidParameter _ => invalidParameterStatus
  | .io _ => ioStatus
  | .serialization _ => serializationStatus
  | .bufferSize _ => bufferSizeStatus
  | .external status _ => status
  | .internal _ => internalErrorStatus

/-- A thread of the program using the library. `thread_local!`, `src/c_api/status.rs` lines 12-14. -/
abbrev ThreadId := Nat

/-- The thread-local `LAST_ERROR_MESSAGE` of all the threads, `src/c_api/status.rs` lines
12-14. -/
abbrev Messages := ThreadId → String

/-- The messages when the program starts, `src/c_api/status.rs` line 13. -/
def Messages.init : Messages := fun _ => ""

/-- Replace the message of one thread. `LAST_ERROR_MESSAGE.with`, `src/c_api/status.rs` lines 58-60. -/
def Messages.set (m : Messages) (thread : ThreadId) (message : String) : Messages :=
  fun t => if t = thread then message else m t

/-- `From<Error> for eqs_status_t`, `src/c_api/status.rs` lines 55-70, running on the given
thread. `none` is a panic: `CString::new` fails if the message contains a NUL character, before the
message is stored. -/
def Error.toStatus (e : Error) (thread : ThreadId) (m : Messages) : Messages × Option Int32 :=
  if e.display.toList.contains '\x00' then
    (m, none)
  else
    (m.set thread e.display, some e.status)

/-- `catch_unwind`, `src/c_api/status.rs` lines 74-80, where `r` is the outcome of the function
and `From<Box<dyn Any>> for Error` (`src/lib.rs` lines 111-123) turns the message of a panic in an
internal error. `none` when the panic is not caught, as it happens after the call to
`std::panic::catch_unwind`: this panic reaches the C caller, which is not allowed to see
it (depending on the version of the compiler, the process is aborted or the behaviour is undefined).
Simplification: all the panics of this crate have a string as payload. -/
def catchUnwind (thread : ThreadId) (r : Res Unit) (m : Messages) : Messages × Option Int32 :=
  match r with
  | .ok () => (m, some successStatus)
  | .err e => e.toStatus thread m
  | .panic message => (Error.internal message).toStatus thread m

/-- `eqs_last_error`, `src/c_api/status.rs` lines 105-122. -/
def lastError (thread : ThreadId) (m : Messages) : String := m thread

end Equistore
