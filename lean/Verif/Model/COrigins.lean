import Verif.Model.CBuffers

/-!
# Data origins from C

Models `src/c_api/data.rs` lines 19-58 with all pointers: programs which register names of data origins and ask for them.
-/

namespace Equistore

/-- `eqs_register_data_origin` inside of `catch_unwind`, `src/c_api/data.rs` lines 24-31. `name` is what can be read at this
pointer, it has to contain a NUL. The state is the registry and the number behind `origin`, `none` for `NULL`.
Simplification: `unwrap` shows more about the error in the message of the panic. -/
def registerDataOriginC (name : Option Bytes) : CAct (List String × Option Nat) Unit := do
  let name ← CAct.lift (checkPointer "name" name)
  let (_, origin) ← CAct.get
  let _ ← CAct.lift (checkPointer "origin" origin)
  let name ← CAct.require (if 0 ∈ name then some name else none)
  let name ← CAct.lift (Res.expect (cstrStr name) "called `Result::unwrap()` on an `Err` value")
  let (registry, _) ← CAct.get
  let (registry, id) := Origins.register registry name
  CAct.set (registry, some id)

/-- `eqs_get_data_origin` inside of `catch_unwind`, `src/c_api/data.rs` lines 52-57. The buffer can be `NULL`. -/
def getDataOriginAt (build : Build) (registry : List String) (origin size : Nat) : CAct (Option Bytes) Unit := fun buffer =>
  match checkPointer "buffer" buffer with
  | .ok buffer => (getDataOriginC build registry origin size buffer).map fun x => (some x.1, x.2)
  | .err e => some (buffer, .err e)
  | .panic m => some (buffer, .panic m)

/-- What is shared by all calls: the registry (`src/data.rs` lines 19-23) and the last errors of all threads
(`src/c_api/status.rs` lines 12-14). -/
structure COrigins where
  registry : List String
  messages : Messages

/-- When the program starts, `src/data.rs` lines 19-23. -/
def COrigins.init : COrigins := ⟨Origins.init, Messages.init⟩

/-- A call of `eqs_register_data_origin` (`src/c_api/data.rs` lines 19-32) or `eqs_get_data_origin` (lines 47-58) with all
parameters. `none` is a `NULL` pointer. Simplification: different calls do not share memory. -/
inductive OriginCall where
  | register (thread : ThreadId) (name : Option Bytes) (origin : Option Nat)
  | get (thread : ThreadId) (origin : Nat) (buffer : Option Bytes) (size : Nat)

/-- What the caller sees: the status, and the memory behind `origin` or `buffer` after the call.
`src/c_api/data.rs` lines 19-58. -/
structure OriginReply where
  status : Option Int32
  origin : Option Nat
  buffer : Option Bytes
  deriving DecidableEq

/-- One call, `src/c_api/data.rs` lines 19-58. `none` is undefined behaviour. Panics do not happen while the registry is locked
(`src/data.rs` lines 28 and 45), so that the mutex is never poisoned. -/
def OriginCall.run (build : Build) (call : OriginCall) (s : COrigins) : Option (COrigins × OriginReply) :=
  match call with
  | .register thread name origin =>
    match registerDataOriginC name (s.registry, origin) with
    | none => none
    | some ((registry, origin), r) =>
      let (messages, status) := catchUnwind thread r s.messages
      some (⟨registry, messages⟩, ⟨status, origin, none⟩)
  | .get thread origin buffer size =>
    match getDataOriginAt build s.registry origin size buffer with
    | none => none
    | some (buffer, r) =>
      let (messages, status) := catchUnwind thread r s.messages
      some (⟨s.registry, messages⟩, ⟨status, none, buffer⟩)

/-- All calls of a program, in the order in which they lock the registry (`src/data.rs` lines 28 and 45). -/
def OriginCall.runAll (build : Build) : List OriginCall → COrigins → Option (COrigins × List OriginReply)
  | [], s => some (s, [])
  | call :: calls, s =>
    match call.run build s with
    | none => none
    | some (s, reply) =>
      match runAll build calls s with
      | none => none
      | some (s, replies) => some (s, reply :: replies)

end Equistore
