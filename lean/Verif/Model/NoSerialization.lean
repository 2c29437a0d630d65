import Verif.Model.Files
import Verif.Model.CStatus

/-!
# The library without support for files

Models `src/lib.rs` lines 34-46 and `src/c_api/io.rs` for a library built without the feature `serialization`, which is not part of the default features
(`Cargo.toml` lines 26-28).
-/

namespace Equistore
namespace NoSerialization

/-- The error of all functions in `io`, `src/lib.rs` lines 34-46. -/
def notEnabled : Error := .serialization "serialization was not enabled in equistore"

variable {A : Type}

/-- `save`, `src/lib.rs` lines 43-45. -/
def save (_tensor : TensorMap A) : Res Unit := .err notEnabled

/-- `load`, `src/lib.rs` lines 39-41. -/
def load : Res (TensorMap NdArray) := .err notEnabled

/-- The closure in `eqs_tensormap_save`, `src/c_api/io.rs` lines 61-69. `File::create` makes an existing file
empty, and nothing is written to it: empty files are one of the cases of `Content.notArchive`. `canCreate` says whether
the system lets the process create this file. -/
def saveFile (canCreate : Bool) (path : Option Bytes) (tensor : Option (TensorMap A)) : Act Files Unit := do
  let memory ← Act.lift (checkPointer "path" path)
  let tensor ← Act.lift (checkPointer "tensor" tensor)
  let path ← Act.lift (Res.expect (cstrStr memory) "use UTF-8 for path")
  Act.lift (Res.guardErr canCreate (.io "Permission denied"))
  fun files => (files.write path .notArchive, save tensor)

/-- The closure in `eqs_tensormap_load`, `src/c_api/io.rs` lines 24-36. -/
def loadFile (path : Option Bytes) (files : Files) : Res (TensorMap NdArray) := do
  let memory ← checkPointer "path" path
  let path ← Res.expect (cstrStr memory) "use UTF-8 for path"
  match files path with
  | none => .err (.io "No such file or directory")
  | some _ => load

/-- A call to one of the functions. `src/c_api/io.rs` lines 19-71. -/
inductive Call (A : Type) where
  | save (canCreate : Bool) (path : Option Bytes) (tensor : Option (TensorMap A))
  | load (path : Option Bytes)

/-- Run a call on a thread: the files, the messages, and the status (`none` if the failure can not be reported).
Simplification: for `eqs_tensormap_load` this is the status inside of the function, which gives a `NULL` pointer if
this is not `EQS_SUCCESS` (lines 39-41). `src/c_api/io.rs` lines 19-71. -/
def Call.run (thread : ThreadId) (state : Files × Messages) : Call A → (Files × Messages) × Option Int32
  | .save canCreate path tensor =>
    let (files, r) := saveFile canCreate path tensor state.1
    let (messages, status) := catchUnwind thread r state.2
    ((files, messages), status)
  | .load path =>
    let (messages, status) := catchUnwind thread ((loadFile path state.1).bind fun _ => .ok ()) state.2
    ((state.1, messages), status)

end NoSerialization
end Equistore
