import Verif.Model.CStatus
import Verif.Model.CLabels
import Verif.Model.Tensor

/-!
# C API functions writing in buffers of the caller

Models `src/c_api/utils.rs`, `eqs_get_data_origin`, `eqs_tensormap_blocks_matching` and
the Python function `_call_with_growing_buffer`.
-/

namespace Equistore

/-- `copy_str_to_c`, `src/c_api/utils.rs` lines 5-18, where `buffer` is the memory of the caller. -/
def copyStrToC (build : Build) (string : Bytes) (buflen : Nat) : CAct Bytes Unit := do
  let max ← CAct.lift (usizeSub build buflen 1)
  let size := min string.length max
  CAct.lift (Res.guardErr (!(size < string.length)) (.invalidParameter
    s!"got space for {size} characters, but we need to write {string.length}"))
  let buffer ← CAct.get
  let buffer ← CAct.require (writeAt buffer 0 (string.take size))
  let buffer ← CAct.require (writeAt buffer size [0])
  CAct.set buffer

/-- `eqs_get_data_origin` inside of `catch_unwind`, `src/c_api/data.rs` lines 47-58, for a buffer
which is not `NULL` and with the given content for the registry of origins. -/
def getDataOriginC (build : Build) (origins : List String) (origin bufferSize : Nat) :
    CAct Bytes Unit := do
  let name ← CAct.lift (Origins.get origins origin)
  copyStrToC build (utf8Bytes name) bufferSize

/-- The loop writing the indexes in `eqs_tensormap_blocks_matching`, `src/c_api/tensor.rs` lines
218-220, on a slice of `capacity` elements at the start of the memory of the caller. -/
def writeIndexes (capacity : Nat) : Nat → List Nat → CAct (List Nat × Nat) Unit
  | _, [] => pure ()
  | idx, block :: blocks => do
    CAct.lift (Res.assert (idx < capacity) "index out of bounds")
    let (buffer, count) ← CAct.get
    let buffer ← CAct.require (writeAt buffer idx [block])
    CAct.set (buffer, count)
    writeIndexes capacity (idx + 1) blocks

/-- `eqs_tensormap_blocks_matching` inside of `catch_unwind`, `src/c_api/tensor.rs` lines 211-223,
for pointers which are not `NULL`. The memory is what is at `block_indexes`, and `*count`. -/
def blocksMatchingC {A : Type} [ArrayLike A] (t : TensorMap A) (selection : CLabels) :
    CAct (List Nat × Nat) Unit := do
  let selection ← CAct.lift (Labels.ofC selection)
  let blocks ← CAct.lift (t.blocksMatching selection)
  let (buffer, capacity) ← CAct.get
  CAct.set (buffer, blocks.length)
  writeIndexes capacity 0 blocks

/-! ### Python -/

/-- Outcome of a Python call: a value or an `EquistoreError` with a status and a message. `equistore/status.py` lines 8-18. -/
inductive PyResult (α : Type) where
  | value (a : α)
  | raised (status : Int32) (message : String)
  deriving DecidableEq, Repr

/-- One call of the callback in `data_origin_name` (`equistore/data.py` lines 151-156): a fresh
buffer of `bufflen` zeros (`ctypes.create_string_buffer`), a call to `eqs_get_data_origin`,
and `_check_status` (`equistore/status.py` lines 29-38), which raises for any status
other than 0. `none` is undefined behaviour or a panic which is not caught. -/
def pyGetDataOrigin (build : Build) (origins : List String) (origin bufflen : Nat)
    (thread : ThreadId) (m : Messages) : Option (Messages × PyResult Bytes) :=
  match getDataOriginC build origins origin bufflen (List.replicate bufflen 0) with
  | none => none
  | some (buffer, r) =>
    match catchUnwind thread r m with
    | (_, none) => none
    | (m, some status) =>
      if status = successStatus then some (m, .value buffer)
      else some (m, .raised status (lastError thread m))

/-- The loop of `_call_with_growing_buffer`, `equistore/utils.py` lines 14-24, with at most `fuel`
iterations (`none` when this is not enough), for a callback `call`. Python integers do not
overflow. -/
def pyGrow {σ : Type} (call : Nat → σ → Option (σ × PyResult Bytes)) :
    Nat → Nat → σ → Option (σ × PyResult Bytes)
  | 0, _, _ => none
  | fuel + 1, bufflen, s =>
    match call bufflen s with
    | none => none
    | some (s, .value buffer) => some (s, .value buffer)
    | some (s, .raised status message) =>
      if status = bufferSizeStatus then pyGrow call fuel (bufflen * 2) s
      else some (s, .raised status message)

/-- `data_origin_name`, `equistore/data.py` lines 151-156: `_call_with_growing_buffer` with its
default initial size, then `buffer.value.decode("utf8")` (`equistore/utils.py` lines 11-25). A
decoding error is not an `EquistoreError` and is not modelled further (`none`). -/
def pyDataOriginName (fuel : Nat) (build : Build) (origins : List String) (origin : Nat)
    (thread : ThreadId) (m : Messages) : Option (Messages × PyResult String) :=
  match pyGrow (fun bufflen m => pyGetDataOrigin build origins origin bufflen thread m) fuel 1024 m with
  | none => none
  | some (m, .raised status message) => some (m, .raised status message)
  | some (m, .value buffer) =>
    match cstrStr buffer with
    | none => none
    | some name => some (m, .value name)

end Equistore
