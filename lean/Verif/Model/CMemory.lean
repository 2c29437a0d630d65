import Verif.Model.Res
import Verif.Model.Bytes

/-!
# Functions accessing the memory of the C caller
-/

namespace Equistore

/-- A function with access to mutable memory `σ`, returning `Result<α, Error>`. `none` is undefined
behaviour: an access outside of the memory it was given, or to something which no longer exists.
The functions of `src/c_api/blocks.rs`, `src/c_api/tensor.rs` lines 63-359. -/
def CAct (σ α : Type) : Type := σ → Option (σ × Res α)

namespace CAct

/-- Sequencing: the rest only runs on `Ok`; the state is kept in all cases. `?` in the closures of `src/c_api/tensor.rs` lines 63-359. -/
@[inline] protected def bind {σ α β : Type} (x : CAct σ α) (f : α → CAct σ β) : CAct σ β := fun s =>
  match x s with
  | none => none
  | some (s', .ok a) => f a s'
  | some (s', .err e) => some (s', .err e)
  | some (s', .panic m) => some (s', .panic m)

/-- Sequencing of statements in the closures of `src/c_api/tensor.rs` lines 63-359. -/
instance {σ : Type} : Monad (CAct σ) where
  pure a := fun s => some (s, .ok a)
  bind := CAct.bind

/-- Run something which does not touch the memory. For example `check_pointers!`, `src/c_api/status.rs` lines 84-99. -/
def lift {σ α : Type} (x : Res α) : CAct σ α := fun s => some (s, x)

/-- Undefined behaviour. The conditions in the `unsafe` blocks of `src/c_api/tensor.rs` lines 63-359 are not met. -/
def undefined {σ α : Type} : CAct σ α := fun _ => none

/-- Read the state. Reading through a pointer in `src/c_api/tensor.rs` lines 63-359. -/
def get {σ : Type} : CAct σ σ := fun s => some (s, .ok s)

/-- Replace the state. Writing through a pointer in `src/c_api/tensor.rs` lines 63-359. -/
def set {σ : Type} (s : σ) : CAct σ Unit := fun _ => some (s, .ok ())

/-- Something which has to exist. Used for pointers in `src/c_api/tensor.rs` lines 63-359. -/
def require {σ α : Type} (x : Option α) : CAct σ α := fun s => x.map fun a => (s, .ok a)

end CAct

/-- `CStr::from_ptr(..).to_bytes()`: the bytes up to the first NUL. Simplification: `memory` is what
can be read starting at the pointer, and contains a NUL.
Used in `src/c_api/labels.rs` line 47, `src/c_api/blocks.rs` lines 186, 242, 288, `src/c_api/io.rs` lines 28, 65. -/
def cstrBytes (memory : Bytes) : Bytes := memory.takeWhile (· != 0)

/-- `CStr::from_ptr(..).to_str()`: `none` if this is not valid UTF-8.
Used in `src/c_api/labels.rs` lines 47-48, `src/c_api/blocks.rs` lines 186, 242, 288, `src/c_api/io.rs` lines 28, 65. -/
def cstrStr (memory : Bytes) : Option String := String.fromUTF8? ⟨(cstrBytes memory).toArray⟩

/-- The bytes of a string, encoded in UTF-8. `str::as_bytes`, used in `src/c_api/utils.rs` lines 5-18. -/
def utf8Bytes (s : String) : Bytes := s.toUTF8.data.toList

/-- The memory of a `CString` made from `s`. `ConstCString::new`, `src/utils.rs` lines 12-14. -/
def cstring (s : String) : Bytes := utf8Bytes s ++ [0]

/-- A `NULL` pointer is rejected by `check_pointers!`, `src/c_api/status.rs` lines 84-99. The name of
the pointer is in the message; simplification: the location in the source is not. -/
def checkPointer {α : Type} (name : String) (pointer : Option α) : Res α :=
  Res.okOr pointer (.invalidParameter ("got invalid NULL pointer for " ++ name))

/-- Write `bytes` at position `i` of a buffer: `none` when this is not inside of the buffer.
`copy_str_to_c`, `src/c_api/utils.rs` lines 5-18. -/
def writeAt {α : Type} (buffer : List α) (i : Nat) (bytes : List α) : Option (List α) :=
  if i + bytes.length ≤ buffer.length then
    some (buffer.take i ++ bytes ++ buffer.drop (i + bytes.length))
  else
    none

end Equistore
