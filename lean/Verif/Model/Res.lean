/-!
# Outcomes of Rust calls

Models `src/lib.rs` lines 50-123 (the `Error` enum) and the three ways a Rust
call can end: `Ok(value)`, `Err(error)` or a panic.
-/

namespace Equistore

/-- The error type of the crate. Models `src/lib.rs` lines 50-66. The payloads of
`Io` and `Utf8Error`-like variants are simplified to their message. -/
inductive Error where
  | invalidParameter (message : String)
  | bufferSize (message : String)
  | io (message : String)
  | serialization (message : String)
  | external (status : Int32) (context : String)
  | internal (message : String)
  deriving DecidableEq, Repr

/-- Outcome of a Rust function returning `Result<α, Error>`, or which may
panic. A panic carries its message, since `src/lib.rs` lines 111-123 turn the
message of a caught panic into `Error::Internal`. -/
inductive Res (α : Type) where
  | ok (value : α)
  | err (error : Error)
  | panic (message : String)
  deriving DecidableEq, Repr

namespace Res

/-- The `?` operator and panic propagation. For example `src/tensor/mod.rs` lines 80-150. -/
@[inline] protected def bind {α β : Type} (x : Res α) (f : α → Res β) : Res β :=
  match x with
  | .ok a => f a
  | .err e => .err e
  | .panic m => .panic m

/-- Sequencing of statements, for example `src/tensor/mod.rs` lines 80-150. -/
instance : Monad Res where
  pure := .ok
  bind := Res.bind

/-- `assert!(cond, message)`: panics when the condition is false. For example `src/labels.rs` lines 134-138. -/
def assert (cond : Bool) (message : String) : Res Unit :=
  if cond then .ok () else .panic message

/-- `if !cond { return Err(error); }`. For example `src/blocks.rs` lines 48-62. -/
def guardErr (cond : Bool) (error : Error) : Res Unit :=
  if cond then .ok () else .err error

/-- `Option::expect` and checked indexing: panics on `None`. For example `src/labels.rs` line 175. -/
def expect {α : Type} (x : Option α) (message : String) : Res α :=
  match x with
  | some a => .ok a
  | none => .panic message

/-- `Result::expect`: an error becomes a panic. For example `src/tensor/keys_to_samples.rs` lines 202-204. -/
def expectOk {α : Type} (x : Res α) (message : String) : Res α :=
  match x with
  | .ok a => .ok a
  | .err _ => .panic message
  | .panic m => .panic m

/-- `Option::ok_or`. For example `src/c_api/blocks.rs` lines 190-196. -/
def okOr {α : Type} (x : Option α) (error : Error) : Res α :=
  match x with
  | some a => .ok a
  | none => .err error

end Res

/-- Build configuration of the crate: whether `debug_assert!` and arithmetic
overflow checks are active (`cargo build` versus `cargo build --release`).
For example `src/labels.rs` line 293 and `src/tensor/utils.rs` line 92. -/
structure Build where
  debug : Bool
  deriving DecidableEq, Repr

/-- `debug_assert!(cond, message)`. For example `src/labels.rs` line 293 and `src/tensor/utils.rs` line 92. -/
def Build.debugAssert (b : Build) (cond : Bool) (message : String) : Res Unit :=
  if b.debug then Res.assert cond message else .ok ()

/-- Iteration order of a `HashMap` with string keys (`std::collections::HashMap`
is seeded randomly): any function which permutes the entries. All theorems
quantify over it. `TensorBlock.gradients`, `src/blocks.rs` line 180. -/
structure HashOrder where
  order : {β : Type} → List (String × β) → List (String × β)
  perm : ∀ {β : Type} (l : List (String × β)), (order l).Perm l

/-- Insertion order, one possible `HashOrder`. `TensorBlock.gradients`, `src/blocks.rs` line 180. -/
def HashOrder.insertion : HashOrder where
  order := id
  perm := fun _ => List.Perm.refl _

/-- Reverse insertion order, another possible `HashOrder`. `TensorBlock.gradients`, `src/blocks.rs` line 180. -/
def HashOrder.reversed : HashOrder where
  order := List.reverse
  perm := fun l => List.reverse_perm l

end Equistore
