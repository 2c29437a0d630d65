import Verif.Model.Res

/-!
# Functions taking `&mut self`

`Act σ α` is a function with access to a mutable `σ`: it returns the final state
together with the outcome, so the state left behind by a failure is visible.
-/

namespace Equistore

/-- A Rust function taking `&mut σ` and returning `Result<α, Error>`.
For example `TensorBlock::add_gradient`, `src/blocks.rs` lines 236-309. -/
def Act (σ α : Type) : Type := σ → σ × Res α

namespace Act

/-- Sequencing: the rest only runs on `Ok`; the state is kept in all cases.
This is `?` in functions with `&mut`, for example `src/blocks.rs` lines 243-295. -/
@[inline] protected def bind {σ α β : Type} (x : Act σ α) (f : α → Act σ β) : Act σ β := fun s =>
  match x s with
  | (s', .ok a) => f a s'
  | (s', .err e) => (s', .err e)
  | (s', .panic m) => (s', .panic m)

/-- Sequencing of statements in functions with `&mut`, for example `src/blocks.rs` lines 127-174. -/
instance {σ : Type} : Monad (Act σ) where
  pure a := fun s => (s, .ok a)
  bind := Act.bind

/-- Run something which does not touch the state. For example the checks in `src/blocks.rs` lines 243-295. -/
def lift {σ α : Type} (x : Res α) : Act σ α := fun s => (s, x)

/-- Read the state. Access to `self`, for example `src/blocks.rs` lines 127-174. -/
def get {σ : Type} : Act σ σ := fun s => (s, .ok s)

/-- Replace the state. Assignment to the fields of `self`, for example `src/tensor/keys_to_samples.rs` lines 93-94. -/
def set {σ : Type} (s : σ) : Act σ Unit := fun _ => (s, .ok ())

/-- Run an action on a part of the state.
Method calls on fields, for example `self.values.components_to_properties` in `src/blocks.rs` lines 311-322. -/
def focus {σ τ α : Type} (read : σ → τ) (write : τ → σ → σ) (x : Act τ α) : Act σ α := fun s =>
  let (t, r) := x (read s)
  (write t s, r)

/-- Sequencing of statements in functions with `&mut`, for example `src/blocks.rs` lines 127-174. -/
instance {σ α : Type} : Coe (Res α) (Act σ α) := ⟨lift⟩

end Act

end Equistore
