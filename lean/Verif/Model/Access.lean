import Verif.Model.Tensor

/-!
# Read-write access to blocks

Models the part of the Rust interface giving `&mut BasicBlock`: `TensorBlock::values_mut`, `TensorBlockRefMut`,
`TensorMap::block_mut` and `iter_mut`, in `src/blocks.rs` and `src/tensor/mod.rs`.
-/

namespace Equistore

variable {A : Type}

/-- The basic blocks of a block which can be asked for: `values_mut`, `gradient_mut` and the items of `gradients_mut`
(`src/blocks.rs` lines 349-376). -/
inductive Place
  | values
  | gradient (parameter : String)
  deriving DecidableEq

/-- The value behind a `&mut HashMap` entry replaced, as by `HashMap::get_mut`, `src/blocks.rs` line 375. -/
def replaceGradient (parameter : String) (b : BasicBlock A) :
    List (String × BasicBlock A) → List (String × BasicBlock A)
  | [] => []
  | (name, g) :: rest => if name = parameter then (name, b) :: rest else (name, g) :: replaceGradient parameter b rest

/-- What is at a place, `src/blocks.rs` lines 345-370. -/
def TensorBlock.read (b : TensorBlock A) : Place → Option (BasicBlock A)
  | .values => some b.values
  | .gradient parameter => b.gradient parameter

/-- `*block.values_mut() = new` and `*block.gradient_mut(parameter)? = new`, `src/blocks.rs` lines 349-376, where
nothing happens if there is no such gradient. All the fields of `BasicBlock` are public (lines 37-42), so that what a
program leaves behind a `&mut BasicBlock` is any basic block it has. -/
def TensorBlock.write (b : TensorBlock A) (new : BasicBlock A) : Place → TensorBlock A
  | .values => { b with values := new }
  | .gradient parameter => { b with gradients := replaceGradient parameter new b.gradients }

/-- `TensorMap::block_mut`, `src/tensor/mod.rs` lines 157-160, followed by a write. The index is checked. -/
def TensorMap.writeBlock (t : TensorMap A) (i : Nat) (place : Place) (new : BasicBlock A) : Res (TensorMap A) :=
  match t.blocks[i]? with
  | some b => .ok { t with blocks := t.blocks.set i (b.write new place) }
  | none => .panic "index out of bounds"

end Equistore
