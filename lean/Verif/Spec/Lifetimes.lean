import Verif.Spec.Ownership
import Verif.Model.CBlocks

/-!
# How long labels stay valid

The labels which are returned by `eqs_block_labels` and `eqs_tensormap_keys` point into memory which belongs to
the block or tensor map. `include/equistore.h` lines 365-368 and 484-488 (and `src/c_api/blocks.rs`, `src/c_api/tensor.rs`)
say when they become invalid. A program which follows this documentation reads from these pointers at any point
before that, so the memory has to be there, with the same content.

Simplification: labels are behind an `Arc` and never change once they have been made, so the memory of labels is
identified with their content. It is there as long as some block or tensor map has these labels.
-/

namespace Equistore
namespace Spec

/-- Where a block is, whatever the address of the memory: on its own or at some position in a tensor map. -/
inductive Place where
  | alone (block : Nat)
  | inside (tensor : Nat) (index : Nat)
  deriving DecidableEq

/-- The block a pointer points to. -/
def Place.of : BlockPtr → Option Place
  | .null => none
  | .owned n => some (.alone n)
  | .inside t _ i => some (.inside t i)

/-- The block at a place, if there is one. -/
def Place.block {B : Type} (h : Heap B) : Place → Option (TensorBlock CArray)
  | .alone n => h.blocks n
  | .inside t i => (h.tensors t).bind fun x => x.1.blocks[i]?

/-- Where a block is after a call, or `none` when the documentation says that its labels become invalid: the block
or the tensor map it is in is destroyed, or it is in a tensor map whose keys were moved. -/
def Place.after {B : Type} (c : Call B) (reply : Reply) : Place → Option Place
  | .alone n =>
    match c, reply with
    | .blockFree (.owned m), _ => if m = n then none else some (.alone n)
    | .tensormap _ blocks, .newTensor (.ok t) _ =>
      if .owned n ∈ blocks then some (.inside t (blocks.idxOf (.owned n))) else some (.alone n)
    | .tensormap _ blocks, .newTensor _ pointers =>
      -- `eqs_tensormap` failed, and the pointer to this block is `NULL` now: the block was destroyed
      if (.owned n, .null) ∈ blocks.zip pointers then none else some (.alone n)
    | _, _ => some (.alone n)
  | .inside t i =>
    match c, reply with
    | .tensormapFree (some m), _ => if m = t then none else some (.inside t i)
    | .keysToProperties (some m) _ _, .done (.ok _) => if m = t then none else some (.inside t i)
    | .keysToSamples (some m) _ _, .done (.ok _) => if m = t then none else some (.inside t i)
    | _, _ => some (.inside t i)

/-- What a program following the rules can do from one point to a later one such that, according to the
documentation, the labels of the block at `place` stay valid, without calls in `except`. -/
inductive Lives {B : Type} [Inhabited B] [ArrayCallbacks B] (except : Place → Call B → Prop)
    (place : Place) (h : Heap B) (l : Ledger) : Place → Heap B → Ledger → Prop
  | now : Lives except place h l place h l
  | step {place₁ place₂ : Place} {h₁ h₂ : Heap B} {l₁ : Ledger} {c : Call B} {reply : Reply} (p : Platform) :
    Lives except place h l place₁ h₁ l₁ → c.Allowed l₁ → ¬except place₁ c → c.run p h₁ = some (h₂, reply) →
    place₁.after c reply = some place₂ → Lives except place h l place₂ h₂ (l₁.record c reply)

/-- According to the documentation, the keys of this tensor map are still valid after a call: the tensor map was not
destroyed and its keys were not moved. -/
def LeavesKeys {B : Type} (tensor : Nat) : Call B → Reply → Prop
  | .tensormapFree (some m), _ => m ≠ tensor
  | .keysToProperties (some m) _ _, .done (.ok _) => m ≠ tensor
  | .keysToSamples (some m) _ _, .done (.ok _) => m ≠ tensor
  | _, _ => True

/-- What a program following the rules can do from one point to a later one such that, according to the
documentation, the keys of a tensor map stay valid. -/
inductive KeysLive {B : Type} [Inhabited B] [ArrayCallbacks B] (tensor : Nat) (h : Heap B) (l : Ledger) :
    Heap B → Ledger → Prop
  | now : KeysLive tensor h l h l
  | step {h₁ h₂ : Heap B} {l₁ : Ledger} {c : Call B} {reply : Reply} (p : Platform) :
    KeysLive tensor h l h₁ l₁ → c.Allowed l₁ → c.run p h₁ = some (h₂, reply) →
    LeavesKeys tensor c reply → KeysLive tensor h l h₂ (l₁.record c reply)

/-- `eqs_tensormap_components_to_properties` on the tensor map this block is in. -/
def MovesComponents {B : Type} : Place → Call B → Prop
  | .inside t _, .componentsToProperties tensor _ => tensor = some t
  | _, _ => False

/-- Nothing is excluded. -/
def Nothing {B : Type} : Place → Call B → Prop := fun _ _ => False

/-- One of the axes of the values or of a gradient of this block has these labels. -/
def HasLabels {A : Type} (b : TensorBlock A) (labels : Labels) : Prop :=
  ∃ part, (part = b.values ∨ part ∈ b.gradients.map (·.2)) ∧
    (labels = part.samples ∨ labels ∈ part.components ∨ labels = part.properties)

/-- The memory of these labels exists: some block or tensor map has them. -/
def InMemory {B : Type} (h : Heap B) (labels : Labels) : Prop :=
  (∃ n b, h.blocks n = some b ∧ HasLabels b labels) ∨
  (∃ n t v, h.tensors n = some (t, v) ∧ (labels = t.keys ∨ ∃ b ∈ t.blocks, HasLabels b labels))

end Spec
end Equistore
