import Verif.Model.Access
import Verif.Spec.History

/-!
# Specification vocabulary for read-write access to blocks
-/

namespace Equistore
namespace Spec

variable {A : Type} [ArrayLike A]

/-- Basic blocks a program can have: labels which can be built, and components which were accepted for a block, since
there is no other way to make an `ImmutableVec`. Any array can be assigned to `data`. -/
structure CanHave (b : BasicBlock A) : Prop where
  samples : b.samples.FromBuilder
  properties : b.properties.FromBuilder
  components : ComponentsOk b.components ∧ ∀ c ∈ b.components, c.FromBuilder

/-- One write: the index of a block, the place in it, and what is written. -/
structure Write (A : Type) where
  block : Nat
  place : Place
  new : BasicBlock A

/-- Any number of writes, one after the other, until one panics. -/
def runWrites : List (Write A) → TensorMap A → Res (TensorMap A)
  | [], t => .ok t
  | w :: ws, t => do
    let t ← t.writeBlock w.block w.place w.new
    runWrites ws t

/-- What is at a place of a block of a tensor map. -/
def readAt (t : TensorMap A) (i : Nat) (place : Place) : Option (BasicBlock A) :=
  (t.blocks[i]?).bind fun b => b.read place

/-- Every write replaces what is there with the same labels, and an array with the same shape and origin. -/
def OnlyElements : List (Write A) → TensorMap A → Prop
  | [], _ => True
  | w :: ws, t => (∀ b, readAt t w.block w.place = some b → BasicWritten b w.new) ∧
    ∀ t', t.writeBlock w.block w.place w.new = .ok t' → OnlyElements ws t'

end Spec
end Equistore
