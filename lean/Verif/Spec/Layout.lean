import Verif.Spec.Backend
import Verif.Model.Strided

/-!
# Specification vocabulary for the memory of arrays
-/

namespace Equistore
namespace Spec

/-- The data of an `ndarray` array can be read by C code: `data` gives a pointer to memory where the element with
index `(i, j, ...)` is at the position it has in row-major order. -/
def InRowMajorOrder (a : Strided) : Prop :=
  ∃ memory, ArrayLike.data a = .ok memory ∧ memory.length = shapeSize a.shape ∧
    ∀ idx, InShape a.shape idx → memory[offset a.shape idx]? = some (a.get idx)

/-- When moving a component to the properties does not change the order of elements in memory: there is no other
component after it, or there are several entries in this component, and several properties. -/
def KeepsOrder {A : Type} (names : List String) (b : BasicBlock A) : Prop :=
  ∀ before moved after, b.components = before ++ moved :: after → moved.names = names →
    after = [] ∨ (moved.count ≠ .ok 1 ∧ b.properties.count ≠ .ok 1)

/-- An operation does not change the order of elements in memory. -/
def Op.KeepsOrder {A : Type} (t : TensorMap A) : Op → Prop
  | .keysToSamples _ _ => True
  | .keysToProperties _ _ => True
  | .componentsToProperties names => ∀ b ∈ t.blocks, Spec.KeepsOrder names b.values ∧
      ∀ p ∈ b.gradients, Spec.KeepsOrder names p.2

/-- None of the operations, applied one after the other, changes the order of elements in memory. -/
def AllKeepOrder {A : Type} [ArrayLike A] (build : Build) : (Nat → HashOrder) → List Op → TensorMap A → Prop
  | _, [], _ => True
  | hash, op :: ops, t => Op.KeepsOrder t op ∧
    ∀ t', op.run build (hash 0) t = (t', .ok ()) → AllKeepOrder build (fun n => hash (n + 1)) ops t'

end Spec
end Equistore
