import Verif.Model.Mixed
import Verif.Spec.Backend

/-!
# Specification vocabulary for arrays of several implementations
-/

namespace Equistore
namespace Spec

variable {ι : Type} {Arr : ι → Type} {wrong : Confusion Arr}

/-- The same array, when something else happens to arrays given to callbacks of another implementation. -/
def Mixed.confusedBy (wrong' : Confusion Arr) (a : Mixed Arr wrong) : Mixed Arr wrong' := ⟨a.impl, a.array⟩

/-- All the arrays of a block, its values and its gradients, come from this implementation. -/
def BlockFrom (i : ι) (b : TensorBlock (Mixed Arr wrong)) : Prop :=
  b.values.data.impl = i ∧ ∀ name g, (name, g) ∈ b.gradients → g.data.impl = i

/-- The values of the blocks which become one block come from one implementation. -/
def GroupsFromOne (t : TensorMap (Mixed Arr wrong)) (moved : List String) : Prop :=
  ∀ pairs, t.iter = .ok pairs → ∀ key', ∀ a ∈ group t.keys.names moved pairs key',
    ∀ b ∈ group t.keys.names moved pairs key', a.2.values.data.impl = b.2.values.data.impl

/-- The condition for an operation: nothing for `components_to_properties`, which merges no blocks. -/
def Op.MergesOne (t : TensorMap (Mixed Arr wrong)) : Op → Prop
  | .keysToSamples k _ => GroupsFromOne t k.names
  | .keysToProperties k _ => GroupsFromOne t k.names
  | .componentsToProperties _ => True

/-- The condition for a sequence of operations: each of them meets it on the tensor map it starts with. -/
def EachMergesOne [DecidableEq ι] [∀ i, ArrayLike (Arr i)] (build : Build) :
    (Nat → HashOrder) → List Op → TensorMap (Mixed Arr wrong) → Prop
  | _, [], _ => True
  | hash, op :: ops, t => op.MergesOne t ∧
    ((op.run build (hash 0) t).2 = .ok () →
      EachMergesOne build (fun n => hash (n + 1)) ops (op.run build (hash 0) t).1)

/-- Every implementation has its own origin, and its arrays always tell it. -/
def OriginsDiffer (Arr : ι → Type) [∀ i, ArrayLike (Arr i)] : Prop :=
  ∃ origin : ι → Nat, Function.Injective origin ∧ ∀ i (a : Arr i), ArrayLike.origin a = .ok (origin i)

end Spec
end Equistore
