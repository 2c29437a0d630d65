import Verif.Spec.Components

/-!
# Blocks where every value can be recognized
-/

namespace Equistore
namespace Spec

/-- The block contains values, and no value twice, so that one can tell where each of them goes. -/
structure Recognizable (b : BasicBlock NdArray) : Prop where
  /-- there is at least one value -/
  nonempty : ∃ sample components property x, HasValue b sample components property x
  /-- values under different labels are different -/
  different : ∀ sample components property sample' components' property' x, HasValue b sample components property x →
    HasValue b sample' components' property' x →
    sample = sample' ∧ components = components' ∧ property = property'

/-- The order of these components does not matter when counting their entries: there is at most one of them, one
has no entries, or either the last one or all the others have a single entry. -/
def OrderIrrelevant (post : List Labels) : Prop :=
  post.length ≤ 1 ∨ (∃ c ∈ post, entriesOf c = []) ∨ (∀ c ∈ post.getLast?, (entriesOf c).length = 1) ∨
    ∀ c ∈ post.dropLast, (entriesOf c).length = 1

end Spec
end Equistore
