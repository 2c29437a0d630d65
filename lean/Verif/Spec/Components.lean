import Verif.Spec.Merge

/-!
# Specification vocabulary for moving components to properties
-/

namespace Equistore
namespace Spec
variable {A : Type} [ArrayLike A]

/-- How the labels of values or gradients change when the component with the given names is
moved to the properties: this component is removed, the properties are all the
pairs of an entry of this component and an old property, in component-major order. -/
def ComponentMoved (vars : List String) (b b' : BasicBlock A) : Prop :=
  ∃ pre c post, b.components = pre ++ c :: post ∧ c.names = vars ∧
    b'.components = pre ++ post ∧ b'.samples = b.samples ∧
    b'.properties.names = vars ++ b.properties.names ∧
    entriesOf b'.properties = (entriesOf c).flatMap fun e => (entriesOf b.properties).map (e ++ ·)

/-- What an array backend must satisfy: after a successful `reshape` the array has the
requested shape; `reshape` and `swap_axes` do not change the origin. -/
structure LawfulArray (A : Type) [ArrayLike A] : Prop where
  reshape_shape : ∀ (a a' : A) (shape : List Nat),
    ArrayLike.reshape a shape = (a', .ok ()) → ArrayLike.shape a' = .ok shape
  reshape_origin : ∀ (a a' : A) (shape : List Nat),
    ArrayLike.reshape a shape = (a', .ok ()) → ArrayLike.origin a' = ArrayLike.origin a
  swap_origin : ∀ (a a' : A) (i j : Nat),
    ArrayLike.swapAxes a i j = (a', .ok ()) → ArrayLike.origin a' = ArrayLike.origin a

/-- Every value of `b` is in `b'` under the same labels, where the entry `e` of the moved
component became the first part of the property. -/
def ValuesMoved (vars : List String) (b b' : BasicBlock NdArray) : Prop :=
  ∀ pre c post, b.components = pre ++ c :: post → c.names = vars →
    ∀ sample cs₁ e cs₂ property x, cs₁.length = pre.length → e.length = vars.length →
      (HasValue b' sample (cs₁ ++ cs₂) (e ++ property) x ↔
        HasValue b sample (cs₁ ++ e :: cs₂) property x)

/-- All the ways to choose an entry in each of the components, in lexicographic order of their positions: the
last component changes fastest. -/
def combinations : List Labels → List (List (List LabelValue))
  | [] => [[]]
  | c :: C => (entriesOf c).flatMap fun e => (combinations C).map (e :: ·)

/-- The list with its last element moved to the beginning. -/
def lastFirst {α : Type} (l : List α) : List α := l.getLast?.toList ++ l.dropLast

/-- Where the values of `b` are in `b'`, with any number of components after the one which is moved: the `n`-th
combination of entries of these components has the values which belong to the `n`-th combination if the last
component is counted first. -/
def ValuesRearranged (vars : List String) (b b' : BasicBlock NdArray) : Prop :=
  ∀ pre c post, b.components = pre ++ c :: post → c.names = vars →
    ∀ (n : Nat) cs₂ cs₂', (combinations post)[n]? = some cs₂ →
      (combinations (lastFirst post))[n]? = some (lastFirst cs₂') →
      ∀ sample cs₁ e property x, cs₁.length = pre.length → e.length = vars.length →
        (HasValue b' sample (cs₁ ++ cs₂) (e ++ property) x ↔
          HasValue b sample (cs₁ ++ e :: cs₂') property x)

/-- Some block has a component with these names. -/
def HasComponent (t : TensorMap A) (vars : List String) : Prop :=
  ∃ b ∈ t.blocks, ∃ c ∈ b.values.components, c.names = vars

/-- One of the names is already used for a property. -/
def NameClash (t : TensorMap A) (vars : List String) : Prop :=
  ∃ b ∈ t.blocks, ∃ n ∈ vars, n ∈ b.values.properties.names

end Spec
end Equistore
