import Verif.Model.PyMove
import Verif.Spec.PyLabels
import Verif.Spec.Merge

/-!
# Specification vocabulary for moving keys and components from Python
-/

namespace Equistore
namespace Spec
variable {A : Type} [ArrayLike A]

/-- Python is told how a function of the library ended: all failures are an `EquistoreError`. -/
def RaisesFor (library : Res Unit) (python : Except PyExc Unit) : Prop :=
  (library = .ok () → python = .ok ()) ∧ (library ≠ .ok () → python = .error .equistoreError)

/-- A method called in Python on a tensor map `t` does what the function `library` of the library does with labels with
these names and entries. If there are no such labels, it raises an exception and does not change `t`. -/
def CallsWith (t : TensorMap A) (names : List String) (entries : List (List LabelValue))
    (library : Labels → TensorMap A × Res Unit) (python : Option (TensorMap A × Except PyExc Unit)) : Prop :=
  ∃ t' r, python = some (t', r) ∧
    (∀ m : Labels, m.FromBuilder → m.names = names → entriesOf m = entries →
      t' = (library m).1 ∧ RaisesFor (library m).2 r) ∧
    ((∀ m : Labels, m.FromBuilder → m.names = names → entriesOf m ≠ entries) → t' = t ∧ ∃ e, r = .error e)

/-- A parameter which gives these names, as a string or a list. -/
def GivesNames (names : List String) : NamesArg → Prop
  | .str name => names = [name]
  | .list elements => elements = names.map some
  | _ => False

end Spec
end Equistore
