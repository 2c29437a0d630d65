/-!
# Specification vocabulary for labels
-/

namespace Equistore.Spec

/-- An ASCII letter or an underscore. -/
def IdentStart (c : Char) : Prop :=
  ('a' ≤ c ∧ c ≤ 'z') ∨ ('A' ≤ c ∧ c ≤ 'Z') ∨ c = '_'

/-- An ASCII letter, an ASCII digit or an underscore. -/
def IdentRest (c : Char) : Prop :=
  IdentStart c ∨ ('0' ≤ c ∧ c ≤ '9')

/-- An identifier: `[A-Za-z_][A-Za-z0-9_]*`. -/
def Identifier (s : String) : Prop :=
  ∃ c cs, s.toList = c :: cs ∧ IdentStart c ∧ ∀ d ∈ cs, IdentRest d

end Equistore.Spec
