import Verif.Spec.Loaded

/-!
# Damaged entries of a file
-/

namespace Equistore
namespace Spec

/-- An outcome which is not a success: an error or a panic. -/
inductive Failed where
  | error (e : Error)
  | panic (message : String)

/-- This outcome, for functions with any result. -/
def Failed.outcome {α : Type} : Failed → Res α
  | .error e => .err e
  | .panic message => .panic message

/-- The entry which should contain labels or data does not exist or can not be read, with this outcome. -/
def Damaged (build : Build) (py : PyLiteral) (archive : Archive) (name : String) : Stored → Failed → Prop
  | .labels _, f => (archive.byName name).bind (readNpyLabels build py) = f.outcome
  | .data _, f => (archive.byName name).bind (readData build py) = f.outcome

/-- Two files with the same entries, except for one of them. -/
def SameExcept (name : String) (archive archive' : Archive) : Prop :=
  ∀ other, other ≠ name → archive'.byName other = archive.byName other

/-- The same tensor map, but no block has this gradient. -/
structure WithoutGradient (parameter : String) (t t' : TensorMap NdArray) : Prop where
  keys : t'.keys = t.keys
  blocks : List.Forall₂ (fun b b' : TensorBlock NdArray => b'.values = b.values ∧
    (∀ p, b'.gradient p = if p = parameter then none else b.gradient p)) t.blocks t'.blocks

end Spec
end Equistore
