import Verif.Model.KeysToProperties
import Verif.Spec.Components

/-!
# Sequences of operations on tensor maps
-/

namespace Equistore
namespace Spec
variable {A : Type} [ArrayLike A]

/-- The operations modifying a tensor map. -/
inductive Op
  | keysToSamples (keysToMove : Labels) (sort : Bool)
  | keysToProperties (keysToMove : Labels) (sort : Bool)
  | componentsToProperties (names : List String)

/-- The labels given to an operation exist. -/
def Op.LabelsExist : Op → Prop
  | .keysToSamples k _ => k.FromBuilder
  | .keysToProperties k _ => k.FromBuilder
  | .componentsToProperties _ => True

/-- Run one operation: the tensor map afterwards, and the outcome. -/
def Op.run (build : Build) (hash : HashOrder) (t : TensorMap A) : Op → TensorMap A × Res Unit
  | .keysToSamples k sort => t.keysToSamples build hash k sort
  | .keysToProperties k sort => t.keysToProperties build hash k sort
  | .componentsToProperties names => t.componentsToProperties hash names

/-- Run operations one after the other until one of them does not succeed. `hash n` is
the iteration order of the hash maps in the `n`-th operation. -/
def runAll (build : Build) : (Nat → HashOrder) → List Op → TensorMap A → TensorMap A × Res Unit
  | _, [], t => (t, .ok ())
  | hash, op :: ops, t =>
    match op.run build (hash 0) t with
    | (t', .ok ()) => runAll build (fun n => hash (n + 1)) ops t'
    | (t', r) => (t', r)

/-- The same block, except for the order in which gradients are listed. -/
structure SameBlock (b b' : TensorBlock A) : Prop where
  values : b.values = b'.values
  gradients : ∀ p, b.gradient p = b'.gradient p
  list : b.gradientParameters.Perm b'.gradientParameters

/-- The same tensor map, except for the order in which gradients are listed. -/
structure SameTensor (t t' : TensorMap A) : Prop where
  keys : t.keys = t'.keys
  blocks : List.Forall₂ SameBlock t.blocks t'.blocks

/-- The elements of an array have been modified in place: same labels, shape and origin. -/
structure BasicWritten (b b' : BasicBlock A) : Prop where
  samples : b'.samples = b.samples
  components : b'.components = b.components
  properties : b'.properties = b.properties
  shape : ArrayLike.shape b'.data = ArrayLike.shape b.data
  origin : ArrayLike.origin b'.data = ArrayLike.origin b.data

/-- The elements of arrays of a block have been modified in place. -/
structure BlockWritten (b b' : TensorBlock A) : Prop where
  values : BasicWritten b.values b'.values
  gradients : List.Forall₂ (fun p p' : String × BasicBlock A => p'.1 = p.1 ∧ BasicWritten p.2 p'.2)
    b.gradients b'.gradients
  list : b'.gradientParameters = b.gradientParameters

/-- The elements of arrays of a tensor map have been modified in place, as it can be done
with the pointers given by `eqs_block_data`. In Rust, `block_mut` and `iter_mut` allow more,
see C99. -/
structure TensorWritten (t t' : TensorMap A) : Prop where
  keys : t'.keys = t.keys
  blocks : List.Forall₂ BlockWritten t.blocks t'.blocks

end Spec
end Equistore
