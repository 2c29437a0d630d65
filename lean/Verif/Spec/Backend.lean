import Verif.Spec.History
import Verif.Spec.Merge
import Verif.Spec.Components
import Verif.Model.CHeap

/-!
# Specification vocabulary for arrays provided by the user

What the documentation of `eqs_array_t` (`src/data.rs` lines 72-165, `include/equistore.h`) asks
from somebody implementing the callbacks, and what it promises to them.
-/

namespace Equistore
namespace Spec

/-- When `move_samples_from` may be called, in terms of the shapes of the two arrays: both arrays
have a samples axis first and a properties axis last, with the same axes in between; all the samples
are in bounds; the properties of the output between `start` and `stop` exist, and are as many as in
the input; no sample of the output is written twice. -/
structure MoveAllowed (output input : List Nat) (samples : List SampleMapping) (start stop : Nat) :
    Prop where
  shapes : ∃ nOut nIn between nProperties,
    output = nOut :: between ++ [nProperties] ∧ input = nIn :: between ++ [stop - start] ∧
    start ≤ stop ∧ stop ≤ nProperties ∧ ∀ m ∈ samples, m.input < nIn ∧ m.output < nOut
  once : (samples.map (·.output)).Nodup

/-- When `swap_axes` may be called. -/
def SwapAllowed (shape : List Nat) (axis₁ axis₂ : Nat) : Prop :=
  axis₁ < shape.length ∧ axis₂ < shape.length

/-- When `reshape` may be called. -/
def ReshapeAllowed (old new : List Nat) : Prop :=
  shapeSize old = shapeSize new

/-- An index is inside an array of this shape. -/
def InShape (shape idx : List Nat) : Prop := List.Forall₂ (fun n i => i < n) shape idx

/-- A type of arrays does what the documentation of the callbacks says, when `view` gives the
shape and elements of an array. Nothing is assumed about calls which are not allowed: they could
fail, panic, or give any array. -/
structure Implements {A : Type} [ArrayLike A] (view : A → NdArray) : Prop where
  origin : ∃ o, ∀ a : A, ArrayLike.origin a = .ok o
  elements : ∀ a, ArrayOk (view a)
  shape : ∀ a, ArrayLike.shape a = .ok (view a).shape
  create : ∀ a shape, ∃ a', ArrayLike.create a shape = .ok a' ∧ (view a').shape = shape ∧
    ∀ idx, InShape shape idx → (view a').get idx = 0
  reshape : ∀ a shape, ReshapeAllowed (view a).shape shape →
    ∃ a', ArrayLike.reshape a shape = (a', .ok ()) ∧ (view a').shape = shape ∧
      (view a').elements = (view a).elements
  swapAxes : ∀ a i j, SwapAllowed (view a).shape i j →
    ∃ a', ArrayLike.swapAxes a i j = (a', .ok ()) ∧ (view a').shape = swapList (view a).shape i j ∧
      ∀ idx, InShape (swapList (view a).shape i j) idx →
        (view a').get idx = (view a).get (swapList idx i j)
  move : ∀ output input samples start stop,
    MoveAllowed (view output).shape (view input).shape samples start stop →
    ∃ output', ArrayLike.moveSamplesFrom output input samples start stop = (output', .ok ()) ∧
      (view output').shape = (view output).shape ∧
      ∀ i between j, InShape (view output).shape (i :: between ++ [j]) →
        (∀ m ∈ samples, m.output = i → start ≤ j → j < stop →
          (view output').get (i :: between ++ [j]) = (view input).get (m.input :: between ++ [j - start])) ∧
        ((∀ m ∈ samples, m.output = i → ¬ (start ≤ j ∧ j < stop)) →
          (view output').get (i :: between ++ [j]) = (view output).get (i :: between ++ [j]))

/-- The order in which a `HashMap` is visited only depends on the keys in it, not on the values. -/
def OrderByName (hash : HashOrder) : Prop :=
  ∀ {β γ : Type} (f : β → γ) (l : List (String × β)),
    hash.order (l.map fun p => (p.1, f p.2)) = (hash.order l).map fun p => (p.1, f p.2)

variable {A : Type}

/-- Blocks with the same remaining key have the same components in their gradients. This is only
checked by debug builds. -/
def GradientComponentsAgree (t : TensorMap A) (moved : List String) : Prop :=
  ∀ pairs, t.iter = .ok pairs → ∀ key' q,
    SameGradientComponents (group t.keys.names moved pairs key') q

/-- Blocks with the same remaining key have gradients with the same shapes, up to the number of samples and properties: as many components,
of the same sizes, maybe with different labels. -/
def GradientSizesAgree (t : TensorMap A) (moved : List String) : Prop :=
  ∀ pairs, t.iter = .ok pairs → ∀ key' q,
    SameGradientSizes (group t.keys.names moved pairs key') q

end Spec
end Equistore
