import Verif.Lemmas.BroadcastOutcome
import Verif.Props.Outcome
import Verif.Props.Broadcast

/-!
# When moving keys succeeds, with gradient components of different sizes (C74)

In release builds, the components of the gradients of merged blocks are not compared. If their sizes differ, the arrays
decide. `ndarray` arrays from Rust and numpy arrays both repeat values along axes of size 1, and refuse everything else. This
file says when moving keys succeeds with such arrays, in all builds and for all gradients.
-/

namespace Equistore
open Spec

variable {A : Type} [ArrayLike A]

/-- **C74**: arrays from Rust and numpy arrays repeat values along axes of size 1, and refuse all other sizes. Only
numpy compares the sizes when there are no samples to move. -/
theorem C74_provided_arrays : Broadcasts RustArray.array false ∧ Broadcasts NumpyArray.array true :=
  ⟨broadcasts_rust, broadcasts_numpy⟩

/-- **C74**, for `keys_to_samples` and gradient components of all sizes: it succeeds exactly when all conditions of
`CanMoveToSamples` are met, and the components of each gradient have the sizes of the components of the same gradient in
the first of the merged blocks, or a single entry. With arrays from Rust, gradients without samples can have components of
any size. -/
theorem C74_keys_to_samples_sizes (view : A → NdArray) (h : Implements view) (checksEmpty : Bool)
    (hB : Broadcasts view checksEmpty) (build : Build) (hash : HashOrder)
    (keysToMove : Labels) (hm : keysToMove.FromBuilder) (sort : Bool) (t : TensorMap A) (ht : TensorValid t)
    (hfit : SamplesFit t keysToMove.names) :
    (t.keysToSamples build hash keysToMove sort).2 = .ok () ↔ CanMoveToSamples build t keysToMove ∧
      ∀ first kb, FirstMergedWith t keysToMove.names first kb → GradientsBroadcast checksEmpty kb.2 first.2 := by
  rw [← keysToSamples_succeeds_iff_broadcast h hB ht hm hfit (hash := hash) (sort := sort)]
  exact ⟨fun h => ⟨_, Prod.ext rfl h⟩, fun ⟨_, h⟩ => by rw [h]⟩

/-- **C74**, for `keys_to_properties` and gradient components of all sizes: it succeeds exactly when all conditions of
`CanMoveToProperties` are met, and, for the blocks whose key was requested, the components of each gradient have the
sizes of the components of the same gradient in the first of the merged blocks, or a single entry. With arrays from Rust,
gradients without samples can have components of any size. -/
theorem C74_keys_to_properties_sizes (view : A → NdArray) (h : Implements view) (checksEmpty : Bool)
    (hB : Broadcasts view checksEmpty) (build : Build) (hash : HashOrder)
    (keysToMove : Labels) (hm : keysToMove.FromBuilder) (sort : Bool) (t : TensorMap A) (ht : TensorValid t)
    (hfit : SamplesFit t keysToMove.names) :
    (t.keysToProperties build hash keysToMove sort).2 = .ok () ↔ CanMoveToProperties build t keysToMove ∧
      ∀ first kb, FirstMergedWith t keysToMove.names first kb → Requested t.keys.names keysToMove kb.1 →
        GradientsBroadcast checksEmpty kb.2 first.2 := by
  rw [← keysToProperties_succeeds_iff_broadcast h hB ht hm hfit (hash := hash) (sort := sort)]
  exact ⟨fun h => ⟨_, Prod.ext rfl h⟩, fun ⟨_, h⟩ => by rw [h]⟩

namespace Example

/-- The array as an array from Rust, if it is complete. -/
def toRust (a : NdArray) : RustArray :=
  if h : a.elements.length = shapeSize a.shape then ⟨a, h⟩ else ⟨⟨[0], []⟩, rfl⟩
def unequalRust : TensorMap RustArray := unequal.mapData toRust
def narrowRust : TensorMap RustArray := narrow.mapData toRust
/-- Like `gradBlock2`, the gradient having no samples. -/
def noGradientSamples : TensorBlock NdArray :=
  (TensorBlock.addGradient "g" ⟨[0, 2, 2, 3], []⟩ (Labels.mk' ["sample", "g"] []) [direction2, component] block).1
/-- Gradients with one and two directions, where the second one has no samples. -/
def emptySecond : TensorMap NdArray := ⟨Labels.mk' ["k", "l"] [[0, 1], [0, 2]], [gradBlock, noGradientSamples]⟩
def emptySecondRust : TensorMap RustArray := emptySecond.mapData toRust
def emptySecondNumpy : TensorMap NumpyArray := emptySecond.mapData toNumpy

theorem unequalRust_valid : TensorValid unequalRust :=
  (TensorValid.map_iff implements_rust).1 (TensorMap.valid_of_rebuilds (by decide +kernel))
theorem narrowRust_valid : TensorValid narrowRust :=
  (TensorValid.map_iff implements_rust).1 (TensorMap.valid_of_rebuilds (by decide +kernel))
theorem emptySecondRust_valid : TensorValid emptySecondRust :=
  (TensorValid.map_iff implements_rust).1 (TensorMap.valid_of_rebuilds (by decide +kernel))
theorem emptySecondNumpy_valid : TensorValid emptySecondNumpy :=
  (TensorValid.map_iff implements_numpy).1 (TensorMap.valid_of_rebuilds (by decide +kernel))

end Example

/-- Non-vacuity: with two directions and then a single one, the conditions hold in release builds and keys are moved; with
the two blocks in the other order, the sizes are refused. -/
example : TensorValid Example.unequalRust ∧ TensorValid Example.narrowRust ∧
    CanMoveToSamples ⟨false⟩ Example.unequalRust Example.moveL ∧
    (∀ first kb, FirstMergedWith Example.unequalRust Example.moveL.names first kb →
      GradientsBroadcast false kb.2 first.2) ∧
    (Example.narrowRust.keysToProperties ⟨false⟩ .insertion Example.moveL true).2 ≠ .ok () ∧
    Example.narrowRust.blocks = [Example.gradBlock.mapData Example.toRust, Example.gradBlock2.mapData Example.toRust] ∧
    ¬ GradientsBroadcast false (Example.gradBlock2.mapData Example.toRust) (Example.gradBlock.mapData Example.toRust) := by
  have hfit := C74_small_fits Example.unequalRust Example.unequalRust_valid Example.moveL.names (by decide +kernel)
  have h1 := (C74_keys_to_samples_sizes _ implements_rust false broadcasts_rust ⟨false⟩ .insertion Example.moveL
      Example.moveL_fromBuilder true _ Example.unequalRust_valid hfit).1 (by decide +kernel)
  refine ⟨Example.unequalRust_valid, Example.narrowRust_valid, h1.1, h1.2, by decide +kernel, rfl, fun h2 => ?_⟩
  have h3 := h2 "g" _ _ rfl rfl (.inl (by decide +kernel))
  unfold BroadcastsTo at h3
  rw [List.forall₂_iff_get] at h3
  exact absurd (h3.2 0 (by decide +kernel) (by decide +kernel)) (by decide +kernel)

/-- Arrays from Rust and numpy arrays differ when a gradient has no samples, and components of another size. -/
example : TensorValid Example.emptySecondRust ∧ TensorValid Example.emptySecondNumpy ∧
    (Example.emptySecondRust.keysToSamples ⟨false⟩ .insertion Example.moveL true).2 = .ok () ∧
    (Example.emptySecondNumpy.keysToSamples ⟨false⟩ .insertion Example.moveL true).2 ≠ .ok () ∧
    (∀ first kb, FirstMergedWith Example.emptySecondRust Example.moveL.names first kb →
      GradientsBroadcast false kb.2 first.2) := by
  have hfit := C74_small_fits Example.emptySecondRust Example.emptySecondRust_valid Example.moveL.names (by decide +kernel)
  have h1 : (Example.emptySecondRust.keysToSamples ⟨false⟩ .insertion Example.moveL true).2 = .ok () := by decide +kernel
  exact ⟨Example.emptySecondRust_valid, Example.emptySecondNumpy_valid, h1, by decide +kernel,
    ((C74_keys_to_samples_sizes _ implements_rust false broadcasts_rust ⟨false⟩ .insertion Example.moveL
      Example.moveL_fromBuilder true _ Example.emptySecondRust_valid hfit).1 h1).2⟩

end Equistore
