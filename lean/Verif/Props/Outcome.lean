import Verif.Lemmas.MoveOutcome
import Verif.Lemmas.MovedFits
import Verif.Props.Backend
import Verif.Props.KeysToProperties

/-!
# When moving keys succeeds (C74)
-/

namespace Equistore
open Spec NdArray

variable {A : Type} [ArrayLike A]

/-- **C74**, for `keys_to_samples`: it succeeds exactly when

- there are names to move, without entries, and all of them are names of the keys;
- there is something to merge: the tensor map has blocks, or some names are left in the keys;
- the samples do not already have a variable with one of these names;
- blocks merged together have the same components, the same properties, and, in debug builds, the same
  components in their gradients;
- all gradient samples refer to a sample of their block, and the gradients have names without NUL.

This is for all arrays which implement the callbacks as documented. In release builds the components of
gradients are not checked (see `C20_full_statement` for what happens). If their sizes differ the arrays get
arguments for which their documentation does not say what to do, so this assumes they have the same sizes. -/
theorem C74_keys_to_samples (view : A → NdArray) (h : Implements view) (build : Build) (hash : HashOrder)
    (keysToMove : Labels) (hm : keysToMove.FromBuilder) (sort : Bool) (t : TensorMap A) (ht : TensorValid t)
    (hcomp : build.debug = true ∨ GradientSizesAgree t keysToMove.names)
    (hfit : SamplesFit t keysToMove.names) :
    (t.keysToSamples build hash keysToMove sort).2 = .ok () ↔ CanMoveToSamples build t keysToMove := by
  rw [← keysToSamples_succeeds_iff_checked h ht hm hcomp hfit (hash := hash) (sort := sort)]
  exact ⟨fun h => ⟨_, Prod.ext rfl h⟩, fun ⟨_, h⟩ => by rw [h]⟩

/-- **C74**, for `keys_to_properties`: it succeeds exactly when

- there are names to move, and all of them are names of the keys;
- there is something to merge: the tensor map has blocks, or some names are left in the keys;
- the properties do not already have a variable with one of these names, and all blocks have properties;
- blocks merged together have the same components, and the same properties if entries are given;
- in debug builds, the gradients of blocks whose key was requested have the same components as those of the
  first of the blocks they are merged with;
- all gradient samples refer to a sample of their block, and the gradients have names without NUL. -/
theorem C74_keys_to_properties (view : A → NdArray) (h : Implements view) (build : Build) (hash : HashOrder)
    (keysToMove : Labels) (hm : keysToMove.FromBuilder) (sort : Bool) (t : TensorMap A) (ht : TensorValid t)
    (hcomp : build.debug = true ∨ GradientSizesAgree t keysToMove.names)
    (hfit : SamplesFit t keysToMove.names) :
    (t.keysToProperties build hash keysToMove sort).2 = .ok () ↔ CanMoveToProperties build t keysToMove := by
  rw [← keysToProperties_succeeds_iff_checked h ht hm hcomp hfit (hash := hash) (sort := sort)]
  exact ⟨fun h => ⟨_, Prod.ext rfl h⟩, fun ⟨_, h⟩ => by rw [h]⟩

/-- **C74**: tensor maps with less than 2³¹ samples in total always fit. -/
theorem C74_small_fits (t : TensorMap A) (ht : TensorValid t) (moved : List String)
    (h : (t.blocks.map fun b => (entriesOf b.values.samples).length).sum ≤ 2147483647) : SamplesFit t moved := by
  intro pairs hp key'
  rw [ht.iter_eq, Res.ok.injEq] at hp
  subst hp
  refine Nat.le_trans ?_ h
  have h1 : (t.keys.rows.zip t.blocks).map (fun kb => (entriesOf kb.2.values.samples).length) =
      t.blocks.map fun b => (entriesOf b.values.samples).length := by
    have : (t.keys.rows.zip t.blocks).map Prod.snd = t.blocks :=
      List.map_snd_zip (by have := ht.length_eq; omega)
    rw [← this, List.map_map]
    rw [this]
    rfl
  rw [← h1]
  exact sum_le_of_sublist (List.filter_sublist.map _)

namespace Example

/-- A block without properties. -/
def noProperties : TensorBlock NdArray :=
  ⟨⟨⟨[2, 2, 0], []⟩, samples, [component], Labels.mk' ["p"] []⟩, [], []⟩
/-- A tensor map where blocks have no properties. -/
def withoutProperties : TensorMap NumpyArray :=
  (⟨keys, [noProperties, noProperties, noProperties]⟩ : TensorMap NdArray).mapData toNumpy
/-- A tensor map without blocks. -/
def withoutBlocks : TensorMap NumpyArray := ⟨Labels.mk' ["l"] [], []⟩
/-- A tensor map where the keys and the samples have a name in common. -/
def sharedName : TensorMap NumpyArray :=
  (⟨Labels.mk' ["k", "s"] [[0, 1], [0, 2]], [gradBlock, gradBlock]⟩ : TensorMap NdArray).mapData toNumpy
/-- Moving this name. -/
def moveS : Labels := Labels.mk' ["s"] []
/-- Gradient samples which refer to a sample which does not exist. -/
def wrongSamples : Labels := Labels.mk' ["sample", "g"] [[0, 7], [7, 3]]
def wrongGradient : TensorBlock NdArray :=
  (TensorBlock.addGradient "g" gradientData wrongSamples [direction, component] block).1
def wrongTensor : TensorMap NumpyArray :=
  (⟨keys, [gradBlock, wrongGradient, gradBlock]⟩ : TensorMap NdArray).mapData toNumpy

theorem withoutProperties_valid : TensorValid withoutProperties :=
  (TensorValid.map_iff implements_numpy).1 (TensorMap.valid_of_rebuilds (by decide +kernel))
theorem sharedName_valid : TensorValid sharedName :=
  (TensorValid.map_iff implements_numpy).1 (TensorMap.valid_of_rebuilds (by decide +kernel))
theorem withoutBlocks_valid : TensorValid withoutBlocks :=
  (TensorValid.map_iff implements_numpy).1 (TensorMap.valid_of_rebuilds (by decide +kernel))
theorem wrongTensor_valid : TensorValid wrongTensor :=
  (TensorValid.map_iff implements_numpy).1 (TensorMap.valid_of_rebuilds (by decide +kernel))

/-- Gradients with different labels for components of the same size. -/
def mixedNumpy : TensorMap NumpyArray := mixed.mapData toNumpy
theorem mixedNumpy_valid : TensorValid mixedNumpy := (TensorValid.map_iff implements_numpy).1 (TensorMap.valid_of_rebuilds (by decide +kernel))

theorem sizesAgree_of_check {t : TensorMap A} (ht : TensorValid t) (moved : List String)
    (h : decide (∀ a ∈ t.blocks, ∀ b ∈ t.blocks, ∀ p ∈ a.gradients, ∀ p' ∈ b.gradients, p.1 = p'.1 →
      p.2.components.map (fun c => (entriesOf c).length) = p'.2.components.map fun c => (entriesOf c).length) = true) :
    GradientSizesAgree t moved := by
  intro pairs hp key' q a ha b hb g g' hg hg'
  rw [ht.iter_eq, Res.ok.injEq] at hp
  subst hp
  have ha' := (List.of_mem_zip (a := a.1) (b := a.2) (List.mem_of_mem_filter ha)).2
  have hb' := (List.of_mem_zip (a := b.1) (b := b.2) (List.mem_of_mem_filter hb)).2
  exact of_decide_eq_true h _ ha' _ hb' _ ((gradient_eq_some (ht.blocks _ ha').names).1 hg) _
    ((gradient_eq_some (ht.blocks _ hb').names).1 hg') rfl

theorem numpy_fits {t : TensorMap NumpyArray} (ht : TensorValid t) (moved : List String)
    (h : decide ((t.blocks.map fun b => (entriesOf b.values.samples).length).sum ≤ 2147483647) = true) :
    SamplesFit t moved := C74_small_fits t ht moved (of_decide_eq_true h)

end Example

/-- Non-vacuity of `C74`: the hypotheses and conditions hold for an example with three blocks with
gradients. -/
example : TensorValid Example.tensorNumpy ∧ SamplesFit Example.tensorNumpy Example.moveL.names ∧
    CanMoveToSamples ⟨true⟩ Example.tensorNumpy Example.moveL ∧
    CanMoveToProperties ⟨true⟩ Example.tensorNumpy Example.moveL := by
  have hfit := Example.numpy_fits Example.tensorNumpy_valid Example.moveL.names (by decide +kernel)
  refine ⟨Example.tensorNumpy_valid, hfit, ?_, ?_⟩
  · exact (C74_keys_to_samples NumpyArray.array implements_numpy ⟨true⟩ .insertion Example.moveL
      Example.moveL_fromBuilder true _ Example.tensorNumpy_valid (.inl rfl) hfit).1 (by decide +kernel)
  · exact (C74_keys_to_properties NumpyArray.array implements_numpy ⟨true⟩ .insertion Example.moveL
      Example.moveL_fromBuilder true _ Example.tensorNumpy_valid (.inl rfl) hfit).1 (by decide +kernel)

/-- Gradients with different labels for components of the same size: debug builds fail, release builds do not, and
the conditions say so. -/
example : TensorValid Example.mixedNumpy ∧ GradientSizesAgree Example.mixedNumpy Example.moveL.names ∧
    SamplesFit Example.mixedNumpy Example.moveL.names ∧
    CanMoveToProperties ⟨false⟩ Example.mixedNumpy Example.moveL ∧
    ¬ CanMoveToProperties ⟨true⟩ Example.mixedNumpy Example.moveL := by
  have hsizes : GradientSizesAgree Example.mixedNumpy Example.moveL.names :=
    Example.sizesAgree_of_check Example.mixedNumpy_valid _ (by decide +kernel)
  have hfit := Example.numpy_fits Example.mixedNumpy_valid Example.moveL.names (by decide +kernel)
  refine ⟨Example.mixedNumpy_valid, hsizes, hfit, ?_, ?_⟩
  · exact (C74_keys_to_properties NumpyArray.array implements_numpy ⟨false⟩ .insertion Example.moveL
      Example.moveL_fromBuilder true _ Example.mixedNumpy_valid (.inr hsizes) hfit).1 (by decide +kernel)
  · rw [← C74_keys_to_properties NumpyArray.array implements_numpy ⟨true⟩ .insertion Example.moveL
      Example.moveL_fromBuilder true _ Example.mixedNumpy_valid (.inl rfl) hfit]
    decide +kernel

/-- Each kind of failure happens: a tensor map without blocks, blocks without properties, a name which is
already used, gradient samples without a sample. -/
example :
    (Example.withoutBlocks.keysToSamples ⟨true⟩ .insertion Example.moveL true).2 =
      .panic "assertion failed: !blocks_to_merge.is_empty()" ∧
    ¬ CanMoveToSamples ⟨true⟩ Example.withoutBlocks Example.moveL ∧
    (Example.withoutProperties.keysToSamples ⟨true⟩ .insertion Example.moveL true).2 = .ok () ∧
    (∃ m, (Example.withoutProperties.keysToProperties ⟨true⟩ .insertion Example.moveL true).2 = .panic m) ∧
    ¬ CanMoveToProperties ⟨true⟩ Example.withoutProperties Example.moveL ∧
    (∃ m, (Example.sharedName.keysToSamples ⟨true⟩ .insertion Example.moveS true).2 = .panic m) ∧
    (∃ m, (Example.wrongTensor.keysToSamples ⟨true⟩ .insertion Example.moveL true).2 = .panic m) := by
  refine ⟨by decide +kernel, ?_, by decide +kernel, ?_, ?_, ?_, ?_⟩
  · intro h
    rcases h.something with h | ⟨n, h1, h2⟩
    · exact h rfl
    · exact h2 h1
  · exact ⟨_, rfl⟩
  · intro h
    have hb : Example.noProperties.mapData Example.toNumpy ∈ Example.withoutProperties.blocks := by
      simp [Example.withoutProperties]
    obtain ⟨p, hp⟩ := h.someProperty _ hb
    cases hp
  · exact ⟨_, rfl⟩
  · exact ⟨_, rfl⟩

end Equistore
