import Verif.Props.MovedTwice
import Verif.Lemmas.MovedPropertiesOrder

/-!
# Moving keys to properties in several steps (C79)
-/

namespace Equistore
open Spec NdArray

/-- `keys_to_properties` with all the names in `all` does the same as first moving the names in `last`, then
the ones in `first` (which are put in front of them): it succeeds in the same cases, and what can be seen of
the resulting tensor maps is the same, except for the order of properties and the order in which gradients are
listed. -/
def SamePropertiesInTwoSteps {A : Type} [ArrayLike A] (view : A → NdArray) (build : Build)
    (hash hash₁ hash₂ : HashOrder) (all first last : Labels) (sort₁ : Bool) (t : TensorMap A) : Prop :=
  let t₁ := (t.keysToProperties build hash₁ last sort₁).1
  ((t.keysToProperties build hash all true).2 = .ok () ↔
    (t.keysToProperties build hash₁ last sort₁).2 = .ok () ∧
      (t₁.keysToProperties build hash₂ first true).2 = .ok ()) ∧
  ((t.keysToProperties build hash all true).2 = .ok () →
    SameTensorUpToProperties ((t.keysToProperties build hash all true).1.mapData view)
      ((t₁.keysToProperties build hash₂ first true).1.mapData view))

/-- **C79**, in full: moving some names of the keys to the properties does the same as moving the last ones,
then the first ones.

This is false of the code: if the names are not given in the order of the keys, moving them at once puts
the values under the wrong names (see `C23_full_statement`), and moving them one by one does not. -/
def C79_full_statement : Prop :=
  ∀ (A : Type) (_ : ArrayLike A) (view : A → NdArray), Implements view →
    ∀ (build : Build) (hash hash₁ hash₂ : HashOrder) (all first last : Labels), all.FromBuilder →
    first.FromBuilder → last.FromBuilder → all.count = .ok 0 → first.count = .ok 0 → last.count = .ok 0 →
    all.names = first.names ++ last.names →
    ∀ (sort₁ : Bool) (t : TensorMap A), TensorValid t → (∀ n ∈ all.names, n ∈ t.keys.names) →
    (build.debug = true ∨ GradientComponentsAgree t all.names) → SamplesFit t all.names →
    SamePropertiesInTwoSteps view build hash hash₁ hash₂ all first last sort₁ t

/-- **C79**, the defect: with keys `k, l`, moving `["l", "k"]` and moving `["k"]` then `["l"]` give different
tensor maps. -/
theorem C79_counterexample : ¬ C79_full_statement := by
  intro h
  have hfit := Example.numpy_fits Example.tensorNumpy_valid Example.moveLK.names (by decide +kernel)
  have h := (h NumpyArray inferInstance NumpyArray.array implements_numpy ⟨true⟩ .insertion .insertion .insertion
    Example.moveLK Example.moveL Example.moveK (Labels.rebuilds_fromBuilder (by decide +kernel))
    Example.moveL_fromBuilder Example.moveK_fromBuilder (by decide +kernel) (by decide +kernel)
    (by decide +kernel) rfl true Example.tensorNumpy Example.tensorNumpy_valid (by decide +kernel) (.inl rfl)
    hfit).2 (by decide +kernel)
  have h := h.blocks
  have hl : List.Forall₂ (fun p p' : List (List LabelValue) => [1, 3, 0] ∈ p' ↔ [1, 3, 0] ∈ p)
      (((Example.tensorNumpy.keysToProperties ⟨true⟩ .insertion Example.moveLK true).1.mapData
        NumpyArray.array).blocks.map (fun b => entriesOf b.values.properties))
      (((((Example.tensorNumpy.keysToProperties ⟨true⟩ .insertion Example.moveK true).1).keysToProperties ⟨true⟩
        .insertion Example.moveL true).1.mapData NumpyArray.array).blocks.map
          (fun b => entriesOf b.values.properties)) := by
    rw [List.forall₂_map_left_iff, List.forall₂_map_right_iff]
    exact h.imp fun _ _ h => h.values.properties.mem_iff
  have e1 : ((Example.tensorNumpy.keysToProperties ⟨true⟩ .insertion Example.moveLK true).1.mapData
        NumpyArray.array).blocks.map (fun b => entriesOf b.values.properties) =
      [[[0, 1, 0], [0, 1, 1], [0, 1, 5], [0, 2, 0], [0, 2, 1], [0, 2, 5], [3, 1, 0], [3, 1, 1], [3, 1, 5]]] := by decide +kernel
  have e2 : ((((Example.tensorNumpy.keysToProperties ⟨true⟩ .insertion Example.moveK true).1).keysToProperties ⟨true⟩
        .insertion Example.moveL true).1.mapData NumpyArray.array).blocks.map
          (fun b => entriesOf b.values.properties) =
      [[[1, 0, 0], [1, 0, 1], [1, 0, 5], [1, 3, 0], [1, 3, 1], [1, 3, 5], [2, 0, 0], [2, 0, 1], [2, 0, 5]]] := by decide +kernel
  rw [e1, e2] at hl
  cases hl with
  | cons h _ => exact absurd (h.1 (by decide)) (by decide)

section
variable {A : Type} [ArrayLike A]

/-- **C79**, the part which holds: moving some names of the keys, given in the order of the keys, does the
same as moving the last ones, then the first ones. This is for any array, in any build, whatever the order
gradients are visited in, and whether or not samples are sorted in the first step. -/
theorem C79_two_steps_partial (view : A → NdArray) (h : Implements view) (build : Build)
    (hash hash₁ hash₂ : HashOrder) (all first last : Labels) (hm : all.FromBuilder) (hm₂ : first.FromBuilder)
    (hm₁ : last.FromBuilder) (hc : all.count = .ok 0) (hc₂ : first.count = .ok 0) (hc₁ : last.count = .ok 0)
    (hnames : all.names = first.names ++ last.names) (sort₁ : Bool) (t : TensorMap A) (ht : TensorValid t)
    (horder : all.names.Sublist t.keys.names)
    (hcomp : build.debug = true ∨ GradientComponentsAgree t all.names) (hfit : SamplesFit t all.names) :
    SamePropertiesInTwoSteps view build hash hash₁ hash₂ all first last sort₁ t := by
  have hn := (Labels.Holds.names_ok ht.keys_wf).2
  have hne : ∀ {l : Labels}, l.count = .ok 0 → l.names ≠ [] := by
    intro l hl he
    simp [Labels.count, Labels.size, Res.assert, he] at hl
  have h2 := hne hc₂
  have h1 := hne hc₁
  have hs : (first.names ++ last.names).Sublist t.keys.names := hnames ▸ horder
  have htv := (TensorValid.map_iff h).2 ht
  have hr : ∀ key, remainingKey (remainingNames t.keys.names last.names) first.names
      (remainingKey t.keys.names last.names key) = remainingKey t.keys.names all.names key := fun key => by
    rw [hnames]; exact remainingKey_back hn hs h2 key
  have hcomp₁ : build.debug = true ∨ GradientComponentsAgree t last.names := by
    exact hcomp.imp_right (componentsAgree_first hr)
  have hfit₁ := samplesFit_first hr hfit
  have e0 := entriesOf_of_count hm hc
  have e1 := entriesOf_of_count hm₁ hc₁
  have e2 := entriesOf_of_count hm₂ hc₂
  have hall := keysToProperties_succeeds_iff h ht hm hcomp hfit (hash := hash) (sort := true)
  have hone := keysToProperties_succeeds_iff h ht hm₁ hcomp₁ hfit₁ (hash := hash₁) (sort := sort₁)
  -- the second step
  have second : ∀ t₁, t.keysToProperties build hash₁ last sort₁ = (t₁, .ok ()) → TensorValid t₁ ∧
      (build.debug = true ∨ GradientComponentsAgree t₁ first.names) ∧
      MovedToProperties last.names sort₁ (t.mapData view) (t₁.mapData view) ∧
      ((∃ t₂, t₁.keysToProperties build hash₂ first true = (t₂, .ok ())) ↔ CanMoveToProperties ⟨true⟩ t₁ first) := by
    intro t₁ h₁
    have hv₁ := keysToProperties_valid ht hm₁ h₁
    have hmoved := keysToProperties_view h ht hm₁ hc₁ hcomp₁ h₁
    have hcomp₂ : build.debug = true ∨ GradientComponentsAgree t₁ first.names := by
      refine hcomp.imp_right fun hg => ?_
      have hg' := componentsAgree_mapData ht htv hg
      exact componentsAgree_ofMapData hv₁ ((TensorValid.map_iff h).2 hv₁) (componentsAgree_back htv hr hmoved hg')
    exact ⟨hv₁, hcomp₂, hmoved,
      keysToProperties_succeeds_iff h hv₁ hm₂ hcomp₂ (samplesFit_back_second ht hm₁ hr h₁ hfit)⟩
  have hiff : (t.keysToProperties build hash all true).2 = .ok () ↔
      (t.keysToProperties build hash₁ last sort₁).2 = .ok () ∧
        ((t.keysToProperties build hash₁ last sort₁).1.keysToProperties build hash₂ first true).2 = .ok () := by
    constructor
    · intro hok
      have hcan := (canMoveP_iff ht e0).1 (hall.1 ⟨_, Prod.ext rfl hok⟩)
      have hcanv := (canMoveP_map view).2 hcan
      obtain ⟨t₁, h₁⟩ := hone.2 ((canMoveP_iff ht e1).2 ((canMoveP_map view).1
        (canMoveP_first htv hnames horder h1 h2 hcanv)))
      obtain ⟨hv₁, -, hmoved, hiff⟩ := second t₁ h₁
      obtain ⟨t₂, h₂⟩ := hiff.2 ((canMoveP_iff hv₁ e2).2 ((canMoveP_map view).1
        (canMoveP_second htv hnames horder h2 hcanv hmoved)))
      rw [h₁]
      exact ⟨rfl, by rw [h₂]⟩
    · rintro ⟨hok₁, hok₂⟩
      have h₁ : t.keysToProperties build hash₁ last sort₁ = (_, .ok ()) := Prod.ext rfl hok₁
      obtain ⟨hv₁, -, hmoved, hiff⟩ := second _ h₁
      have hcan₁ := (canMoveP_map view).2 ((canMoveP_iff ht e1).1 (hone.1 ⟨_, h₁⟩))
      have hcan₂ := (canMoveP_map view).2 ((canMoveP_iff hv₁ e2).1 (hiff.1 ⟨_, Prod.ext rfl hok₂⟩))
      obtain ⟨t', h'⟩ := hall.2 ((canMoveP_iff ht e0).2 ((canMoveP_map view).1
        (canMoveP_both htv hnames horder h2 hcan₁ hmoved hcan₂)))
      rw [h']
  refine ⟨hiff, fun hok => ?_⟩
  obtain ⟨hok₁, hok₂⟩ := hiff.1 hok
  obtain ⟨hv₁, hcomp₂, hmoved, -⟩ := second _ (Prod.ext rfl hok₁)
  have m₂ := keysToProperties_view h hv₁ hm₂ hc₂ hcomp₂ (Prod.ext rfl hok₂)
  have m := keysToProperties_view h ht hm hc hcomp (Prod.ext rfl hok)
  have := hmoved.trans htv hs h2 m₂
  rw [hnames] at m
  exact m.same htv this

/-- **C79**: what `keys_to_properties` gives without entries is described by `MovedToPropertiesInOrder`, for any
array. -/
theorem C79_described (view : A → NdArray) (h : Implements view) (build : Build) (hash : HashOrder)
    (keysToMove : Labels) (hm : keysToMove.FromBuilder) (hc : keysToMove.count = .ok 0) (sort : Bool)
    (t t' : TensorMap A) (ht : TensorValid t)
    (hcomp : build.debug = true ∨ GradientComponentsAgree t keysToMove.names)
    (hok : t.keysToProperties build hash keysToMove sort = (t', .ok ())) :
    MovedToPropertiesInOrder keysToMove.names sort (t.mapData view) (t'.mapData view) :=
  keysToProperties_viewInOrder h ht hm hc hcomp hok

/-- **C79**: the description is complete: it leaves only one possibility, except for the order in which
gradients are listed. -/
theorem C79_complete (moved : List String) (sort : Bool) (t t' t'' : TensorMap NdArray) (ht : TensorValid t)
    (h : MovedToPropertiesInOrder moved sort t t') (h' : MovedToPropertiesInOrder moved sort t t'') :
    SameTensor t' t'' :=
  h.same ht h'

/-- **C79**: without the order of properties, the description leaves only one possibility for sorted samples,
except for this order and the order in which gradients are listed. -/
theorem C79_complete_up_to_order (moved : List String) (t t' t'' : TensorMap NdArray) (ht : TensorValid t)
    (h : MovedToProperties moved true t t') (h' : MovedToProperties moved true t t'') :
    SameTensorUpToProperties t' t'' :=
  h.same ht h'

end

namespace Example

/-- Keys in an order in which the values of `k` are not next to each other. -/
def interleaved : TensorMap NumpyArray :=
  (⟨Labels.mk' ["k", "l"] [[0, 1], [3, 1], [0, 2]], [gradBlock, gradBlock, gradBlock]⟩ : TensorMap NdArray).mapData
    toNumpy

theorem interleaved_valid : TensorValid interleaved :=
  (TensorValid.map_iff implements_numpy).1 (TensorMap.valid_of_rebuilds (by decide +kernel))

end Example

/-- Non-vacuity of `C79`: moving `l` then `k`; and the order of properties can be different. -/
example : TensorValid Example.interleaved ∧ Example.moveKL.names = Example.moveK.names ++ Example.moveL.names ∧
    Example.moveKL.names.Sublist Example.interleaved.keys.names ∧
    SamplesFit Example.interleaved Example.moveKL.names ∧
    (Example.interleaved.keysToProperties ⟨true⟩ .insertion Example.moveKL true).2 = .ok () ∧
    (Example.interleaved.keysToProperties ⟨true⟩ .insertion Example.moveKL true).1.blocks.map
      (fun b => entriesOf b.values.properties) =
      [[[0, 1, 0], [0, 1, 1], [0, 1, 5], [3, 1, 0], [3, 1, 1], [3, 1, 5], [0, 2, 0], [0, 2, 1], [0, 2, 5]]] ∧
    (((Example.interleaved.keysToProperties ⟨true⟩ .insertion Example.moveL true).1).keysToProperties ⟨true⟩ .insertion
      Example.moveK true).1.blocks.map (fun b => entriesOf b.values.properties) =
      [[[0, 1, 0], [0, 1, 1], [0, 1, 5], [0, 2, 0], [0, 2, 1], [0, 2, 5], [3, 1, 0], [3, 1, 1], [3, 1, 5]]] :=
  ⟨Example.interleaved_valid, rfl, .refl _,
    Example.numpy_fits Example.interleaved_valid _ (by decide +kernel), by decide +kernel, by decide +kernel,
    by decide +kernel⟩

end Equistore
