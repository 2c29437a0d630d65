import Verif.Props.Outcome

/-!
# Moving keys to samples in several steps (C75)
-/

namespace Equistore
open Spec NdArray

/-- `keys_to_samples` with all the names in `all` does the same as first moving the names in `first`, then
the ones in `last`: it succeeds in the same cases, and what can be seen of the resulting tensor maps is the
same, except for the order in which gradients are listed. -/
def SameInTwoSteps {A : Type} [ArrayLike A] (view : A → NdArray) (build : Build) (hash hash₁ hash₂ : HashOrder)
    (all first last : Labels) (sort₁ : Bool) (t : TensorMap A) : Prop :=
  let t₁ := (t.keysToSamples build hash₁ first sort₁).1
  ((t.keysToSamples build hash all true).2 = .ok () ↔
    (t.keysToSamples build hash₁ first sort₁).2 = .ok () ∧ (t₁.keysToSamples build hash₂ last true).2 = .ok ()) ∧
  ((t.keysToSamples build hash all true).2 = .ok () →
    SameTensor ((t.keysToSamples build hash all true).1.mapData view)
      ((t₁.keysToSamples build hash₂ last true).1.mapData view))

/-- **C75**, in full: moving some names of the keys to the samples does the same as moving them in two steps.

This is false of the code: if the names are not given in the order of the keys, moving them at once puts
the values under the wrong names (see `C17_full_statement`), and moving them one by one does not. -/
def C75_full_statement : Prop :=
  ∀ (A : Type) (_ : ArrayLike A) (view : A → NdArray), Implements view →
    ∀ (build : Build) (hash hash₁ hash₂ : HashOrder) (all first last : Labels), all.FromBuilder →
    first.FromBuilder → last.FromBuilder → all.count = .ok 0 → first.count = .ok 0 → last.count = .ok 0 →
    all.names = first.names ++ last.names →
    ∀ (sort₁ : Bool) (t : TensorMap A), TensorValid t → (∀ n ∈ all.names, n ∈ t.keys.names) →
    (build.debug = true ∨ GradientComponentsAgree t all.names) → SamplesFit t all.names →
    SameInTwoSteps view build hash hash₁ hash₂ all first last sort₁ t

namespace Example

/-- Moving these names. -/
def moveK : Labels := Labels.mk' ["k"] []
def moveKL : Labels := Labels.mk' ["k", "l"] []
theorem moveK_fromBuilder : moveK.FromBuilder := Labels.rebuilds_fromBuilder (by decide +kernel)
theorem moveKL_fromBuilder : moveKL.FromBuilder := Labels.rebuilds_fromBuilder (by decide +kernel)

end Example

/-- **C75**, the defect: with keys `k, l`, moving `["l", "k"]` and moving `["l"]` then `["k"]` give different
tensor maps. -/
theorem C75_counterexample : ¬ C75_full_statement := by
  intro h
  have hfit := Example.numpy_fits Example.tensorNumpy_valid Example.moveLK.names (by decide +kernel)
  have h := (h NumpyArray inferInstance NumpyArray.array implements_numpy ⟨true⟩ .insertion .insertion .insertion
    Example.moveLK Example.moveL Example.moveK (Labels.rebuilds_fromBuilder (by decide +kernel))
    Example.moveL_fromBuilder Example.moveK_fromBuilder (by decide +kernel) (by decide +kernel)
    (by decide +kernel) rfl true Example.tensorNumpy Example.tensorNumpy_valid (by decide +kernel) (.inl rfl)
    hfit).2 (by decide +kernel)
  have h := h.blocks
  have hl : ((Example.tensorNumpy.keysToSamples ⟨true⟩ .insertion Example.moveLK true).1.mapData
      NumpyArray.array).blocks.map (fun b => entriesOf b.values.samples) =
      ((((Example.tensorNumpy.keysToSamples ⟨true⟩ .insertion Example.moveL true).1).keysToSamples ⟨true⟩ .insertion
        Example.moveK true).1.mapData NumpyArray.array).blocks.map (fun b => entriesOf b.values.samples) := by
    rw [← List.forall₂_eq_eq_eq, List.forall₂_map_left_iff, List.forall₂_map_right_iff]
    exact h.imp fun _ _ h => by rw [h.values]
  exact absurd hl (by decide +kernel)

section
variable {A : Type} [ArrayLike A]

/-- **C75**, the part which holds: moving some names of the keys, given in the order of the keys, does the
same as moving the first ones, then the last ones. This is for any array, in any build, whatever the order
gradients are visited in, and whether or not samples are sorted in the first step. -/
theorem C75_two_steps_partial (view : A → NdArray) (h : Implements view) (build : Build)
    (hash hash₁ hash₂ : HashOrder) (all first last : Labels) (hm : all.FromBuilder) (hm₁ : first.FromBuilder)
    (hm₂ : last.FromBuilder) (hc : all.count = .ok 0) (hc₁ : first.count = .ok 0) (hc₂ : last.count = .ok 0)
    (hnames : all.names = first.names ++ last.names) (sort₁ : Bool) (t : TensorMap A) (ht : TensorValid t)
    (horder : all.names.Sublist t.keys.names)
    (hcomp : build.debug = true ∨ GradientComponentsAgree t all.names) (hfit : SamplesFit t all.names) :
    SameInTwoSteps view build hash hash₁ hash₂ all first last sort₁ t := by
  have hn := (Labels.Holds.names_ok ht.keys_wf).2
  have h2 : last.names ≠ [] := by
    intro he
    simp [Labels.count, Labels.size, Res.assert, he] at hc₂
  have hs : (first.names ++ last.names).Sublist t.keys.names := hnames ▸ horder
  have htv := (TensorValid.map_iff h).2 ht
  have hr : ∀ key, remainingKey (remainingNames t.keys.names first.names) last.names
      (remainingKey t.keys.names first.names key) = remainingKey t.keys.names all.names key := fun key => by
    rw [hnames]; exact remainingKey_twice hn hs h2 key
  have hcomp₁ : build.debug = true ∨ GradientComponentsAgree t first.names := by
    exact hcomp.imp_right (componentsAgree_first hr)
  have hfit₁ := samplesFit_first hr hfit
  have hall := keysToSamples_succeeds_iff h ht hm hcomp hfit (hash := hash) (sort := true)
  have hone := keysToSamples_succeeds_iff h ht hm₁ hcomp₁ hfit₁ (hash := hash₁) (sort := sort₁)
  -- the second step
  have second : ∀ t₁, t.keysToSamples build hash₁ first sort₁ = (t₁, .ok ()) → TensorValid t₁ ∧
      (build.debug = true ∨ GradientComponentsAgree t₁ last.names) ∧
      MovedToSamples first.names sort₁ (t.mapData view) (t₁.mapData view) ∧
      ((∃ t₂, t₁.keysToSamples build hash₂ last true = (t₂, .ok ())) ↔ CanMoveToSamples ⟨true⟩ t₁ last) := by
    intro t₁ h₁
    have hv₁ := keysToSamples_valid ht hm₁ h₁
    have hmoved := keysToSamples_view h ht hm₁ hcomp₁ h₁
    have hcomp₂ : build.debug = true ∨ GradientComponentsAgree t₁ last.names := by
      refine hcomp.imp_right fun hg => ?_
      have hg' := componentsAgree_mapData ht htv hg
      exact componentsAgree_ofMapData hv₁ ((TensorValid.map_iff h).2 hv₁) (componentsAgree_second htv hr hmoved hg')
    exact ⟨hv₁, hcomp₂, hmoved, keysToSamples_succeeds_iff h hv₁ hm₂ hcomp₂ (samplesFit_second ht hm₁ hr h₁ hfit)⟩
  have hiff : (t.keysToSamples build hash all true).2 = .ok () ↔
      (t.keysToSamples build hash₁ first sort₁).2 = .ok () ∧
        ((t.keysToSamples build hash₁ first sort₁).1.keysToSamples build hash₂ last true).2 = .ok () := by
    constructor
    · intro hok
      have hcan := (canMove_iff ht).1 (hall.1 ⟨_, Prod.ext rfl hok⟩)
      have hcanv := (canMove_map view).2 hcan
      obtain ⟨t₁, h₁⟩ := hone.2 ((canMove_iff ht).2 ((canMove_map view).1 (canMove_first htv hnames horder h2 hc₁ hcanv)))
      obtain ⟨hv₁, -, hmoved, hiff⟩ := second t₁ h₁
      obtain ⟨t₂, h₂⟩ := hiff.2 ((canMove_iff hv₁).2 ((canMove_map view).1
        (canMove_second htv hnames horder h2 hc₂ hcanv hmoved)))
      rw [h₁]
      exact ⟨rfl, by rw [h₂]⟩
    · rintro ⟨hok₁, hok₂⟩
      have h₁ : t.keysToSamples build hash₁ first sort₁ = (_, .ok ()) := Prod.ext rfl hok₁
      obtain ⟨hv₁, -, hmoved, hiff⟩ := second _ h₁
      have hcan₁ := (canMove_map view).2 ((canMove_iff ht).1 (hone.1 ⟨_, h₁⟩))
      have hcan₂ := (canMove_map view).2 ((canMove_iff hv₁).1 (hiff.1 ⟨_, Prod.ext rfl hok₂⟩))
      obtain ⟨t', h'⟩ := hall.2 ((canMove_iff ht).2 ((canMove_map view).1
        (canMove_both htv hnames horder h2 hc hcan₁ hmoved hcan₂)))
      rw [h']
  refine ⟨hiff, fun hok => ?_⟩
  obtain ⟨hok₁, hok₂⟩ := hiff.1 hok
  obtain ⟨hv₁, hcomp₂, hmoved, -⟩ := second _ (Prod.ext rfl hok₁)
  have m₂ := keysToSamples_view h hv₁ hm₂ hcomp₂ (Prod.ext rfl hok₂)
  have m := keysToSamples_view h ht hm hcomp (Prod.ext rfl hok)
  have := hmoved.trans htv hs h2 m₂
  rw [hnames] at m
  exact m.same htv this

/-- **C75**: what `keys_to_samples` gives is completely described by `MovedToSamples`, for any array. -/
theorem C75_described (view : A → NdArray) (h : Implements view) (build : Build) (hash : HashOrder)
    (keysToMove : Labels) (hm : keysToMove.FromBuilder) (sort : Bool) (t t' : TensorMap A) (ht : TensorValid t)
    (hcomp : build.debug = true ∨ GradientComponentsAgree t keysToMove.names)
    (hok : t.keysToSamples build hash keysToMove sort = (t', .ok ())) :
    MovedToSamples keysToMove.names sort (t.mapData view) (t'.mapData view) :=
  keysToSamples_view h ht hm hcomp hok

/-- **C75**: the description is complete: it leaves only one possibility, except for the order in which
gradients are listed. -/
theorem C75_complete (moved : List String) (sort : Bool) (t t' t'' : TensorMap NdArray) (ht : TensorValid t)
    (h : MovedToSamples moved sort t t') (h' : MovedToSamples moved sort t t'') : SameTensor t' t'' :=
  h.same ht h'

end

/-- Non-vacuity of `C75`: moving `k` then `l`. -/
example : TensorValid Example.tensorNumpy ∧ Example.moveKL.names = Example.moveK.names ++ Example.moveL.names ∧
    Example.moveKL.names.Sublist Example.tensorNumpy.keys.names ∧
    SamplesFit Example.tensorNumpy Example.moveKL.names ∧
    (Example.tensorNumpy.keysToSamples ⟨true⟩ .insertion Example.moveKL true).2 = .ok () ∧
    (Example.tensorNumpy.keysToSamples ⟨true⟩ .insertion Example.moveKL true).1.blocks.map
      (fun b => entriesOf b.values.samples) =
      [[[0, 0, 1], [0, 0, 2], [0, 3, 1], [2, 0, 1], [2, 0, 2], [2, 3, 1]]] :=
  ⟨Example.tensorNumpy_valid, rfl, .refl _,
    Example.numpy_fits Example.tensorNumpy_valid _ (by decide +kernel), by decide +kernel, by decide +kernel⟩

/-- Without sorting, the order of samples can be different: here the keys `l = 1, 2, 1` are visited in a
different order when `k` was moved first. -/
example : (Example.tensorNumpy.keysToSamples ⟨true⟩ .insertion Example.moveKL false).1.blocks.map
      (fun b => entriesOf b.values.samples) ≠
    (((Example.tensorNumpy.keysToSamples ⟨true⟩ .insertion Example.moveK false).1).keysToSamples ⟨true⟩ .insertion
      Example.moveL false).1.blocks.map (fun b => entriesOf b.values.samples) := by
  decide +kernel

end Equistore
