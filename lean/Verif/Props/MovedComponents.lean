import Verif.Lemmas.MovedComponents
import Verif.Props.MovedTwice

/-!
# C81: keys and components can be moved in any order
-/

namespace Equistore
open Spec NdArray

section
variable {A : Type} [ArrayLike A]

/-- Moving keys to the samples then a component to the properties, or the other way around: both succeed or
none of them, and the results are the same, except for the order in which gradients are listed. -/
def SameInBothOrders (view : A → NdArray) (build : Build) (hash₁ hash₂ hash₃ hash₄ : HashOrder) (keysToMove : Labels)
    (sort : Bool) (component : List String) (t : TensorMap A) : Prop :=
  let keys := t.keysToSamples build hash₁ keysToMove sort
  let keysThenComponent := keys.1.componentsToProperties hash₂ component
  let component' := t.componentsToProperties hash₃ component
  let componentThenKeys := component'.1.keysToSamples build hash₄ keysToMove sort
  (keys.2 = .ok () ∧ keysThenComponent.2 = .ok () ↔ component'.2 = .ok () ∧ componentThenKeys.2 = .ok ()) ∧
  (keys.2 = .ok () → keysThenComponent.2 = .ok () →
    SameTensor (keysThenComponent.1.mapData view) (componentThenKeys.1.mapData view))

end

/-- **C81**, in full: see `C81_counterexample`. -/
def C81_full_statement : Prop :=
  ∀ (A : Type) (_ : ArrayLike A) (view : A → NdArray), Implements view →
    ∀ (build : Build) (hash₁ hash₂ hash₃ hash₄ : HashOrder) (keysToMove : Labels), keysToMove.FromBuilder →
    ∀ (sort : Bool) (component : List String) (t : TensorMap A), TensorValid t →
    (build.debug = true ∨ GradientComponentsAgree t keysToMove.names) → SamplesFit t keysToMove.names →
    SameInBothOrders view build hash₁ hash₂ hash₃ hash₄ keysToMove sort component t

section
variable {A : Type} [ArrayLike A]

/-- **C81**, from one order to the other: if moving keys to the samples then a component to the properties
works, then so does the other order, and gives the same. -/
theorem C81_keys_first (view : A → NdArray) (h : Implements view) (build : Build)
    (hash₁ hash₂ hash₃ hash₄ : HashOrder) (keysToMove : Labels) (hm : keysToMove.FromBuilder) (sort : Bool)
    (component : List String) (t t₁ t₁₂ : TensorMap A) (ht : TensorValid t)
    (hcomp : build.debug = true ∨ GradientComponentsAgree t keysToMove.names) (hfit : SamplesFit t keysToMove.names)
    (h₁ : t.keysToSamples build hash₁ keysToMove sort = (t₁, .ok ()))
    (h₁₂ : t₁.componentsToProperties hash₂ component = (t₁₂, .ok ())) :
    ∃ t₂ t₂₁, t.componentsToProperties hash₃ component = (t₂, .ok ()) ∧
      t₂.keysToSamples build hash₄ keysToMove sort = (t₂₁, .ok ()) ∧
      SameTensor (t₁₂.mapData view) (t₂₁.mapData view) := by
  have htv := (TensorValid.map_iff h).2 ht
  have hv₁ := keysToSamples_valid ht hm h₁
  have m₁ := keysToSamples_view h ht hm hcomp h₁
  have hcan := (canMove_iff ht).1 ((keysToSamples_succeeds_iff h ht hm hcomp hfit).1 ⟨_, h₁⟩)
  by_cases hv : component = []
  · subst hv
    rw [TensorMap.componentsToProperties_nil, Prod.mk.injEq] at h₁₂
    obtain ⟨rfl, -⟩ := h₁₂
    obtain ⟨t₂₁, h₂₁⟩ := (keysToSamples_succeeds_iff h ht hm hcomp hfit (hash := hash₄) (sort := sort)).2
      ((canMove_iff ht).2 hcan)
    exact ⟨t, t₂₁, TensorMap.componentsToProperties_nil, h₂₁, m₁.same htv (keysToSamples_view h ht hm hcomp h₂₁)⟩
  obtain ⟨hv₁₂, k₁₂, b₁₂⟩ := (componentsToProperties_view h hv₁).2 t₁₂ hv h₁₂
  obtain ⟨t₂, h₂⟩ := (componentsToProperties_view h ht (hash := hash₃)).1.2
    (componentsToProperties_succeeds_of hv htv b₁₂ fun b hb => by
      obtain ⟨key, hk⟩ := zip_block htv hb
      obtain ⟨kb₁, h3, h4, h5⟩ := m₁.above htv hk
      have := h5.labels (key, b) (mem_group.2 ⟨hk, h4.symm⟩)
      exact ⟨kb₁.2, (List.of_mem_zip (a := kb₁.1) (b := kb₁.2) h3).2, this⟩)
  obtain ⟨hv₂, k₂, b₂⟩ := (componentsToProperties_view h ht).2 t₂ hv h₂
  have htv₂ := (TensorValid.map_iff h).2 hv₂
  have hcomp₂ : build.debug = true ∨ GradientComponentsAgree t₂ keysToMove.names :=
    hcomp.imp_right fun hc => componentsAgree_ofMapData hv₂ htv₂
      (componentsAgree_flat k₂ b₂ htv htv₂ (componentsAgree_mapData ht htv hc))
  have hfit₂ : SamplesFit t₂ keysToMove.names :=
    (samplesFit_map h hv₂).1 (samplesFit_flat k₂ b₂ htv htv₂ ((samplesFit_map h ht).2 hfit))
  obtain ⟨t₂₁, h₂₁⟩ := (keysToSamples_succeeds_iff h hv₂ hm hcomp₂ hfit₂ (hash := hash₄) (sort := sort)).2
    ((canMove_iff hv₂).2 ((canMove_map view).1 (canMove_flat k₂ b₂ ((canMove_map view).2 hcan))))
  refine ⟨t₂, t₂₁, h₂, h₂₁, ?_⟩
  exact (m₁.flat htv htv₂ ((TensorValid.map_iff h).2 hv₁₂) k₂ b₂ k₁₂ b₁₂).same htv₂
    (keysToSamples_view h hv₂ hm hcomp₂ h₂₁)

/-- **C81**, if there are properties and the component has entries. What is missing: blocks without properties
or without entries in the component, where moving the component first works in more cases, see
`C81_counterexample`. -/
theorem C81_both_orders_partial (view : A → NdArray) (h : Implements view) (build : Build)
    (hash₁ hash₂ hash₃ hash₄ : HashOrder) (keysToMove : Labels) (hm : keysToMove.FromBuilder) (sort : Bool)
    (component : List String) (t : TensorMap A) (ht : TensorValid t)
    (hcomp : build.debug = true ∨ GradientComponentsAgree t keysToMove.names) (hfit : SamplesFit t keysToMove.names)
    (hp : ∀ b ∈ t.blocks, entriesOf b.values.properties ≠ [] ∧
      ∀ c ∈ b.values.components, c.names = component → entriesOf c ≠ []) :
    SameInBothOrders view build hash₁ hash₂ hash₃ hash₄ keysToMove sort component t := by
  have htv := (TensorValid.map_iff h).2 ht
  have first : ∀ {t₁ t₁₂}, t.keysToSamples build hash₁ keysToMove sort = (t₁, .ok ()) →
      t₁.componentsToProperties hash₂ component = (t₁₂, .ok ()) → _ := fun {t₁ t₁₂} h₁ h₁₂ =>
    C81_keys_first view h build hash₁ hash₂ hash₃ hash₄ keysToMove hm sort component t t₁ t₁₂ ht hcomp hfit h₁ h₁₂
  refine ⟨⟨fun ⟨hok₁, hok₂⟩ => ?_, fun ⟨hok₁, hok₂⟩ => ?_⟩, fun hok₁ hok₂ => ?_⟩
  · obtain ⟨t₂, t₂₁, h₂, h₂₁, -⟩ := first (Prod.ext rfl hok₁) (Prod.ext rfl hok₂)
    rw [h₂]
    exact ⟨rfl, by rw [h₂₁]⟩
  · obtain ⟨t₂, h₂⟩ : ∃ t₂, t.componentsToProperties hash₃ component = (t₂, .ok ()) := ⟨_, Prod.ext rfl hok₁⟩
    rw [h₂] at hok₂
    obtain ⟨t₂₁, h₂₁⟩ : ∃ t₂₁, t₂.keysToSamples build hash₄ keysToMove sort = (t₂₁, .ok ()) := ⟨_, Prod.ext rfl hok₂⟩
    by_cases hv : component = []
    · subst hv
      rw [TensorMap.componentsToProperties_nil, Prod.mk.injEq] at h₂
      obtain ⟨rfl, -⟩ := h₂
      obtain ⟨t₁, h₁⟩ := (keysToSamples_succeeds_iff h ht hm hcomp hfit (hash := hash₁) (sort := sort)).2
        ((keysToSamples_succeeds_iff h ht hm hcomp hfit).1 ⟨_, h₂₁⟩)
      rw [h₁]
      exact ⟨rfl, by rw [TensorMap.componentsToProperties_nil]⟩
    obtain ⟨hv₂, k₂, b₂⟩ := (componentsToProperties_view h ht).2 t₂ hv h₂
    have htv₂ := (TensorValid.map_iff h).2 hv₂
    have hcomp₂ : build.debug = true ∨ GradientComponentsAgree t₂ keysToMove.names :=
      hcomp.imp_right fun hc => componentsAgree_ofMapData hv₂ htv₂
        (componentsAgree_flat k₂ b₂ htv htv₂ (componentsAgree_mapData ht htv hc))
    have hfit₂ : SamplesFit t₂ keysToMove.names :=
      (samplesFit_map h hv₂).1 (samplesFit_flat k₂ b₂ htv htv₂ ((samplesFit_map h ht).2 hfit))
    have hcan₂ := (canMove_iff hv₂).1 ((keysToSamples_succeeds_iff h hv₂ hm hcomp₂ hfit₂).1 ⟨_, h₂₁⟩)
    have hcan := (canMove_map view).1 (canMove_unflat k₂ b₂ htv (by
      intro b hb
      obtain ⟨b₀, hb₀, rfl⟩ := List.mem_map.1 hb
      exact hp b₀ hb₀) ((canMove_map view).2 hcan₂))
    obtain ⟨t₁, h₁⟩ := (keysToSamples_succeeds_iff h ht hm hcomp hfit (hash := hash₁) (sort := sort)).2
      ((canMove_iff ht).2 hcan)
    have hv₁ := keysToSamples_valid ht hm h₁
    have m₁ := keysToSamples_view h ht hm hcomp h₁
    obtain ⟨t₁₂, h₁₂⟩ := (componentsToProperties_view h hv₁ (hash := hash₂)).1.2
      (componentsToProperties_succeeds_of hv ((TensorValid.map_iff h).2 hv₁) b₂ fun b₁ hb₁ => by
        obtain ⟨key, hk⟩ := zip_block ((TensorValid.map_iff h).2 hv₁) hb₁
        obtain ⟨h5, kb, h3, h4⟩ := m₁.below htv hk
        have := h5.labels kb ((mem_group (key := kb.1) (b := kb.2)).2 ⟨h3, h4⟩)
        exact ⟨kb.2, (List.of_mem_zip (a := kb.1) (b := kb.2) h3).2, this.1.symm, this.2.symm⟩)
    rw [h₁]
    exact ⟨rfl, by rw [h₁₂]⟩
  · obtain ⟨t₂, t₂₁, h₂, h₂₁, hs⟩ := first (Prod.ext rfl hok₁) (Prod.ext rfl hok₂)
    rw [h₂]
    simp only [h₂₁]
    exact hs

end

namespace Example

/-- A block without properties, where the component has one entry instead of two. -/
def noPropertiesOne : TensorBlock NdArray :=
  ⟨⟨⟨[2, 1, 0], []⟩, samples, [Labels.mk' ["c"] [[0]]], Labels.mk' ["p"] []⟩, [], []⟩
/-- Blocks without properties, with different components. -/
def withoutPropertiesMixed : TensorMap NumpyArray :=
  (⟨keys, [noProperties, noPropertiesOne, noProperties]⟩ : TensorMap NdArray).mapData toNumpy
theorem withoutPropertiesMixed_valid : TensorValid withoutPropertiesMixed :=
  (TensorValid.map_iff implements_numpy).1 (TensorMap.valid_of_rebuilds (by decide +kernel))

/-- Two blocks with three components, so that values are permuted by `components_to_properties`. -/
def deepPair : TensorMap NumpyArray :=
  (⟨Labels.mk' ["k"] [[3], [1]], [deepBlock, deepBlock]⟩ : TensorMap NdArray).mapData toNumpy
theorem deepPair_valid : TensorValid deepPair :=
  (TensorValid.map_iff implements_numpy).1 (TensorMap.valid_of_rebuilds (by decide +kernel))

end Example

/-- **C81**, the defect: without properties, blocks with different components can be merged once the component was
moved, but not before. -/
theorem C81_counterexample : ¬ C81_full_statement := by
  intro h
  have hfit := Example.numpy_fits Example.withoutPropertiesMixed_valid Example.moveL.names (by decide +kernel)
  have h := (h NumpyArray inferInstance NumpyArray.array implements_numpy ⟨true⟩ .insertion .insertion .insertion
    .insertion Example.moveL Example.moveL_fromBuilder true ["c"] Example.withoutPropertiesMixed
    Example.withoutPropertiesMixed_valid (.inl rfl) hfit).1.2 (by decide +kernel)
  exact absurd h.1 (by decide +kernel)

/-- Non-vacuity of `C81`: with gradients, sorted or not. -/
example : TensorValid Example.tensorNumpy ∧ Example.moveL.FromBuilder ∧
    SamplesFit Example.tensorNumpy Example.moveL.names ∧
    (∀ b ∈ Example.tensorNumpy.blocks, entriesOf b.values.properties ≠ [] ∧
      ∀ c ∈ b.values.components, c.names = ["c"] → entriesOf c ≠ []) ∧
    ∀ sort, (Example.tensorNumpy.keysToSamples ⟨true⟩ .insertion Example.moveL sort).2 = .ok () ∧
      ((Example.tensorNumpy.keysToSamples ⟨true⟩ .insertion Example.moveL sort).1.componentsToProperties .insertion
        ["c"]).2 = .ok () := by
  refine ⟨Example.tensorNumpy_valid, Example.moveL_fromBuilder,
    Example.numpy_fits Example.tensorNumpy_valid _ (by decide +kernel), by decide +kernel, by decide +kernel⟩

/-- The values can be permuted when components are moved, see `C10_axes_counterexample`. It is the same permutation
in both orders. -/
example : TensorValid Example.deepPair ∧ SamplesFit Example.deepPair Example.moveK.names ∧
    (Example.deepPair.keysToSamples ⟨true⟩ .insertion Example.moveK true).2 = .ok () ∧
    ((Example.deepPair.keysToSamples ⟨true⟩ .insertion Example.moveK true).1.componentsToProperties .insertion
      ["a"]).2 = .ok () ∧
    (((Example.deepPair.keysToSamples ⟨true⟩ .insertion Example.moveK true).1.componentsToProperties .insertion
      ["a"]).1.blocks.map fun b => b.values.data.array.elements.map BitVec.toNat) =
      [[0, 4, 2, 6, 1, 5, 3, 7, 0, 4, 2, 6, 1, 5, 3, 7]] := by
  refine ⟨Example.deepPair_valid, Example.numpy_fits Example.deepPair_valid _ (by decide +kernel), ?_⟩
  decide +kernel

end Equistore
