import Verif.Props.MovedProperties
import Verif.Lemmas.MovedBothOutcome

/-!
# Moving keys to samples and other keys to properties (C82)
-/

namespace Equistore
open Spec NdArray

/-- The outcome of moving the names in `S` to the samples, then the names in `P` to the properties. -/
def samplesThenProperties {A : Type} [ArrayLike A] (build : Build) (hash₁ hash₂ : HashOrder) (S P : Labels)
    (sort₁ : Bool) (t : TensorMap A) : TensorMap A × Res Unit :=
  match t.keysToSamples build hash₁ S sort₁ with
  | (t₁, .ok ()) => t₁.keysToProperties build hash₂ P true
  | (t₁, r) => (t₁, r)

/-- The outcome of moving the names in `P` to the properties, then the names in `S` to the samples. -/
def propertiesThenSamples {A : Type} [ArrayLike A] (build : Build) (hash₁ hash₂ : HashOrder) (S P : Labels)
    (sort₁ : Bool) (t : TensorMap A) : TensorMap A × Res Unit :=
  match t.keysToProperties build hash₁ P sort₁ with
  | (t₁, .ok ()) => t₁.keysToSamples build hash₂ S true
  | (t₁, r) => (t₁, r)

/-- **C82**, in full: moving some names of the keys to the samples and other ones to the properties does the same
in both orders: it succeeds in the same cases, and what can be seen of the resulting tensor maps is the same,
except for the order in which gradients are listed.

This is false of the code: moving to the samples requires blocks with the same properties, and moving to the
properties can give different properties to the blocks. -/
def C82_full_statement : Prop :=
  ∀ (A : Type) (_ : ArrayLike A) (view : A → NdArray), Implements view →
    ∀ (build : Build) (hash₁ hash₂ hash₁' hash₂' : HashOrder) (S P : Labels), S.FromBuilder → P.FromBuilder →
    S.count = .ok 0 → P.count = .ok 0 → (∀ n ∈ S.names, n ∉ P.names) →
    ∀ (sort₁ sort₁' : Bool) (t : TensorMap A), TensorValid t →
    (∀ n, n ∈ S.names ∨ n ∈ P.names → n ∈ t.keys.names) →
    (build.debug = true ∨ GradientComponentsAgree t (S.names ++ P.names)) → SamplesFit t (S.names ++ P.names) →
    ((samplesThenProperties build hash₁ hash₂ S P sort₁ t).2 = .ok () ↔
      (propertiesThenSamples build hash₁' hash₂' S P sort₁' t).2 = .ok ()) ∧
    ((samplesThenProperties build hash₁ hash₂ S P sort₁ t).2 = .ok () →
      SameTensor ((samplesThenProperties build hash₁ hash₂ S P sort₁ t).1.mapData view)
        ((propertiesThenSamples build hash₁' hash₂' S P sort₁' t).1.mapData view))

/-- **C82**, the defect: with keys `(k, l)` = `(0, 1)`, `(0, 2)` and `(3, 1)`, moving `k` to the samples then `l`
to the properties succeeds. In the other order this fails: there is a property with `l = 2` for `k = 0`, not for
`k = 3`. -/
theorem C82_counterexample : ¬ C82_full_statement := by
  intro h
  have hfit := Example.numpy_fits Example.tensorNumpy_valid (Example.moveK.names ++ Example.moveL.names)
    (by decide +kernel)
  have h := (h NumpyArray inferInstance NumpyArray.array implements_numpy ⟨true⟩ .insertion .insertion .insertion
    .insertion Example.moveK Example.moveL Example.moveK_fromBuilder Example.moveL_fromBuilder (by decide +kernel)
    (by decide +kernel) (by decide +kernel) true true Example.tensorNumpy Example.tensorNumpy_valid
    (by rintro n (h | h) <;> revert n <;> decide +kernel) (.inl rfl) hfit).1
  have h1 : (samplesThenProperties ⟨true⟩ .insertion .insertion Example.moveK Example.moveL true
      Example.tensorNumpy).2 = .ok () := by decide +kernel
  have h2 : (propertiesThenSamples ⟨true⟩ .insertion .insertion Example.moveK Example.moveL true
      Example.tensorNumpy).2 ≠ .ok () := by decide +kernel
  exact h2 (h.1 h1)

section
variable {A : Type} [ArrayLike A]

theorem samplesThenProperties_ok {build : Build} {hash₁ hash₂ : HashOrder} {S P : Labels} {sort₁ : Bool}
    {t t₂ : TensorMap A} : samplesThenProperties build hash₁ hash₂ S P sort₁ t = (t₂, .ok ()) ↔
      ∃ t₁, t.keysToSamples build hash₁ S sort₁ = (t₁, .ok ()) ∧
        t₁.keysToProperties build hash₂ P true = (t₂, .ok ()) := by
  rw [samplesThenProperties]
  constructor
  · intro h
    split at h
    · exact ⟨_, ‹_›, h⟩
    · rename_i t₁ r hr _
      rw [(Prod.mk.inj h).2] at hr
      exact absurd rfl hr
  · rintro ⟨t₁, h1, h2⟩
    rw [h1]; exact h2

theorem propertiesThenSamples_ok {build : Build} {hash₁ hash₂ : HashOrder} {S P : Labels} {sort₁ : Bool}
    {t t₂ : TensorMap A} : propertiesThenSamples build hash₁ hash₂ S P sort₁ t = (t₂, .ok ()) ↔
      ∃ t₁, t.keysToProperties build hash₁ P sort₁ = (t₁, .ok ()) ∧
        t₁.keysToSamples build hash₂ S true = (t₂, .ok ()) := by
  rw [propertiesThenSamples]
  constructor
  · intro h
    split at h
    · exact ⟨_, ‹_›, h⟩
    · rename_i t₁ r hr _
      rw [(Prod.mk.inj h).2] at hr
      exact absurd rfl hr
  · rintro ⟨t₁, h1, h2⟩
    rw [h1]; exact h2

variable {view : A → NdArray} (h : Implements view) {build : Build} {S P : Labels} (hmS : S.FromBuilder)
  (hmP : P.FromBuilder) (hcS : S.count = .ok 0) (hcP : P.count = .ok 0) (hd : ∀ n ∈ S.names, n ∉ P.names)
  {t : TensorMap A} (ht : TensorValid t) (hn : ∀ n, n ∈ S.names ∨ n ∈ P.names → n ∈ t.keys.names)
  (hcomp : build.debug = true ∨ GradientComponentsAgree t (S.names ++ P.names))
  (hfit : SamplesFit t (S.names ++ P.names))

theorem names_ne_nil_of_count {l : Labels} (hl : l.count = .ok 0) : l.names ≠ [] := by
  intro he
  simp [Labels.count, Labels.size, Res.assert, he] at hl

include h hmS hmP hcS hcP hd ht hn hcomp in
theorem samplesThenProperties_moved {hash₁ hash₂ : HashOrder} {sort₁ : Bool} {t₂ : TensorMap A}
    (hok : samplesThenProperties build hash₁ hash₂ S P sort₁ t = (t₂, .ok ())) :
    MovedToBoth S.names P.names (t.mapData view) (t₂.mapData view) := by
  obtain ⟨t₁, h₁, h₂⟩ := samplesThenProperties_ok.1 hok
  have htv := (TensorValid.map_iff h).2 ht
  have hf := filter_samples_ne_nil (t := t.mapData view) hd (names_ne_nil_of_count hcP) fun n h => hn n (.inr h)
  have hr : ∀ key, remainingKey (remainingNames t.keys.names S.names) P.names (remainingKey t.keys.names S.names key) =
      remainingKey t.keys.names (S.names ++ P.names) key := remainingKey_of hf
  have hv₁ := keysToSamples_valid ht hmS h₁
  have hcomp₁ := hcomp.imp_right (componentsAgree_first hr)
  have hmoved := keysToSamples_view h ht hmS hcomp₁ h₁
  have hcomp₂ : build.debug = true ∨ GradientComponentsAgree t₁ P.names := by
    refine hcomp.imp_right fun hg => ?_
    have hg' := componentsAgree_mapData ht htv hg
    exact componentsAgree_ofMapData hv₁ ((TensorValid.map_iff h).2 hv₁) (componentsAgree_second htv hr hmoved hg')
  exact .samplesFirst htv hf (fun n h1 h2 => hd n h2 h1) hmoved
    (keysToProperties_viewInOrder h hv₁ hmP hcP hcomp₂ h₂)

include h hmS hmP hcS hcP hd ht hn hcomp in
theorem propertiesThenSamples_moved {hash₁ hash₂ : HashOrder} {sort₁ : Bool} {t₂ : TensorMap A}
    (hok : propertiesThenSamples build hash₁ hash₂ S P sort₁ t = (t₂, .ok ())) :
    MovedToBoth S.names P.names (t.mapData view) (t₂.mapData view) := by
  obtain ⟨t₁, h₁, h₂⟩ := propertiesThenSamples_ok.1 hok
  have htv := (TensorValid.map_iff h).2 ht
  have hf := filter_properties_ne_nil (t := t.mapData view) hd (names_ne_nil_of_count hcS) fun n h => hn n (.inl h)
  have hr : ∀ key, remainingKey (remainingNames t.keys.names P.names) S.names (remainingKey t.keys.names P.names key) =
      remainingKey t.keys.names (S.names ++ P.names) key := fun key => by
    rw [remainingKey_swap]; exact remainingKey_of hf key
  have hv₁ := keysToProperties_valid ht hmP h₁
  have hcomp₁ := hcomp.imp_right (componentsAgree_first hr)
  have hmoved := keysToProperties_viewInOrder h ht hmP hcP hcomp₁ h₁
  have hcomp₂ : build.debug = true ∨ GradientComponentsAgree t₁ S.names := by
    refine hcomp.imp_right fun hg => ?_
    have hg' := componentsAgree_mapData ht htv hg
    exact componentsAgree_ofMapData hv₁ ((TensorValid.map_iff h).2 hv₁)
      (componentsAgree_back htv hr hmoved.toMovedToProperties hg')
  exact .propertiesFirst htv hf hd hmoved (keysToSamples_view h hv₁ hmS hcomp₂ h₂)

include h hmS hmP hcS hcP hd ht hn hcomp hfit in
theorem samplesThenProperties_iff {hash₁ hash₂ : HashOrder} {sort₁ : Bool} :
    (∃ t₂, samplesThenProperties build hash₁ hash₂ S P sort₁ t = (t₂, .ok ())) ↔
      CanMoveBoth (t.mapData view) S.names P.names := by
  have htv := (TensorValid.map_iff h).2 ht
  have hS := names_ne_nil_of_count hcS
  have hP := names_ne_nil_of_count hcP
  have hf := filter_samples_ne_nil (t := t.mapData view) hd hP fun n h => hn n (.inr h)
  have hr : ∀ key, remainingKey (remainingNames t.keys.names S.names) P.names (remainingKey t.keys.names S.names key) =
      remainingKey t.keys.names (S.names ++ P.names) key := remainingKey_of hf
  have hcomp₁ := hcomp.imp_right (componentsAgree_first hr)
  have hfit₁ := samplesFit_first hr hfit
  have eP := entriesOf_of_count hmP hcP
  have hone := keysToSamples_succeeds_iff h ht hmS hcomp₁ hfit₁ (hash := hash₁) (sort := sort₁)
  have second : ∀ t₁, t.keysToSamples build hash₁ S sort₁ = (t₁, .ok ()) →
      MovedToSamples S.names sort₁ (t.mapData view) (t₁.mapData view) ∧
      ((∃ t₂, t₁.keysToProperties build hash₂ P true = (t₂, .ok ())) ↔ CanMoveP (t₁.mapData view) P) := by
    intro t₁ h₁
    have hv₁ := keysToSamples_valid ht hmS h₁
    have hmoved := keysToSamples_view h ht hmS hcomp₁ h₁
    have hcomp₂ : build.debug = true ∨ GradientComponentsAgree t₁ P.names := by
      refine hcomp.imp_right fun hg => ?_
      have hg' := componentsAgree_mapData ht htv hg
      exact componentsAgree_ofMapData hv₁ ((TensorValid.map_iff h).2 hv₁) (componentsAgree_second htv hr hmoved hg')
    refine ⟨hmoved, ?_⟩
    rw [keysToProperties_succeeds_iff h hv₁ hmP hcomp₂ (samplesFit_second ht hmS hr h₁ hfit), canMoveP_iff hv₁ eP,
      canMoveP_map view]
  constructor
  · rintro ⟨t₂, hok⟩
    obtain ⟨t₁, h₁, h₂⟩ := samplesThenProperties_ok.1 hok
    obtain ⟨hmoved, hiff⟩ := second t₁ h₁
    exact canMoveBoth_ofSamples htv hd hP (fun n h => hn n (.inr h))
      ((canMove_map view).2 ((canMove_iff ht).1 (hone.1 ⟨_, h₁⟩))) hmoved (hiff.1 ⟨_, h₂⟩)
  · intro hcan
    obtain ⟨t₁, h₁⟩ := hone.2 ((canMove_iff ht).2 ((canMove_map view).1 (hcan.samples hd hcS hP)))
    obtain ⟨hmoved, hiff⟩ := second t₁ h₁
    obtain ⟨t₂, h₂⟩ := hiff.2 (hcan.afterSamples htv hd hP hmoved)
    exact ⟨t₂, samplesThenProperties_ok.2 ⟨t₁, h₁, h₂⟩⟩

include h hmS hmP hcS hcP hd ht hn hcomp hfit in
theorem propertiesThenSamples_iff {hash₁ hash₂ : HashOrder} {sort₁ : Bool} :
    (∃ t₂, propertiesThenSamples build hash₁ hash₂ S P sort₁ t = (t₂, .ok ())) ↔
      CanMoveBoth (t.mapData view) S.names P.names ∧ SameCombinations t S.names P.names := by
  have htv := (TensorValid.map_iff h).2 ht
  have hS := names_ne_nil_of_count hcS
  have hP := names_ne_nil_of_count hcP
  have hf := filter_properties_ne_nil (t := t.mapData view) hd hS fun n h => hn n (.inl h)
  have hr : ∀ key, remainingKey (remainingNames t.keys.names P.names) S.names (remainingKey t.keys.names P.names key) =
      remainingKey t.keys.names (S.names ++ P.names) key := fun key => by
    rw [remainingKey_swap]; exact remainingKey_of hf key
  have hcomp₁ := hcomp.imp_right (componentsAgree_first hr)
  have hfit₁ := samplesFit_first hr hfit
  have eP := entriesOf_of_count hmP hcP
  have hone := keysToProperties_succeeds_iff h ht hmP hcomp₁ hfit₁ (hash := hash₁) (sort := sort₁)
  have second : ∀ t₁, t.keysToProperties build hash₁ P sort₁ = (t₁, .ok ()) →
      MovedToPropertiesInOrder P.names sort₁ (t.mapData view) (t₁.mapData view) ∧
      ((∃ t₂, t₁.keysToSamples build hash₂ S true = (t₂, .ok ())) ↔ CanMove (t₁.mapData view) S) := by
    intro t₁ h₁
    have hv₁ := keysToProperties_valid ht hmP h₁
    have hmoved := keysToProperties_viewInOrder h ht hmP hcP hcomp₁ h₁
    have hcomp₂ : build.debug = true ∨ GradientComponentsAgree t₁ S.names := by
      refine hcomp.imp_right fun hg => ?_
      have hg' := componentsAgree_mapData ht htv hg
      exact componentsAgree_ofMapData hv₁ ((TensorValid.map_iff h).2 hv₁)
        (componentsAgree_back htv hr hmoved.toMovedToProperties hg')
    refine ⟨hmoved, ?_⟩
    rw [keysToSamples_succeeds_iff h hv₁ hmS hcomp₂ (samplesFit_back_second ht hmP hr h₁ hfit), canMove_iff hv₁,
      canMove_map view]
  constructor
  · rintro ⟨t₂, hok⟩
    obtain ⟨t₁, h₁, h₂⟩ := propertiesThenSamples_ok.1 hok
    obtain ⟨hmoved, hiff⟩ := second t₁ h₁
    exact canMoveBoth_ofProperties htv hd hS (fun n h => hn n (.inl h))
      ((canMoveP_map view).2 ((canMoveP_iff ht eP).1 (hone.1 ⟨_, h₁⟩))) hmoved (hiff.1 ⟨_, h₂⟩)
  · rintro ⟨hcan, hcomb⟩
    obtain ⟨t₁, h₁⟩ := hone.2 ((canMoveP_iff ht eP).2 ((canMoveP_map view).1 (hcan.toProperties hd hS hP)))
    obtain ⟨hmoved, hiff⟩ := second t₁ h₁
    obtain ⟨t₂, h₂⟩ := hiff.2 (hcan.afterProperties htv hd hcS hS hP hcomb hmoved)
    exact ⟨t₂, propertiesThenSamples_ok.2 ⟨t₁, h₁, h₂⟩⟩

end

section
variable {A : Type} [ArrayLike A]

/-- **C82**, the part which holds: moving to the properties first succeeds exactly when moving to the samples
first succeeds and the values of the names `P` are the same ones in the same order whatever the values of the
names `S`. In this case both orders give the same tensor map. This is for any array, in any build, whatever the
order gradients are visited in, and whether or not samples are sorted in the first step. -/
theorem C82_any_order_partial (view : A → NdArray) (h : Implements view) (build : Build)
    (hash₁ hash₂ hash₁' hash₂' : HashOrder) (S P : Labels) (hmS : S.FromBuilder) (hmP : P.FromBuilder)
    (hcS : S.count = .ok 0) (hcP : P.count = .ok 0) (hd : ∀ n ∈ S.names, n ∉ P.names) (sort₁ sort₁' : Bool)
    (t : TensorMap A) (ht : TensorValid t) (hn : ∀ n, n ∈ S.names ∨ n ∈ P.names → n ∈ t.keys.names)
    (hcomp : build.debug = true ∨ GradientComponentsAgree t (S.names ++ P.names))
    (hfit : SamplesFit t (S.names ++ P.names)) :
    ((propertiesThenSamples build hash₁' hash₂' S P sort₁' t).2 = .ok () ↔
      (samplesThenProperties build hash₁ hash₂ S P sort₁ t).2 = .ok () ∧ SameCombinations t S.names P.names) ∧
    ((propertiesThenSamples build hash₁' hash₂' S P sort₁' t).2 = .ok () →
      SameTensor ((samplesThenProperties build hash₁ hash₂ S P sort₁ t).1.mapData view)
        ((propertiesThenSamples build hash₁' hash₂' S P sort₁' t).1.mapData view)) := by
  have hs := samplesThenProperties_iff h hmS hmP hcS hcP hd ht hn hcomp hfit (hash₁ := hash₁) (hash₂ := hash₂)
    (sort₁ := sort₁)
  have hp := propertiesThenSamples_iff h hmS hmP hcS hcP hd ht hn hcomp hfit (hash₁ := hash₁') (hash₂ := hash₂')
    (sort₁ := sort₁')
  have hex : ∀ {x : TensorMap A × Res Unit}, x.2 = .ok () ↔ ∃ t₂, x = (t₂, .ok ()) := by
    intro x
    exact ⟨fun h => ⟨x.1, Prod.ext rfl h⟩, by rintro ⟨_, rfl⟩; rfl⟩
  have hiff : (propertiesThenSamples build hash₁' hash₂' S P sort₁' t).2 = .ok () ↔
      (samplesThenProperties build hash₁ hash₂ S P sort₁ t).2 = .ok () ∧ SameCombinations t S.names P.names := by
    rw [hex, hex, hs, hp]
  refine ⟨hiff, fun hok => ?_⟩
  exact (samplesThenProperties_moved h hmS hmP hcS hcP hd ht hn hcomp (Prod.ext rfl (hiff.1 hok).1)).same
    ((TensorValid.map_iff h).2 ht)
    (propertiesThenSamples_moved h hmS hmP hcS hcP hd ht hn hcomp (Prod.ext rfl hok))

/-- **C82**: what moving to the samples then to the properties gives is described by `MovedToBoth`. -/
theorem C82_samples_first_described (view : A → NdArray) (h : Implements view) (build : Build)
    (hash₁ hash₂ : HashOrder) (S P : Labels) (hmS : S.FromBuilder) (hmP : P.FromBuilder)
    (hcS : S.count = .ok 0) (hcP : P.count = .ok 0) (hd : ∀ n ∈ S.names, n ∉ P.names) (sort₁ : Bool)
    (t t' : TensorMap A) (ht : TensorValid t) (hn : ∀ n, n ∈ S.names ∨ n ∈ P.names → n ∈ t.keys.names)
    (hcomp : build.debug = true ∨ GradientComponentsAgree t (S.names ++ P.names))
    (hok : samplesThenProperties build hash₁ hash₂ S P sort₁ t = (t', .ok ())) :
    MovedToBoth S.names P.names (t.mapData view) (t'.mapData view) :=
  samplesThenProperties_moved h hmS hmP hcS hcP hd ht hn hcomp hok

/-- **C82**: what moving to the properties then to the samples gives is described by `MovedToBoth`. -/
theorem C82_properties_first_described (view : A → NdArray) (h : Implements view) (build : Build)
    (hash₁ hash₂ : HashOrder) (S P : Labels) (hmS : S.FromBuilder) (hmP : P.FromBuilder)
    (hcS : S.count = .ok 0) (hcP : P.count = .ok 0) (hd : ∀ n ∈ S.names, n ∉ P.names) (sort₁ : Bool)
    (t t' : TensorMap A) (ht : TensorValid t) (hn : ∀ n, n ∈ S.names ∨ n ∈ P.names → n ∈ t.keys.names)
    (hcomp : build.debug = true ∨ GradientComponentsAgree t (S.names ++ P.names))
    (hok : propertiesThenSamples build hash₁ hash₂ S P sort₁ t = (t', .ok ())) :
    MovedToBoth S.names P.names (t.mapData view) (t'.mapData view) :=
  propertiesThenSamples_moved h hmS hmP hcS hcP hd ht hn hcomp hok

/-- **C82**: the description is complete: it leaves only one possibility, except for the order in which
gradients are listed. -/
theorem C82_complete (S P : List String) (t t' t'' : TensorMap NdArray) (ht : TensorValid t)
    (h : MovedToBoth S P t t') (h' : MovedToBoth S P t t'') : SameTensor t' t'' :=
  h.same ht h'

end

namespace Example

/-- Keys with all the combinations of two values of `k` and two values of `l`. -/
def grid : TensorMap NumpyArray :=
  (⟨Labels.mk' ["k", "l"] [[0, 1], [0, 2], [3, 1], [3, 2]], [gradBlock, gradBlock, gradBlock, gradBlock]⟩ :
    TensorMap NdArray).mapData toNumpy

theorem grid_valid : TensorValid grid :=
  (TensorValid.map_iff implements_numpy).1 (TensorMap.valid_of_rebuilds (by decide +kernel))

end Example

/-- Non-vacuity of `C82`: with all the combinations of `k` and `l`, both orders succeed. -/
example : TensorValid Example.grid ∧ SamplesFit Example.grid (Example.moveK.names ++ Example.moveL.names) ∧
    (propertiesThenSamples ⟨true⟩ .insertion .insertion Example.moveK Example.moveL false Example.grid).2 = .ok () ∧
    (propertiesThenSamples ⟨true⟩ .insertion .insertion Example.moveK Example.moveL false Example.grid).1.blocks.map
      (fun b => (entriesOf b.values.samples, entriesOf b.values.properties)) =
      [([[0, 0], [0, 3], [2, 0], [2, 3]], [[1, 0], [1, 1], [1, 5], [2, 0], [2, 1], [2, 5]])] :=
  ⟨Example.grid_valid, Example.numpy_fits Example.grid_valid _ (by decide +kernel), by decide +kernel,
    by decide +kernel⟩

end Equistore
