import Verif.Lemmas.Pieces
import Verif.Lemmas.Concrete

/-! The loops merging gradients. -/

namespace Equistore
open Spec

section
variable {A : Type} [ArrayLike A]

/-- How one gradient of the merged block is obtained. -/
structure GradientMerged (build : Build) (firstBlock : TensorBlock A)
    (blocks : List (List LabelValue × TensorBlock A)) (mappings : List (List SampleMapping))
    (ranges : List (Option (Nat × Nat))) (propertiesCount : Nat) (parameter : String)
    (firstGradient : BasicBlock A) (properties : Labels) (g' : BasicBlock A) : Prop where
  samples : mergeGradientSamples build blocks parameter mappings = .ok g'.samples
  components : g'.components = firstGradient.components
  properties_eq : g'.properties = properties
  data : ∃ shape count zeros, ArrayLike.shape firstGradient.data = .ok shape ∧
    g'.samples.count = .ok count ∧
    ArrayLike.create firstBlock.values.data
      ((shape.set 0 count).set (shape.length - 1) propertiesCount) = .ok zeros ∧
    moveAllGradientProperties build parameter g'.samples firstGradient.components zeros
      ((blocks.zip mappings).zip ranges) = .ok g'.data
  no_nul : '\x00' ∉ parameter.toList

theorem mergeGradientsAlongProperties_ok {build : Build} {firstBlock : TensorBlock A}
    {blocks : List (List LabelValue × TensorBlock A)} {mappings : List (List SampleMapping)}
    {ranges : List (Option (Nat × Nat))} {propertiesCount : Nat} {newBlock b' : TensorBlock A}
    {gs : List (String × BasicBlock A)}
    (h : mergeGradientsAlongProperties build firstBlock blocks mappings ranges propertiesCount
      newBlock gs = .ok b') :
    b'.values = newBlock.values ∧
    ∃ gs', b'.gradients = newBlock.gradients ++ gs' ∧
      b'.gradientParameters = newBlock.gradientParameters ++ gs.map Prod.fst ∧
      List.Forall₂ (fun pg pg' => pg'.1 = pg.1 ∧ GradientMerged build firstBlock blocks mappings
        ranges propertiesCount pg.1 pg.2 newBlock.values.properties pg'.2) gs gs' := by
  induction gs generalizing newBlock with
  | nil =>
    simp only [mergeGradientsAlongProperties, Res.ok.injEq] at h
    subst h
    exact ⟨rfl, [], by simp, by simp, .nil⟩
  | cons pg gs ih =>
    obtain ⟨p, g⟩ := pg
    simp only [mergeGradientsAlongProperties, Res.bind_eq_ok] at h
    obtain ⟨newSamples, h1, shape, h2, _, h3, count, h4, zeros, h5, data, h6, nb, h7, h8⟩ := h
    obtain ⟨h9, h10, rfl⟩ := addGradientExpect_eq_ok.1 h7
    obtain ⟨e1, gs', e2, e3, e4⟩ := ih h8
    refine ⟨e1, (p, newBlock.gradientBlock data newSamples g.components) :: gs', ?_, ?_, .cons ?_ e4⟩
    · rw [e2]; simp
    · rw [e3]; simp
    · exact ⟨rfl, ⟨h1, rfl, rfl, ⟨shape, count, zeros, h2, h4, h5, h6⟩, h10⟩⟩

/-- Whole rows are the special case where each block has the full range of properties. -/
theorem moveAllGradients_eq {build : Build} {parameter : String} {newSamples : Labels}
    {newComponents : List Labels} {stop : Nat} {output : A}
    {items : List ((List LabelValue × TensorBlock A) × List SampleMapping)} :
    moveAllGradients build parameter newSamples newComponents stop output items =
      moveAllGradientProperties build parameter newSamples newComponents output
        (items.map fun it => (it, some (0, stop))) := by
  induction items generalizing output with
  | nil => rfl
  | cons it items ih =>
    obtain ⟨⟨key, b⟩, m⟩ := it
    simp only [moveAllGradients, List.map_cons, moveAllGradientProperties, ih]

theorem zip_replicate {α β : Type} {l : List α} {n : Nat} {b : β} (h : l.length = n) :
    l.zip (List.replicate n b) = l.map fun a => (a, b) := by
  subst h
  induction l with
  | nil => rfl
  | cons a l ih => simp [List.replicate_succ, ih]

theorem mergeGradientsAlongSamples_eq {build : Build} {firstBlock : TensorBlock A}
    {blocks : List (List LabelValue × TensorBlock A)} {mappings : List (List SampleMapping)}
    {stop : Nat} {newBlock : TensorBlock A} {gs : List (String × BasicBlock A)}
    (hl : blocks.length = mappings.length)
    (hgs : ∀ pg ∈ gs, ∃ shape n, ArrayLike.shape pg.2.data = .ok shape ∧ 2 ≤ shape.length ∧
      shape[shape.length - 1]? = some n ∧ n = stop) :
    mergeGradientsAlongSamples build firstBlock blocks mappings stop newBlock gs =
      mergeGradientsAlongProperties build firstBlock blocks mappings
        (List.replicate blocks.length (some (0, stop))) stop newBlock gs := by
  induction gs generalizing newBlock with
  | nil => rfl
  | cons pg gs ih =>
    obtain ⟨p, g⟩ := pg
    obtain ⟨shape, n, h1, h2, h3, rfl⟩ := hgs _ List.mem_cons_self
    simp only [mergeGradientsAlongSamples, mergeGradientsAlongProperties, h1, Res.ok_bind,
      moveAllGradients_eq, ih fun pg h => hgs pg (List.mem_cons_of_mem _ h)]
    have hz : (blocks.zip mappings).zip (List.replicate blocks.length (some (0, n))) =
        (blocks.zip mappings).map fun it => (it, some (0, n)) :=
      zip_replicate (by rw [List.length_zip]; omega)
    rw [hz]
    have hset : ∀ c, (shape.set 0 c).set (shape.length - 1) n = shape.set 0 c := by
      intro c
      apply List.ext_getElem (by simp)
      intro i hi1 hi2
      rw [List.getElem_set]
      split
      · rename_i hi
        subst hi
        rw [List.getElem_set_ne (by omega)]
        rw [List.getElem?_eq_getElem (by omega), Option.some.injEq] at h3
        exact h3.symm
      · rfl
    simp only [hset]

/-- Array of the gradient of a block. -/
def gradData (p : String) (b : TensorBlock A) : A :=
  match b.gradient p with
  | some g => g.data
  | none => b.values.data

/-- Mapping for the gradient of a block. -/
def gradMap (build : Build) (p : String) (newSamples : Labels) (b : TensorBlock A)
    (mapping : List SampleMapping) : List SampleMapping :=
  match b.gradient p with
  | some g =>
    match gradientMapping build mapping newSamples g with
    | .ok gm => gm
    | _ => []
  | none => []

theorem moveAllGradientProperties_ok {build : Build} {p : String} {newSamples : Labels}
    {newComponents : List Labels} {output out : A}
    {items : List (((List LabelValue × TensorBlock A) × List SampleMapping) × Option (Nat × Nat))}
    (h : moveAllGradientProperties build p newSamples newComponents output items = .ok out) :
    moveAllProperties output (items.map fun it =>
      ((gradData p it.1.1.2, gradMap build p newSamples it.1.1.2 it.1.2), it.2)) = .ok out ∧
    ∀ it ∈ items, it.2 ≠ none → ∃ g, it.1.1.2.gradient p = some g ∧
      (build.debug = true → g.components = newComponents) := by
  induction items generalizing output with
  | nil => exact ⟨h, by simp⟩
  | cons it items ih =>
    obtain ⟨⟨⟨key, b⟩, m⟩, range⟩ := it
    cases range with
    | none =>
      simp only [moveAllGradientProperties] at h
      obtain ⟨h1, h2⟩ := ih h
      refine ⟨by simpa [moveAllProperties] using h1, ?_⟩
      intro it hit hne
      rcases List.mem_cons.1 hit with rfl | hit
      · simp at hne
      · exact h2 it hit hne
    | some r =>
      obtain ⟨s, e⟩ := r
      simp only [moveAllGradientProperties, Res.bind_eq_ok, Res.expect_eq_ok,
        Build.debugAssert_eq_ok, beq_iff_eq] at h
      obtain ⟨g, h1, _, h2, gm, h3, out1, h4, h5⟩ := h
      obtain ⟨h6, h7⟩ := ih h5
      refine ⟨?_, ?_⟩
      · simp only [List.map_cons, moveAllProperties]
        simp only [gradData, gradMap, h1, h3] at h6 ⊢
        rw [h4, Res.ok_bind]
        exact h6
      · intro it hit hne
        rcases List.mem_cons.1 hit with rfl | hit
        · exact ⟨g, h1, h2⟩
        · exact h7 it hit hne

end

end Equistore
