import Verif.Lemmas.BackendLabels
import Verif.Lemmas.ComponentsOutcome

/-! Operations on another type of arrays: calls to the callbacks. -/

namespace Equistore
open Spec NdArray

variable {A : Type} [ArrayLike A] {view : A → NdArray}

namespace Spec.Implements

theorem create_eq (h : Implements view) (a : A) (shape : List Nat) :
    ∃ a', ArrayLike.create a shape = .ok a' ∧ view a' = NdArray.create (view a) shape := by
  obtain ⟨a', h1, h2, h3⟩ := h.create a shape
  refine ⟨a', h1, ext_get (h.elements a') (build_wf _ _) h2 ?_⟩
  intro idx hi
  rw [h2] at hi
  rw [h3 idx hi, create_get _ hi]

theorem create_map (h : Implements view) (a : A) (shape : List Nat) :
    ArrayLike.create (view a) shape = (ArrayLike.create a shape).map view := by
  obtain ⟨a', h1, h2⟩ := h.create_eq a shape
  rw [h1, Res.map_ok, h2]
  rfl

theorem shape_map (h : Implements view) (a : A) : ArrayLike.shape (view a) = ArrayLike.shape a := by
  rw [h.shape a]; rfl

theorem origin_iff (h : Implements view) (a a' : A) :
    ∃ o, ArrayLike.origin a = .ok o ∧ ArrayLike.origin a' = .ok o := by
  obtain ⟨o, ho⟩ := h.origin
  exact ⟨o, ho a, ho a'⟩

theorem reshape_map (h : Implements view) (a : A) (shape : List Nat)
    (hs : ReshapeAllowed (view a).shape shape) :
    ArrayLike.reshape (view a) shape = (view (ArrayLike.reshape a shape).1, (ArrayLike.reshape a shape).2) := by
  obtain ⟨a', h1, h2, h3⟩ := h.reshape a shape hs
  rw [h1]
  change NdArray.reshape (view a) shape = _
  unfold NdArray.reshape
  rw [if_pos hs.symm]
  congr 1
  rw [← h2, ← h3]

theorem swapAxes_map (h : Implements view) (a : A) (i j : Nat) (hs : SwapAllowed (view a).shape i j) :
    ArrayLike.swapAxes (view a) i j = (view (ArrayLike.swapAxes a i j).1, (ArrayLike.swapAxes a i j).2) := by
  obtain ⟨a', h1, h2, h3⟩ := h.swapAxes a i j hs
  rw [h1]
  change NdArray.swapAxes (view a) i j = _
  rw [NdArray.swapAxes_ok hs.1 hs.2]
  congr 1
  refine ext_get (build_wf _ _) (h.elements a') h2.symm ?_
  intro idx hi
  rw [build_shape] at hi
  rw [get_build hi, h3 idx hi]

theorem moveSamples_map (h : Implements view) {nOut : Nat} {mid : List Nat} {p : Nat} {output input : A}
    {mapping : List SampleMapping} {start stop : Nat}
    (hm : MoveOk nOut mid p (view input) mapping start stop)
    (ho : (view output).shape = nOut :: mid ++ [p]) :
    ∃ output', moveSamples output input mapping start stop = .ok output' ∧
      moveSamples (view output) (view input) mapping start stop = .ok (view output') ∧
      (view output').shape = nOut :: mid ++ [p] := by
  obtain ⟨nIn, hs, hb⟩ := hm.shape
  obtain ⟨out, e1, e2, e3⟩ := h.move output input mapping start stop
    ⟨⟨nOut, nIn, mid, p, ho, hs, hm.le, hm.bound, hb⟩, hm.nodup⟩
  obtain ⟨out', f1, f2, f3, f4, f5⟩ := moveSamples_spec hm (h.elements output) ho
  refine ⟨out, ?_, ?_, e2.trans ho⟩
  · unfold moveSamples
    rw [e1]
  · rw [f1, Res.ok.injEq]
    refine ext_get f2 (h.elements out) (f3.trans e2.symm) ?_
    intro idx hi
    rw [f3, ho] at hi
    obtain ⟨i, k, j, rfl, hi1, hk, hj⟩ := validIdx_split hi
    obtain ⟨g1, g2⟩ := e3 i k j (by rw [ho]; exact hi)
    by_cases hc : start ≤ j ∧ j < stop ∧ ∃ m ∈ mapping, m.output = i
    · obtain ⟨hc1, hc2, m, hm1, rfl⟩ := hc
      rw [f5 m hm1 k j hk hc1 hc2, g1 m hm1 rfl hc1 hc2]
    · rw [f4 i k j hi1 hk hj, g2]
      · intro m hm1 hm2 hm3
        exact hc ⟨hm3.1, hm3.2, m, hm1, hm2⟩
      · intro h1 h2 m hm1 hm2
        exact hc ⟨h1, h2, m, hm1, hm2⟩

theorem moveAllProperties_map (h : Implements view) {nOut : Nat} {mid : List Nat} {p : Nat}
    {items : List ((A × List SampleMapping) × Option (Nat × Nat))}
    (hok : ∀ it ∈ items, ∀ s e, it.2 = some (s, e) → MoveOk nOut mid p (view it.1.1) it.1.2 s e)
    {output : A} (ho : (view output).shape = nOut :: mid ++ [p]) :
    moveAllProperties (view output) (items.map fun it => ((view it.1.1, it.1.2), it.2)) =
      (moveAllProperties output items).map view := by
  induction items generalizing output with
  | nil => rfl
  | cons it items ih =>
    obtain ⟨⟨input, mapping⟩, range⟩ := it
    have ih := @ih fun it h => hok it (List.mem_cons_of_mem _ h)
    cases range with
    | none =>
      rw [List.map_cons, moveAllProperties, moveAllProperties]
      exact ih ho
    | some se =>
      obtain ⟨s, e⟩ := se
      obtain ⟨output', e1, e2, e3⟩ := h.moveSamples_map (hok _ List.mem_cons_self s e rfl) ho
      rw [List.map_cons, moveAllProperties, moveAllProperties]
      simp only [e1, e2, Res.ok_bind]
      exact ih e3

/-- Moving samples between arrays, and between the arrays they stand for, ends in the same way. -/
def MoveMaps (view : A → NdArray) (output input : A) (mapping : List SampleMapping) (start stop : Nat) (shape : List Nat) :
    Prop :=
  moveSamples (view output) (view input) mapping start stop = (moveSamples output input mapping start stop).map view ∧
  ∀ out, moveSamples output input mapping start stop = .ok out → (view out).shape = shape

theorem moveMaps (h : Implements view) {nOut : Nat} {mid : List Nat} {p : Nat} {output input : A}
    {mapping : List SampleMapping} {start stop : Nat}
    (hm : MoveOk nOut mid p (view input) mapping start stop)
    (ho : (view output).shape = nOut :: mid ++ [p]) :
    MoveMaps view output input mapping start stop (nOut :: mid ++ [p]) := by
  obtain ⟨output', e1, e2, e3⟩ := h.moveSamples_map hm ho
  refine ⟨by rw [e1, e2]; rfl, fun out ho => ?_⟩
  rw [e1, Res.ok.injEq] at ho
  rw [← ho, e3]

theorem moveAllGradientProperties_map {build : Build} {q : String} {newSamples : Labels}
    {newComponents : List Labels} {nOut : Nat} {mid : List Nat} {p : Nat}
    {items : List (((List LabelValue × TensorBlock A) × List SampleMapping) × Option (Nat × Nat))}
    (hok : ∀ it ∈ items, ∀ s e, it.2 = some (s, e) → ∀ g, it.1.1.2.gradient q = some g →
      (build.debug = true → g.components = newComponents) → ∀ gm,
      gradientMapping build it.1.2 newSamples g = .ok gm → ∀ output, (view output).shape = nOut :: mid ++ [p] →
        MoveMaps view output g.data gm s e (nOut :: mid ++ [p]))
    {output : A} (ho : (view output).shape = nOut :: mid ++ [p]) :
    moveAllGradientProperties build q newSamples newComponents (view output)
        (items.map fun it => ((mapPair view it.1.1, it.1.2), it.2)) =
      (moveAllGradientProperties build q newSamples newComponents output items).map view := by
  induction items generalizing output with
  | nil => rfl
  | cons it items ih =>
    obtain ⟨⟨⟨key, b⟩, mapping⟩, range⟩ := it
    have ih := @ih fun it h => hok it (List.mem_cons_of_mem _ h)
    cases range with
    | none =>
      rw [List.map_cons, mapPair, moveAllGradientProperties, moveAllGradientProperties]
      exact ih ho
    | some se =>
      obtain ⟨s, e⟩ := se
      have hok := hok _ List.mem_cons_self s e rfl
      simp only at hok
      rw [List.map_cons, mapPair, moveAllGradientProperties, moveAllGradientProperties]
      simp only [TensorBlock.mapData_gradient]
      refine Res.bind_comm (BasicBlock.mapData view) (Res.expect_map _ _ _) fun g hg => ?_
      rw [Res.expect_eq_ok] at hg
      refine Res.bind_same rfl fun _ hd => ?_
      rw [Build.debugAssert_eq_ok, beq_iff_eq] at hd
      refine Res.bind_same (gradientMapping_map _ _ _ _ _) fun gm hgm => ?_
      obtain ⟨e1, e2⟩ := hok g hg hd gm hgm output ho
      exact Res.bind_comm view e1 fun out h1 => ih (e2 out h1)

end Spec.Implements

/-! ### New blocks and gradients -/

theorem checkDataAndLabels_map (h : Implements view) (context : String) (data : A) (samples : Labels)
    (components : List Labels) (properties : Labels) :
    checkDataAndLabels context (view data) samples components properties =
      checkDataAndLabels context data samples components properties := by
  unfold checkDataAndLabels
  rw [h.shape_map]

theorem TensorBlock.new_map (h : Implements view) (data : A) (samples : Labels) (components : List Labels)
    (properties : Labels) :
    TensorBlock.new (view data) samples components properties =
      (TensorBlock.new data samples components properties).map (TensorBlock.mapData view) := by
  unfold TensorBlock.new
  refine Res.bind_comm (BasicBlock.mapData view) ?_ fun b _ => rfl
  unfold BasicBlock.new
  refine Res.bind_same ?_ fun _ _ => ?_
  · first | exact checkDataAndLabels_map h _ _ _ _ _ | rfl
  · refine Res.bind_same ?_ fun _ _ => rfl
    first | exact checkDataAndLabels_map h _ _ _ _ _ | rfl

theorem checkGradient_map (h : Implements view) (b : TensorBlock A) (parameter : String) (data : A)
    (samples : Labels) (components : List Labels) :
    TensorBlock.checkGradient (b.mapData view) parameter (view data) samples components =
      TensorBlock.checkGradient b parameter data samples components := by
  obtain ⟨o, h1, h2⟩ := h.origin_iff data b.values.data
  unfold TensorBlock.checkGradient
  have e1 : ((b.mapData view).gradients.lookup parameter).isNone = (b.gradients.lookup parameter).isNone := by
    rw [TensorBlock.mapData_gradients, lookup_map, Option.isNone_map]
  rw [e1]
  simp only [TensorBlock.mapData_values, BasicBlock.mapData_data, BasicBlock.mapData_components,
    BasicBlock.mapData_properties, h1, h2, checkDataAndLabels_map h, Res.ok_bind, beq_self_eq_true]
  rfl

theorem TensorBlock.addGradient_map (h : Implements view) (parameter : String) (data : A)
    (samples : Labels) (components : List Labels) (b : TensorBlock A) :
    TensorBlock.addGradient parameter (view data) samples components (b.mapData view) =
      ((TensorBlock.addGradient parameter data samples components b).1.mapData view,
        (TensorBlock.addGradient parameter data samples components b).2) := by
  rw [addGradient_eq, addGradient_eq, checkGradient_map h]
  cases TensorBlock.checkGradient b parameter data samples components with
  | err e => rfl
  | panic m => rfl
  | ok u =>
    simp only
    split
    · simp [TensorBlock.mapData, BasicBlock.withData, TensorBlock.gradientBlock]
    · simp [TensorBlock.mapData, BasicBlock.withData, TensorBlock.gradientBlock]

theorem addGradientExpect_map (h : Implements view) (b : TensorBlock A) (parameter : String) (data : A)
    (samples : Labels) (components : List Labels) :
    addGradientExpect (b.mapData view) parameter (view data) samples components =
      (addGradientExpect b parameter data samples components).map (TensorBlock.mapData view) := by
  unfold addGradientExpect
  rw [TensorBlock.addGradient_map h]
  rcases TensorBlock.addGradient parameter data samples components b with ⟨b', r | r | r⟩ <;> rfl

end Equistore
