import Verif.Lemmas.NumpyLayout
import Verif.Props.Layout

/-!
# Numpy arrays with any memory layout (C72)
-/

namespace Equistore
open Spec NumpyView

/-! ### C72 -/

/-- **C72**, in full: operations do the same for all layouts of the arrays in memory, and keep the data readable. The
second part is false, see `C72_counterexample`. -/
def C72_full_statement : Prop :=
  ∀ (build : Build) (hash : HashOrder), OrderByName hash → ∀ (op : Op), op.LabelsExist → ∀ (t : TensorMap NumpyView),
    TensorValid t →
    (∀ u, NumpyEqual t u → (op.run build hash t).2 = (op.run build hash u).2 ∧
      NumpyEqual (op.run build hash t).1 (op.run build hash u).1) ∧
    (AllNumpyReadable t → ∀ t', op.run build hash t = (t', .ok ()) → AllNumpyReadable t')

/-- **C72**, one operation: whatever the layout of arrays in memory, operations succeed or fail in the same
way, and give equal arrays. -/
theorem C72_operations (build : Build) (hash : HashOrder) (hh : OrderByName hash) (op : Op)
    (t u : TensorMap NumpyView) (h : NumpyEqual t u) :
    (op.run build hash t).2 = (op.run build hash u).2 ∧
    NumpyEqual (op.run build hash t).1 (op.run build hash u).1 := by
  have h1 := sameCallbacks.run (build := build) hh op t
  have h2 := sameCallbacks.run (build := build) hh op u
  rw [equal_iff] at h ⊢
  rw [h, h2, Prod.mk.injEq] at h1
  exact ⟨h1.2.symm, h1.1.symm⟩

/-- **C72**, any sequence of operations. -/
theorem C72_sequence (build : Build) (hash : Nat → HashOrder) (hh : ∀ n, OrderByName (hash n)) (ops : List Op)
    (t u : TensorMap NumpyView) (h : NumpyEqual t u) :
    (runAll build hash ops t).2 = (runAll build hash ops u).2 ∧
    NumpyEqual (runAll build hash ops t).1 (runAll build hash ops u).1 := by
  have h1 := sameCallbacks.runAll (build := build) hh ops t
  have h2 := sameCallbacks.runAll (build := build) hh ops u
  rw [equal_iff] at h ⊢
  rw [h, h2, Prod.mk.injEq] at h1
  exact ⟨h1.2.symm, h1.1.symm⟩

/-- **C72**, blocks: whether an array is accepted in a block or as gradient does not depend on its layout. -/
theorem C72_blocks (a b : NumpyView) (h : SameElements a b) (samples : Labels) (components : List Labels)
    (properties : Labels) (block block' : TensorBlock NumpyView) (hb : NumpyEqualBlock block block')
    (parameter : String) :
    (∀ new, TensorBlock.new a samples components properties = .ok new →
      ∃ new', TensorBlock.new b samples components properties = .ok new' ∧ NumpyEqualBlock new new') ∧
    (∀ e, TensorBlock.new a samples components properties = .err e →
      TensorBlock.new b samples components properties = .err e) ∧
    (TensorBlock.addGradient parameter a samples components block).2 =
      (TensorBlock.addGradient parameter b samples components block').2 ∧
    NumpyEqualBlock (TensorBlock.addGradient parameter a samples components block).1
      (TensorBlock.addGradient parameter b samples components block').1 := by
  have h1 := sameCallbacks.newBlock a samples components properties
  have h2 := sameCallbacks.newBlock b samples components properties
  have h3 := sameCallbacks.addGradient parameter a samples components block
  have h4 := sameCallbacks.addGradient parameter b samples components block'
  rw [sameElements_iff] at h
  rw [equalBlock_iff] at hb
  rw [h, h2] at h1
  rw [h, hb, h4, Prod.mk.injEq] at h3
  refine ⟨fun new e => ?_, fun e he => ?_, h3.2.symm, equalBlock_iff.2 h3.1.symm⟩
  · rw [e] at h1
    cases h5 : TensorBlock.new b samples components properties with
    | ok new' =>
      rw [h5] at h1
      exact ⟨new', rfl, equalBlock_iff.2 (Res.ok.inj h1).symm⟩
    | err e => rw [h5] at h1; cases h1
    | panic m => rw [h5] at h1; cases h1
  · rw [he] at h1
    cases h5 : TensorBlock.new b samples components properties with
    | ok new' => rw [h5] at h1; cases h1
    | err e => rw [h5] at h1; cases h1; rfl
    | panic m => rw [h5] at h1; cases h1

/-- **C72**, reading: `data` gives the elements in row-major order, or fails; it never gives anything else. It does
not fail for arrays which are in row-major order in memory. -/
theorem C72_read (a : NumpyView) :
    (NumpyReadable a ∨ ArrayLike.data a = .err (NumpyArray.raised "data")) ∧
    ((∀ idx, InShape a.shape idx → location a.axes idx = offset a.shape idx) → NumpyReadable a) := by
  rw [readable_iff]
  unfold Contiguous
  refine ⟨?_, fun h => isContiguous_iff.2 h⟩
  by_cases h : isContiguous a.axes = true
  · exact .inl h
  · refine .inr ?_
    change a.data = _
    unfold data
    rw [if_neg h]

/-- **C72**, files: a file written from any arrays contains their elements in row-major order, the ones which would be
written from arrays in row-major order; if some array can not be read, saving fails. -/
theorem C72_save (build : Build) (py : PyLiteral) (native : Endian) (hash : HashOrder) (hh : OrderByName hash)
    (t u : TensorMap NumpyView) (h : NumpyEqual t u) :
    (AllNumpyReadable t → AllNumpyReadable u → save build py native hash t = save build py native hash u) ∧
    (∀ archive, save build py native hash t = .ok archive → AllNumpyReadable t ∧
      (AllNumpyReadable u → save build py native hash u = .ok archive)) := by
  have key : ∀ t : TensorMap NumpyView, AllNumpyReadable t →
      save build py native hash (t.mapData toNumpy) = save build py native hash t := by
    intro t ht
    refine save_same (f := toNumpy) (fun _ => rfl) hh ?_
    rw [NumpyView.allReadable_iff] at ht
    intro b hb
    exact ⟨(data_contiguous (ht b hb).1).symm, fun p hp => (data_contiguous ((ht b hb).2 p hp)).symm⟩
  rw [equal_iff] at h
  have same : AllNumpyReadable t → AllNumpyReadable u →
      save build py native hash t = save build py native hash u := fun ht hu => by
    rw [← key t ht, h, key u hu]
  refine ⟨same, fun archive he => ?_⟩
  have ht : AllNumpyReadable t := by
    have hc := save_canRead he
    have hr : ∀ a : NumpyView, CanRead a → NumpyReadable a := fun a ⟨d, hd⟩ =>
      (C72_read a).1.resolve_right (by rw [hd]; simp)
    exact fun b hb => ⟨hr _ (hc b hb).1, fun p hp => hr _ ((hc b hb).2 p hp)⟩
  exact ⟨ht, fun hu => by rw [← same ht hu]; exact he⟩

/-- **C72**, merging: all data can be read after `keys_to_samples` and `keys_to_properties`, even if it could not
before. -/
theorem C72_merge (build : Build) (hash : HashOrder) (keys : Labels) (sort : Bool) (t t' : TensorMap NumpyView)
    (h : t.keysToSamples build hash keys sort = (t', .ok ()) ∨
      t.keysToProperties build hash keys sort = (t', .ok ())) : AllNumpyReadable t' := by
  have : t'.AllData IsFresh := by
    rcases h with h | h
    · exact fresh_contiguous.keysToSamples h
    · exact fresh_contiguous.keysToProperties h
  rw [NumpyView.allReadable_iff]
  exact fun b hb => ⟨isFresh_contiguous (this b hb).1, fun p hp => isFresh_contiguous ((this b hb).2 p hp)⟩

/-- **C72**, data can be read after an operation if it could be read before. What is missing: `components_to_properties`
for a component which is not the last one, when this component has a single entry or there is a single property. -/
theorem C72_readable_partial (build : Build) (hash : HashOrder) (op : Op) (t t' : TensorMap NumpyView)
    (ht : TensorValid t) (hr : AllNumpyReadable t) (hk : Op.KeepsOrder t op)
    (h : op.run build hash t = (t', .ok ())) : AllNumpyReadable t' := by
  cases op with
  | keysToSamples k sort => exact C72_merge build hash k sort t t' (.inl h)
  | keysToProperties k sort => exact C72_merge build hash k sort t t' (.inr h)
  | componentsToProperties names =>
    by_cases hn : names = []
    · subst hn
      cases h
      exact hr
    · rw [NumpyView.allReadable_iff] at hr ⊢
      refine tensor_componentsToProperties (P := fun b => BasicValid b ∧ KeepsOrder names b ∧ b.data.Contiguous)
        hash hn (fun b b' hb he => basic_contiguous hb.1 hb.2.1 hb.2.2 he) ?_ h
      intro b hb
      have hv := ht.blocks b hb
      refine ⟨⟨hv.values, (hk b hb).1, (hr b hb).1⟩, fun p hp => ?_⟩
      exact ⟨(hv.gradients p.1 p.2 hp).basic, (hk b hb).2 p hp, (hr b hb).2 p hp⟩

/-- **C72**, any sequence of operations, with the same restriction on `components_to_properties`. -/
theorem C72_readable_sequence_partial (build : Build) (hash : Nat → HashOrder) (ops : List Op)
    (hops : ∀ op ∈ ops, op.LabelsExist) (t t' : TensorMap NumpyView) (ht : TensorValid t) (hr : AllNumpyReadable t)
    (hk : AllKeepOrder build hash ops t) (h : runAll build hash ops t = (t', .ok ())) : AllNumpyReadable t' := by
  induction ops generalizing hash t with
  | nil => cases h; exact hr
  | cons op ops ih =>
    simp only [runAll] at h
    cases hrun : op.run build (hash 0) t with
    | mk t₁ r =>
      rw [hrun] at h
      cases r with
      | ok u =>
        exact ih (fun n => hash (n + 1)) (fun op h => hops op (List.mem_cons_of_mem _ h)) t₁
          (Op.run_valid NumpyView.lawful (hops op List.mem_cons_self) ht hrun)
          (C72_readable_partial build (hash 0) op t t₁ ht hr hk.1 hrun) (hk.2 t₁ hrun) h
      | err e => cases h
      | panic m => cases h

/-- **C72**, why the restriction: in an array with two components and a single property, moving the first component
gives an array which can not be read, for all sizes of at least two components and one sample. -/
theorem C72_single_property (n a b : Nat) (hn : 0 < n) (ha : 2 ≤ a) (hb : 2 ≤ b) (elements : List Elt)
    (swapped moved : NumpyView)
    (h1 : ArrayLike.swapAxes (NumpyView.fresh [n, a, b, 1] elements) 1 2 = (swapped, .ok ()))
    (h2 : ArrayLike.reshape swapped [n, b, a] = (moved, .ok ())) :
    ArrayLike.data moved = .err (NumpyArray.raised "data") := by
  have h0 : 0 ∉ [n, a, b] := by simp; omega
  have hb0 : b ≠ 0 := by omega
  have ha0 : a ≠ 0 := by omega
  have e1 : swapped = ⟨[(n, (a * b : Nat)), (b, 1), (a, b), (1, 1)], 0, elements⟩ := by
    have := congrArg Prod.fst h1
    change (NumpyView.swapAxes _ 1 2).1 = swapped at this
    rw [← this]
    simp [NumpyView.swapAxes, fresh, rowMajor, swapList, shapeSize, hb0, ha0]
  have i1 : a ≠ 1 := by omega
  have i2 : b ≠ 1 := by omega
  have i3 : (1 : Int) ≠ a := by omega
  have hnc : isContiguous [(n, ((a * b : Nat) : Int)), (b, 1), (a, (b : Int)), (1, 1)] = false := by
    have h01 : ¬ (0 = n ∨ 0 = b ∨ 0 = a) := by omega
    have i4 : ¬ ((b : Int) = 1) := by omega
    simp [isContiguous, contiguousSize, i1, i2, i4]
    omega
  have hat : attemptNoCopy [n, b, a] [(n, ((a * b : Nat) : Int)), (b, 1), (a, (b : Int)), (1, 1)] =
      .view [(n, if n = 1 then (b : Int) else (a * b : Nat)), (b, 1), (a, b)] := by
    have i5 : 1 < b := by omega
    by_cases hn1 : n = 1
    · subst hn1
      simp [attemptNoCopy, attempt, takeGroup, canMerge, groupAxes, lastStride, i1, i2, Ne.symm i2, i5]
    · simp [attemptNoCopy, attempt, takeGroup, canMerge, groupAxes, lastStride, i1, i2, hn1]
  have e2 : moved = ⟨[(n, if n = 1 then (b : Int) else (a * b : Nat)), (b, 1), (a, b)], 0, elements⟩ := by
    have := congrArg Prod.fst h2
    change (NumpyView.reshape _ _).1 = moved at this
    rw [← this, e1]
    unfold NumpyView.reshape
    rw [if_neg (by simp [NumpyView.shape]), if_neg (by simp [NumpyView.shape, shapeSize])]
    simp only [hnc, hat]
    rfl
  rw [e2]
  change NumpyView.data _ = _
  unfold NumpyView.data
  rw [if_neg]
  simp [isContiguous, contiguousSize, i1, i2]
  omega

namespace Example

/-- A contiguous numpy array. -/
def plain (a : NdArray) : NumpyView := NumpyView.fresh a.shape a.elements

/-- The same array, stored with the last element first: all strides are negative. -/
def reversed (a : NdArray) : NumpyView :=
  { axes := (rowMajor a.shape).map fun x => (x.1, -x.2), start := (shapeSize a.shape : Int) - 1,
    memory := a.elements.reverse }

/-- The same array, in every second place of the memory. -/
def spread (a : NdArray) : NumpyView :=
  { axes := (rowMajor a.shape).map fun x => (x.1, 2 * x.2), start := 1, memory := a.elements.flatMap fun x => [99, x] }

/-- Whether all arrays of a tensor map can be read. -/
def readableNumpy (t : TensorMap NumpyView) : Bool :=
  t.blocks.all fun b => isContiguous b.values.data.axes && b.gradients.all fun p => isContiguous p.2.data.axes

theorem readableNumpy_iff {t : TensorMap NumpyView} : AllNumpyReadable t ↔ readableNumpy t = true := by
  rw [NumpyView.allReadable_iff]
  unfold TensorMap.AllData TensorBlock.AllData Contiguous readableNumpy
  simp only [List.all_eq_true, Bool.and_eq_true]

def numpyPair : TensorMap NumpyView := pair.mapData plain
def numpyPairFlat : TensorMap NumpyView := (numpyPair.componentsToProperties .insertion ["a"]).1
theorem numpyPair_valid : TensorValid numpyPair := TensorMap.valid_of_rebuilds (by decide +kernel)
theorem numpyPairFlat_eq : numpyPair.componentsToProperties .insertion ["a"] = (numpyPairFlat, .ok ()) :=
  Prod.ext rfl (by decide +kernel)

end Example

/-- **C72** does not hold for `components_to_properties`: the data can not be read any more after moving the first of
two components to the properties when there is one property. -/
theorem C72_counterexample : ¬ C72_full_statement := by
  intro h
  have := (h ⟨true⟩ .insertion (fun _ _ => rfl) (.componentsToProperties ["a"]) trivial Example.numpyPair
    Example.numpyPair_valid).2 (Example.readableNumpy_iff.2 (by decide +kernel)) _ Example.numpyPairFlat_eq
  rw [Example.readableNumpy_iff] at this
  revert this
  decide +kernel

/-- The tensor map from `C72_counterexample` can be saved before the operation, not after it. -/
theorem C72_not_saved :
    Example.isOk (save ⟨true⟩ PyLiteral.fragment .little .insertion Example.numpyPair) = true ∧
    save ⟨true⟩ PyLiteral.fragment .little .insertion Example.numpyPairFlat = .err (NumpyArray.raised "data") := by
  decide +kernel

namespace Example

def numpyTensor : TensorMap NumpyView := tensor.mapData plain
def numpyReversed : TensorMap NumpyView := tensor.mapData reversed
def numpySpread : TensorMap NumpyView := tensor.mapData spread
def numpyWide : TensorMap NumpyView := wide.mapData plain
theorem numpyTensor_valid : TensorValid numpyTensor := TensorMap.valid_of_rebuilds (by decide +kernel)
theorem numpyWide_valid : TensorValid numpyWide := TensorMap.valid_of_rebuilds (by decide +kernel)

end Example

/-- The hypothesis of `C72_operations`, `C72_sequence` and `C72_save` is met by arrays with positive, negative and
larger strides, which are not the same arrays, and can not all be read. After moving components and merging
blocks, they can all be read and saved. -/
example : NumpyEqual Example.numpyTensor Example.numpyReversed ∧
    NumpyEqual Example.numpyTensor Example.numpySpread ∧
    Example.numpyTensor ≠ Example.numpyReversed ∧ Example.numpyTensor ≠ Example.numpySpread ∧
    AllNumpyReadable Example.numpyTensor ∧ ¬ AllNumpyReadable Example.numpyReversed ∧
    (runAll ⟨true⟩ (fun _ => .insertion) Example.layoutOps Example.numpyReversed).2 = .ok () ∧
    Example.isOk (save ⟨true⟩ PyLiteral.fragment .little .insertion
      (runAll ⟨true⟩ (fun _ => .insertion) Example.layoutOps Example.numpyReversed).1) = true ∧
    OrderByName .insertion := by
  rw [Example.readableNumpy_iff, Example.readableNumpy_iff, equal_iff, equal_iff]
  refine ⟨?_, ?_, ?_, ?_, ?_, ?_, ?_, ?_, fun _ _ => rfl⟩ <;> decide +kernel

/-- Blocks for `C72_blocks`: an array with negative strides is accepted. -/
example : SameElements (Example.plain Example.pairBlock.values.data) (Example.reversed Example.pairBlock.values.data) ∧
    Example.isOk (TensorBlock.new (Example.reversed Example.pairBlock.values.data) Example.pairBlock.values.samples
      Example.pairBlock.values.components Example.pairBlock.values.properties) = true := by
  rw [sameElements_iff]
  decide +kernel

/-- Merging gives data which can be read from data which can not be read, `C72_merge`. -/
example : (Example.numpyReversed.keysToProperties ⟨true⟩ .insertion (Labels.mk' ["l"] []) true).2 = .ok () ∧
    (Example.numpyReversed.keysToSamples ⟨true⟩ .insertion (Labels.mk' ["l"] []) true).2 = .ok () ∧
    ¬ AllNumpyReadable Example.numpyReversed := by
  rw [Example.readableNumpy_iff]
  decide +kernel

/-- The hypotheses of `C72_readable_partial` and `C72_readable_sequence_partial` are met by tensor maps with components
and gradients; in the last one, the component is not the last one. -/
example :
    (TensorValid Example.numpyTensor ∧ AllNumpyReadable Example.numpyTensor ∧
      AllKeepOrder ⟨true⟩ (fun _ => .insertion) Example.layoutOps Example.numpyTensor ∧
      (runAll ⟨true⟩ (fun _ => .insertion) Example.layoutOps Example.numpyTensor).2 = .ok ()) ∧
    (TensorValid Example.numpyWide ∧ AllNumpyReadable Example.numpyWide ∧
      Op.KeepsOrder Example.numpyWide (.componentsToProperties ["a"]) ∧
      ((Op.componentsToProperties ["a"]).run ⟨true⟩ .insertion Example.numpyWide).2 = .ok ()) := by
  refine ⟨⟨Example.numpyTensor_valid, Example.readableNumpy_iff.2 (by decide +kernel),
    ⟨?_, fun t' _ => ⟨trivial, fun t'' _ => trivial⟩⟩, by decide +kernel⟩,
    Example.numpyWide_valid, Example.readableNumpy_iff.2 (by decide +kernel), ?_, by decide +kernel⟩
  · have h : ∀ b ∈ Example.numpyTensor.blocks, Example.keepsOrder ["c"] b.values = true ∧
        ∀ p ∈ b.gradients, Example.keepsOrder ["c"] p.2 = true := by decide +kernel
    exact fun b hb => ⟨Example.keepsOrder_spec (h b hb).1, fun p hp => Example.keepsOrder_spec ((h b hb).2 p hp)⟩
  · have h : ∀ b ∈ Example.numpyWide.blocks, Example.keepsOrder ["a"] b.values = true ∧
        ∀ p ∈ b.gradients, Example.keepsOrder ["a"] p.2 = true := by decide +kernel
    exact fun b hb => ⟨Example.keepsOrder_spec (h b hb).1, fun p hp => Example.keepsOrder_spec ((h b hb).2 p hp)⟩

/-- The arrays of `C72_single_property` exist, with several samples. -/
example : ∃ swapped moved,
    ArrayLike.swapAxes (NumpyView.fresh [3, 2, 4, 1] ((List.range 24).map (BitVec.ofNat 64))) 1 2 = (swapped, .ok ()) ∧
    ArrayLike.reshape swapped [3, 4, 2] = (moved, .ok ()) :=
  ⟨(NumpyView.swapAxes (NumpyView.fresh [3, 2, 4, 1] ((List.range 24).map (BitVec.ofNat 64))) 1 2).1,
    (NumpyView.reshape (NumpyView.swapAxes (NumpyView.fresh [3, 2, 4, 1]
      ((List.range 24).map (BitVec.ofNat 64))) 1 2).1 [3, 4, 2]).1, by decide +kernel, by decide +kernel⟩

/-- A view with another shape of a slice with steps, and a transposed array which has to be copied. -/
example :
    ArrayLike.reshape (⟨[(2, 12), (3, 4), (2, 2)], 1, (List.range 24).map (BitVec.ofNat 64)⟩ : NumpyView) [6, 2] =
      (⟨[(6, 4), (2, 2)], 1, (List.range 24).map (BitVec.ofNat 64)⟩, .ok ()) ∧
    ArrayLike.reshape (⟨[(3, 1), (2, 3)], 0, (List.range 6).map (BitVec.ofNat 64)⟩ : NumpyView) [6] =
      (⟨[(6, 1)], 0, [0, 3, 1, 4, 2, 5]⟩, .ok ()) := by
  decide +kernel

end Equistore
