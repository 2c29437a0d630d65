import Verif.Lemmas.Layout
import Verif.Props.Components
import Verif.Props.Backend
import Verif.Props.Archive

/-!
# Layout of arrays in memory (C51)
-/

namespace Equistore
open Spec

/-! ### C51 -/

/-- All the arrays in a tensor map can be read. -/
def AllReadable (t : TensorMap StridedArray) : Prop := t.AllData fun a => InRowMajorOrder a.array

theorem allReadable_iff {t : TensorMap StridedArray} : AllReadable t ↔ t.AllData StridedArray.Standard := by
  have h : ∀ a : StridedArray, InRowMajorOrder a.array ↔ a.Standard := fun a => a.standard_iff.symm
  unfold AllReadable TensorMap.AllData TensorBlock.AllData
  simp only [h]

/-- **C51**, in full: after any operation on a tensor map where all data can be read, all data can be read. This is
false, see `C51_counterexample`. -/
def C51_full_statement : Prop :=
  ∀ (build : Build) (hash : HashOrder) (op : Op) (t t' : TensorMap StridedArray), op.LabelsExist → TensorValid t →
    AllReadable t → op.run build hash t = (t', .ok ()) → AllReadable t'

/-- **C51**, arrays: an array can be read exactly when its memory is in row-major order; then `data` and
`eqs_get_rust_array` give the elements in the order of their indexes. Otherwise `data` gives an error, and
`eqs_get_rust_array` panics. -/
theorem C51_read (a : StridedArray) :
    (InRowMajorOrder a.array → ArrayLike.data a = .ok a.view.elements ∧
      a.array.getRustArray = .ok (a.view.elements, a.view.shape)) ∧
    (¬ InRowMajorOrder a.array → ArrayLike.data a = .err (NdArray.failed "data") ∧
      ∃ m, a.array.getRustArray = .panic m) := by
  rw [← a.standard_iff]
  have hd := Strided.data_spec a.complete
  constructor
  · intro h
    have h' : Strided.isStandard a.array.shape a.array.strides = true := h
    rw [if_pos h'] at hd
    refine ⟨hd, ?_⟩
    unfold Strided.getRustArray
    rw [h', StridedArray.view, Strided.toNdArray_elements a.complete h']
    rfl
  · intro h
    have h' : ¬ Strided.isStandard a.array.shape a.array.strides = true := h
    rw [if_neg h'] at hd
    refine ⟨hd, ?_⟩
    unfold Strided.getRustArray
    rw [Bool.not_eq_true] at h'
    rw [h']
    exact ⟨_, rfl⟩

/-- **C51**, merging: all data can be read after `keys_to_samples` and `keys_to_properties`, even if it could not
before. -/
theorem C51_merge (build : Build) (hash : HashOrder) (keys : Labels) (sort : Bool) (t t' : TensorMap StridedArray)
    (h : t.keysToSamples build hash keys sort = (t', .ok ()) ∨
      t.keysToProperties build hash keys sort = (t', .ok ())) : AllReadable t' := by
  rw [allReadable_iff]
  rcases h with h | h
  · exact fresh_standard.keysToSamples h
  · exact fresh_standard.keysToProperties h

/-- **C51**, one operation. What is missing: `components_to_properties` for a component which is not the last one,
when this component has a single entry or there is a single property. -/
theorem C51_operation_partial (build : Build) (hash : HashOrder) (op : Op) (t t' : TensorMap StridedArray)
    (ht : TensorValid t) (hr : AllReadable t) (hk : Op.KeepsOrder t op)
    (h : op.run build hash t = (t', .ok ())) : AllReadable t' := by
  cases op with
  | keysToSamples k sort => exact C51_merge build hash k sort t t' (.inl h)
  | keysToProperties k sort => exact C51_merge build hash k sort t t' (.inr h)
  | componentsToProperties names =>
    by_cases hn : names = []
    · subst hn
      cases h
      exact hr
    · rw [allReadable_iff] at hr ⊢
      refine tensor_componentsToProperties (P := fun b => BasicValid b ∧ KeepsOrder names b ∧ b.data.Standard)
        hash hn (fun b b' hb he => basic_standard hb.1 hb.2.1 hb.2.2 he) ?_ h
      intro b hb
      have hv := ht.blocks b hb
      refine ⟨⟨hv.values, (hk b hb).1, (hr b hb).1⟩, fun p hp => ?_⟩
      exact ⟨(hv.gradients p.1 p.2 hp).basic, (hk b hb).2 p hp, (hr b hb).2 p hp⟩

/-- **C51**, any sequence of operations, with the same restriction on `components_to_properties`. -/
theorem C51_sequence_partial (build : Build) (hash : Nat → HashOrder) (ops : List Op)
    (hops : ∀ op ∈ ops, op.LabelsExist) (t t' : TensorMap StridedArray) (ht : TensorValid t) (hr : AllReadable t)
    (hk : AllKeepOrder build hash ops t) (h : runAll build hash ops t = (t', .ok ())) : AllReadable t' := by
  induction ops generalizing hash t with
  | nil => cases h; exact hr
  | cons op ops ih =>
    simp only [runAll] at h
    cases hrun : op.run build (hash 0) t with
    | mk t₁ r =>
      rw [hrun] at h
      cases r with
      | ok u =>
        exact ih (fun n => hash (n + 1)) (fun op h => hops op (List.mem_cons_of_mem _ h)) t₁
          (Op.run_valid lawful_strided (hops op List.mem_cons_self) ht hrun)
          (C51_operation_partial build (hash 0) op t t₁ ht hr hk.1 hrun) (hk.2 t₁ hrun) h
      | err e => cases h
      | panic m => cases h

/-- **C51**, why the restriction: in an array with two components and a single property, moving the first component
gives an array which can not be read, for all sizes of at least two components and one sample. -/
theorem C51_single_property (n a b : Nat) (hn : 0 < n) (ha : 2 ≤ a) (hb : 2 ≤ b) (elements : List Elt)
    (swapped moved : Strided)
    (h1 : ArrayLike.swapAxes (Strided.standard [n, a, b, 1] elements) 1 2 = (swapped, .ok ()))
    (h2 : ArrayLike.reshape swapped [n, b, a] = (moved, .ok ())) :
    ArrayLike.data moved = .err (NdArray.failed "data") := by
  have h0 : 0 ∉ [n, a, b, 1] := by simp; omega
  have e0 : Strided.defaultStrides [n, a, b, 1] = [a * b, b, 1, 1] := by
    unfold Strided.defaultStrides
    rw [if_neg h0]
    simp [Strided.rowMajor, shapeSize]
  have e1 : swapped = ⟨[n, b, a, 1], [a * b, 1, b, 1], elements⟩ := by
    have := congrArg Prod.fst h1
    change (Strided.swapAxes _ 1 2).1 = swapped at this
    rw [← this]
    unfold Strided.swapAxes Strided.standard
    rw [e0]
    simp [swapList]
  have hlt : b < a * b := by
    have := Nat.mul_le_mul_right b ha
    omega
  have e2 : moved = ⟨[n, b, a], [a * b, 1, b], elements⟩ := by
    have := congrArg Prod.fst h2
    change (Strided.reshape _ _).1 = moved at this
    rw [← this, e1]
    have hsize : shapeSize [n, b, a, 1] ≠ 0 := by
      have := Strided.shapeSize_pos (shape := [n, b, a, 1]) (by simp; omega)
      omega
    have hd : Strided.reshapeDim 8 none ([n, b, a, 1].zip [a * b, 1, b, 1]) [n, b, a] = .strides [a * b, 1, b] := by
      simp [Strided.reshapeDim, Strided.Reshaped.cons]
    have hc : Strided.isContiguous [n, b, a] [a * b, 1, b] = true := by
      unfold Strided.isContiguous
      rw [Bool.or_eq_true]
      right
      have i1 : ¬ a * b ≤ 1 := by omega
      have i2 : ¬ a * b ≤ b := by omega
      have i3 : 1 ≤ b := by omega
      simp [Strided.insertAxis, i1, i2, i3, Nat.mul_comm]
    unfold Strided.reshape Strided.toShape
    simp only [List.length_cons, List.length_nil, Nat.zero_add, Nat.reduceAdd]
    rw [if_pos (by simp [shapeSize]), if_neg hsize, hd]
    simp only
    unfold Strided.toOwned
    rw [if_pos hc]
  rw [e2]
  change Strided.data _ = _
  unfold Strided.data Strided.isStandard
  rw [if_neg]
  have h01 : 0 ∉ [n, b, a] := by simp; omega
  simp only [h01, decide_false, Bool.false_or]
  have i4 : a ≠ 1 := by omega
  have i5 : b ≠ 1 := by omega
  simp [Strided.contiguousSize, i4, i5]

namespace Example

/-- A block with two components and one property. -/
def pairBlock : TensorBlock NdArray :=
  ⟨⟨⟨[1, 2, 2, 1], (List.range 4).map (BitVec.ofNat 64)⟩, Labels.mk' ["s"] [[0]],
    [Labels.mk' ["a"] [[0], [1]], Labels.mk' ["b"] [[0], [1]]], Labels.mk' ["p"] [[0]]⟩, [], []⟩

def pair : TensorMap NdArray := ⟨Labels.mk' ["k"] [[0]], [pairBlock]⟩
theorem pair_valid : TensorValid pair := TensorMap.valid_of_rebuilds (by decide +kernel)

/-- The same tensor map, with arrays in row-major order. -/
def stridedPair : TensorMap StridedArray := pair.mapData StridedArray.ofNdArray
def stridedPairFlat : TensorMap StridedArray := (stridedPair.componentsToProperties .insertion ["a"]).1

/-- `Example.tensor` with arrays in row-major order. -/
def stridedTensor : TensorMap StridedArray := tensor.mapData StridedArray.ofNdArray

theorem stridedPair_valid : TensorValid stridedPair := by
  rw [← TensorValid.map_iff implements_strided]
  have : stridedPair.mapData StridedArray.view = pair := by decide +kernel
  rw [this]; exact pair_valid

theorem stridedTensor_valid : TensorValid stridedTensor := by
  rw [← TensorValid.map_iff implements_strided]
  have : stridedTensor.mapData StridedArray.view = tensor := by decide +kernel
  rw [this]; exact tensor_valid

/-- Whether all arrays are in row-major order. -/
def readable (t : TensorMap StridedArray) : Bool :=
  t.blocks.all fun b => Strided.isStandard b.values.data.array.shape b.values.data.array.strides &&
    b.gradients.all fun p => Strided.isStandard p.2.data.array.shape p.2.data.array.strides

theorem readable_iff {t : TensorMap StridedArray} : AllReadable t ↔ readable t = true := by
  rw [allReadable_iff]
  unfold TensorMap.AllData TensorBlock.AllData StridedArray.Standard readable
  simp only [List.all_eq_true, Bool.and_eq_true]

theorem stridedPairFlat_eq :
    stridedPair.componentsToProperties .insertion ["a"] = (stridedPairFlat, .ok ()) :=
  Prod.ext rfl (by decide +kernel)

end Example

/-- **C51** does not hold for `components_to_properties`: the data can not be read any more after moving the first of
two components to the properties when there is one property; saving the result fails. -/
theorem C51_counterexample : ¬ C51_full_statement := by
  intro h
  have := h ⟨true⟩ .insertion (.componentsToProperties ["a"]) Example.stridedPair Example.stridedPairFlat trivial
    Example.stridedPair_valid (Example.readable_iff.2 (by decide +kernel)) Example.stridedPairFlat_eq
  rw [Example.readable_iff] at this
  revert this
  decide +kernel

/-- The tensor map from `C51_counterexample` can be saved before the operation, not after it. -/
theorem C51_not_saved :
    (∃ archive, save ⟨true⟩ PyLiteral.fragment .little .insertion Example.stridedPair = .ok archive) ∧
    save ⟨true⟩ PyLiteral.fragment .little .insertion Example.stridedPairFlat = .err (NdArray.failed "data") := by
  refine ⟨?_, ?_⟩
  · cases h : save ⟨true⟩ PyLiteral.fragment .little .insertion Example.stridedPair with
    | ok archive => exact ⟨archive, rfl⟩
    | err e =>
      have : Example.isOk (save ⟨true⟩ PyLiteral.fragment .little .insertion Example.stridedPair) = true := by decide +kernel
      rw [h] at this; cases this
    | panic m =>
      have : Example.isOk (save ⟨true⟩ PyLiteral.fragment .little .insertion Example.stridedPair) = true := by decide +kernel
      rw [h] at this; cases this
  · decide +kernel

namespace Example

/-- Check `KeepsOrder` for each component. -/
def keepsOrder {A : Type} (names : List String) (b : BasicBlock A) : Bool :=
  (List.range b.components.length).all fun i =>
    (b.components[i]?.map (·.names)) != some names || i + 1 == b.components.length ||
      (b.components[i]?.map (·.count) != some (.ok 1) && b.properties.count != .ok 1)

theorem keepsOrder_spec {A : Type} {names : List String} {b : BasicBlock A} (h : keepsOrder names b = true) :
    KeepsOrder names b := by
  intro before moved after hs hn
  unfold keepsOrder at h
  rw [List.all_eq_true] at h
  have h1 := h before.length (by rw [hs, List.mem_range]; simp)
  have h2 : b.components[before.length]? = some moved := by rw [hs]; simp
  rw [h2, hs] at h1
  simp only [Option.map_some, hn, bne_self_eq_false, Bool.false_or, List.length_append, List.length_cons,
    Bool.or_eq_true, beq_iff_eq, Bool.and_eq_true, bne_iff_ne, ne_eq, Option.some.injEq] at h1
  rcases h1 with h1 | h1
  · exact .inl (List.eq_nil_of_length_eq_zero (by omega))
  · exact .inr h1

/-- A block with two components and two properties. -/
def wideBlock : TensorBlock NdArray :=
  ⟨⟨⟨[1, 2, 2, 2], (List.range 8).map (BitVec.ofNat 64)⟩, Labels.mk' ["s"] [[0]],
    [Labels.mk' ["a"] [[0], [1]], Labels.mk' ["b"] [[0], [1]]], Labels.mk' ["p"] [[0], [1]]⟩, [], []⟩
def wide : TensorMap NdArray := ⟨Labels.mk' ["k"] [[0]], [wideBlock]⟩
theorem wide_valid : TensorValid wide := TensorMap.valid_of_rebuilds (by decide +kernel)
def stridedWide : TensorMap StridedArray := wide.mapData StridedArray.ofNdArray
theorem stridedWide_valid : TensorValid stridedWide := by
  rw [← TensorValid.map_iff implements_strided]
  have : stridedWide.mapData StridedArray.view = wide := by decide +kernel
  rw [this]; exact wide_valid

/-- Operations on `stridedTensor`. -/
def layoutOps : List Op := [.componentsToProperties ["c"], .keysToSamples (Labels.mk' ["l"] []) true]

end Example

/-- The hypotheses of `C51_operation_partial` are met by tensor maps with components and gradients; in the second
one, the component is not the last one. -/
example :
    (TensorValid Example.stridedTensor ∧ AllReadable Example.stridedTensor ∧
      Op.KeepsOrder Example.stridedTensor (.componentsToProperties ["c"]) ∧
      ((Op.componentsToProperties ["c"]).run ⟨true⟩ .insertion Example.stridedTensor).2 = .ok ()) ∧
    (TensorValid Example.stridedWide ∧ AllReadable Example.stridedWide ∧
      Op.KeepsOrder Example.stridedWide (.componentsToProperties ["a"]) ∧
      ((Op.componentsToProperties ["a"]).run ⟨true⟩ .insertion Example.stridedWide).2 = .ok ()) := by
  refine ⟨⟨Example.stridedTensor_valid, Example.readable_iff.2 (by decide +kernel), ?_, by decide +kernel⟩,
    Example.stridedWide_valid, Example.readable_iff.2 (by decide +kernel), ?_, by decide +kernel⟩
  · have h : ∀ b ∈ Example.stridedTensor.blocks, Example.keepsOrder ["c"] b.values = true ∧
        ∀ p ∈ b.gradients, Example.keepsOrder ["c"] p.2 = true := by decide +kernel
    exact fun b hb => ⟨Example.keepsOrder_spec (h b hb).1, fun p hp => Example.keepsOrder_spec ((h b hb).2 p hp)⟩
  · have h : ∀ b ∈ Example.stridedWide.blocks, Example.keepsOrder ["a"] b.values = true ∧
        ∀ p ∈ b.gradients, Example.keepsOrder ["a"] p.2 = true := by decide +kernel
    exact fun b hb => ⟨Example.keepsOrder_spec (h b hb).1, fun p hp => Example.keepsOrder_spec ((h b hb).2 p hp)⟩

/-- The hypotheses of `C51_sequence_partial` and `C51_merge` are met by a sequence of two operations. -/
example : (∀ op ∈ Example.layoutOps, op.LabelsExist) ∧
    AllKeepOrder ⟨true⟩ (fun _ => .insertion) Example.layoutOps Example.stridedTensor ∧
    (runAll ⟨true⟩ (fun _ => .insertion) Example.layoutOps Example.stridedTensor).2 = .ok () ∧
    (Example.stridedTensor.keysToProperties ⟨true⟩ .insertion (Labels.mk' ["l"] []) true).2 = .ok () := by
  refine ⟨?_, ?_, by decide +kernel, by decide +kernel⟩
  · intro op hop
    simp only [Example.layoutOps, List.mem_cons, List.not_mem_nil, or_false] at hop
    rcases hop with rfl | rfl
    · trivial
    · exact ⟨["l"], [], by decide +kernel⟩
  · refine ⟨?_, fun t' _ => ⟨trivial, fun t'' _ => trivial⟩⟩
    have h : ∀ b ∈ Example.stridedTensor.blocks, Example.keepsOrder ["c"] b.values = true ∧
        ∀ p ∈ b.gradients, Example.keepsOrder ["c"] p.2 = true := by decide +kernel
    exact fun b hb => ⟨Example.keepsOrder_spec (h b hb).1, fun p hp => Example.keepsOrder_spec ((h b hb).2 p hp)⟩

/-- The arrays of `C51_single_property` exist, with several samples. -/
example : ∃ swapped moved,
    ArrayLike.swapAxes (Strided.standard [3, 2, 4, 1] ((List.range 24).map (BitVec.ofNat 64))) 1 2 = (swapped, .ok ()) ∧
    ArrayLike.reshape swapped [3, 4, 2] = (moved, .ok ()) :=
  ⟨(Strided.swapAxes (Strided.standard [3, 2, 4, 1] ((List.range 24).map (BitVec.ofNat 64))) 1 2).1,
    (Strided.reshape (Strided.swapAxes (Strided.standard [3, 2, 4, 1] ((List.range 24).map (BitVec.ofNat 64))) 1 2).1
      [3, 4, 2]).1, by decide +kernel, by decide +kernel⟩

end Equistore
