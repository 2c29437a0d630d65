import Verif.Lemmas.Npy
import Verif.Lemmas.NdArray

/-! Values after the header of NPY files. -/

namespace Equistore
open Spec

/-! ### Values as bytes -/

section
variable {α : Type}

theorem flatMap_encode_length (e : Endian) (n : Nat) (l : List α) (f : α → Nat) :
    (l.flatMap fun a => e.encode n (f a)).length = n * l.length := by
  rw [List.flatMap_def, flatten_length_const (n := n), List.length_map, Nat.mul_comm]
  intro r hr
  rw [List.mem_map] at hr
  obtain ⟨a, -, rfl⟩ := hr
  exact Endian.encode_length e n (f a)

theorem decodeAll_encode (e : Endian) {n : Nat} (hn : 0 < n) (l : List α) (f : α → Nat)
    (hf : ∀ a ∈ l, f a < 256 ^ n) : decodeAll e n (l.flatMap fun a => e.encode n (f a)) = l.map f := by
  unfold decodeAll
  rw [List.flatMap_def, chunksExact_flatten hn, List.map_map]
  · apply List.map_congr_left
    intro a ha
    exact Endian.decode_encode e (hf a ha)
  · intro r hr
    rw [List.mem_map] at hr
    obtain ⟨a, -, rfl⟩ := hr
    exact Endian.encode_length e n (f a)

end

theorem Int32.ofNat_toUInt32 (v : Int32) : Int32.ofNat v.toUInt32.toNat = v := by
  apply Int32.toBitVec_inj.1
  show BitVec.ofNat 32 v.toBitVec.toNat = v.toBitVec
  simp

/-- The bytes of label values. -/
def labelsBody (e : Endian) (values : List LabelValue) : Bytes :=
  values.flatMap fun value => e.encode 4 value.toUInt32.toNat

/-- The bytes of floating point values. -/
def dataBody (e : Endian) (values : List Elt) : Bytes :=
  values.flatMap fun value => e.encode 8 value.toNat

theorem labelsBody_length (e : Endian) (values : List LabelValue) : (labelsBody e values).length = 4 * values.length :=
  flatMap_encode_length e 4 values _

theorem dataBody_length (e : Endian) (values : List Elt) : (dataBody e values).length = 8 * values.length :=
  flatMap_encode_length e 8 values _

theorem decode_labelsBody (e : Endian) (values : List LabelValue) :
    (decodeAll e 4 (labelsBody e values)).map (fun n => Int32.ofNat n) = values := by
  unfold labelsBody
  rw [decodeAll_encode e (by decide) _ _ (fun v _ => by have := v.toUInt32.toNat_lt; omega), List.map_map]
  conv_rhs => rw [← List.map_id values]
  apply List.map_congr_left
  intro v _
  exact Int32.ofNat_toUInt32 v

theorem decode_dataBody (e : Endian) (values : List Elt) :
    (decodeAll e 8 (dataBody e values)).map (BitVec.ofNat 64) = values := by
  unfold dataBody
  rw [decodeAll_encode e (by decide) _ _ (fun v _ => by have := v.isLt; omega), List.map_map]
  conv_rhs => rw [← List.map_id values]
  apply List.map_congr_left
  intro v _
  simp

/-! ### Types of labels -/

/-- The type of labels. -/
def labelsType (e : Endian) (names : List String) : PyValue :=
  .list (names.map fun name => .tuple [.string name.toList, .string e.i4.toList])

theorem labelsType_plain (e : Endian) (names : List String) : Plain (labelsType e names) := by
  refine .list ?_
  intro v hv
  rw [List.mem_map] at hv
  obtain ⟨name, -, rfl⟩ := hv
  refine .tuple ?_
  intro v hv
  simp only [List.mem_cons, List.not_mem_nil, or_false] at hv
  rcases hv with rfl | rfl <;> exact .string _

theorem checkTypeLoop_cons (e : Endian) (name : String) (list : List PyValue) (names : List String)
    {o : Option Endian} (ho : o = none ∨ o = some e) :
    checkTypeLoop (.tuple [.string name.toList, .string e.i4.toList] :: list) names o =
      checkTypeLoop list (names ++ [name]) (some e) := by
  have h1 : ¬ "<i4".toList = ">i4".toList := by decide
  have h2 : ¬ ">i4".toList = "<i4".toList := by decide
  conv_lhs => unfold checkTypeLoop
  rcases ho with rfl | rfl <;> cases e <;>
    simp only [Endian.i4, if_true, if_neg h1, if_neg h2, Option.isNone, ne_eq, not_true, if_false,
      String.ofList_toList, Bool.false_eq_true]

theorem checkTypeLoop_labels (e : Endian) (names : List String) (names' : List String) {o : Option Endian}
    (ho : o = none ∨ o = some e) (hne : names ≠ [] ∨ o = some e) :
    checkTypeLoop (names.map fun name => .tuple [.string name.toList, .string e.i4.toList]) names' o =
      .ok (names' ++ names, some e) := by
  induction names generalizing names' o with
  | nil =>
    rcases hne with h | rfl
    · exact absurd rfl h
    · rw [List.map_nil, checkTypeLoop, List.append_nil]
  | cons name names ih =>
    rw [List.map_cons, checkTypeLoop_cons e name _ _ ho, ih _ (.inr rfl) (.inr rfl), List.append_assoc]
    rfl

theorem checkTypeDescriptor_labels (e : Endian) {names : List String} (hne : names ≠ []) :
    checkTypeDescriptor (labelsType e names) = .ok (names, e) := by
  unfold labelsType checkTypeDescriptor
  simp only []
  rw [checkTypeLoop_labels e names [] (.inl rfl) (.inl hne)]
  rfl

/-- The header of labels. -/
def labelsHeader (e : Endian) (names : List String) (count : Nat) : NpyHeader :=
  { typeDescriptor := labelsType e names, fortranOrder := false, shape := [count] }

/-- The header of data. -/
def dataHeader (e : Endian) (shape : List Nat) : NpyHeader :=
  { typeDescriptor := .string e.f8.toList, fortranOrder := false, shape }

/-! ### Writing -/

theorem writeNpyLabels_eq {build : Build} {py : PyLiteral} {e : Endian} {l : Labels} {names : List String}
    {rows : List (List LabelValue)} (hpy : LawfulPy py) (h : l.Holds names rows) :
    writeNpyLabels build py e l = (do
      let bytes ← (labelsHeader e names rows.length).toBytes build py
      .ok (bytes ++ labelsBody e l.values)) := by
  unfold writeNpyLabels
  rw [h.names_eq, hpy.labels e names fun name hn => (isValidLabelName_iff name).1 (h.names_ok.1 name hn)]
  simp only [Res.expect, Res.ok_bind, h.count_eq, h.iter_eq, Res.pure_eq, h.values_eq]
  rfl

theorem writeData_eq {A : Type} [ArrayLike A] {build : Build} {py : PyLiteral} {e : Endian} {array : A}
    {shape : List Nat} {elements : List Elt} (hpy : LawfulPy py) (hs : ArrayLike.shape array = .ok shape)
    (hd : ArrayLike.data array = .ok elements) :
    writeData build py e array = (do
      let bytes ← (dataHeader e shape).toBytes build py
      .ok (bytes ++ dataBody e elements)) := by
  unfold writeData
  rw [hpy.data e]
  simp only [Res.expect, Res.ok_bind, hs, hd, Res.pure_eq]
  rfl

/-! ### Reading -/

/-- What is left of `readNpyLabels` after the header and the type. -/
theorem readNpyLabels_eq {build : Build} {py : PyLiteral} {e : Endian} {names : List String} {count : Nat}
    {reader rest : Bytes} (hne : names ≠ []) (hc : count * names.length * 4 ≤ isizeMax)
    (hr : NpyHeader.fromReader py reader = .ok (labelsHeader e names count, rest)) :
    readNpyLabels build py reader = (do
      let (bytes, reader) ← readExact (4 * (count * names.length)) rest
      checkForExtraBytes reader
      Labels.build names (chunksExact names.length ((decodeAll e 4 bytes).map fun n => Int32.ofNat n))) := by
  have hmax : isizeMax = 2 ^ 63 - 1 := rfl
  have hsize : usizeSize = 2 ^ 64 := rfl
  unfold readNpyLabels
  rw [hr]
  simp only [Res.ok_bind, labelsHeader, Bool.not_false, Res.guardErr_true, List.length_cons, List.length_nil,
    beq_self_eq_true, checkTypeDescriptor_labels e hne, List.getElem?_cons_zero, Res.expect, usizeMul, allocate]
  rw [if_pos (by omega)]
  simp only [Res.ok_bind]
  rw [if_pos hc]
  rfl

theorem readData_eq {build : Build} {py : PyLiteral} {e : Endian} {shape : List Nat} {size : Nat}
    {reader rest : Bytes} (hsize : dimensionSize build shape 1 = .ok size) (hc : size * 8 ≤ isizeMax)
    (hr : NpyHeader.fromReader py reader = .ok (dataHeader e shape, rest)) :
    readData build py reader = (do
      let (bytes, reader) ← readExact (8 * size) rest
      checkForExtraBytes reader
      Res.expect (fromShapeVec shape ((decodeAll e 8 bytes).map (BitVec.ofNat 64))) "invalid shape") := by
  have h1 : ¬ ">f8".toList = "<f8".toList := by decide
  unfold readData
  rw [hr]
  simp only [Res.ok_bind, dataHeader, Bool.not_false, Res.guardErr_true, hsize, allocate]
  rw [if_pos hc]
  cases e
  · simp only [Res.ok_bind, Endian.f8, if_true, bind_assoc, Res.pure_eq]
  · simp only [Res.ok_bind, Endian.f8, if_true, if_neg h1, bind_assoc, Res.pure_eq]

/-! ### Sizes of arrays -/

theorem shapeSize_pos {shape : List Nat} : 0 < shapeSize (shape.filter (· ≠ 0)) := by
  induction shape with
  | nil => decide
  | cons n shape ih =>
    rw [List.filter_cons]
    split
    · next h =>
      simp only [ne_eq, decide_not, Bool.not_eq_eq_eq_not, Bool.not_true, decide_eq_false_iff_not] at h
      show 0 < n * shapeSize _
      exact Nat.mul_pos (by omega) ih
    · exact ih

theorem mem_le_filterSize {shape : List Nat} {n : Nat} (h : n ∈ shape) : n ≤ shapeSize (shape.filter (· ≠ 0)) := by
  induction shape with
  | nil => simp at h
  | cons m shape ih =>
    rw [List.filter_cons]
    have hp := shapeSize_pos (shape := shape)
    rw [List.mem_cons] at h
    split
    · next hm =>
      show n ≤ m * shapeSize _
      simp only [ne_eq, decide_not, Bool.not_eq_eq_eq_not, Bool.not_true, decide_eq_false_iff_not] at hm
      rcases h with rfl | h
      · exact Nat.le_mul_of_pos_right n hp
      · exact Nat.le_trans (ih h) (Nat.le_mul_of_pos_left _ (by omega))
    · next hm =>
      simp only [ne_eq, decide_not, Bool.not_eq_eq_eq_not, Bool.not_true, decide_eq_false_iff_not,
        Decidable.not_not] at hm
      rcases h with rfl | h
      · omega
      · exact ih h

theorem dimensionSize_eq (build : Build) {shape : List Nat} {size : Nat}
    (h : size * shapeSize (shape.filter (· ≠ 0)) ≤ isizeMax) :
    dimensionSize build shape size = .ok (size * shapeSize shape) := by
  have hmax : isizeMax = 2 ^ 63 - 1 := rfl
  have hsize : usizeSize = 2 ^ 64 := rfl
  induction shape generalizing size with
  | nil => rw [dimensionSize]; simp [shapeSize]
  | cons n shape ih =>
    have hp := shapeSize_pos (shape := shape)
    have e : shapeSize (n :: shape) = n * shapeSize shape := rfl
    have hle : size * n * shapeSize (shape.filter (· ≠ 0)) ≤ isizeMax := by
      rw [List.filter_cons] at h
      split at h
      · rw [Nat.mul_assoc]; exact h
      · next hm =>
        simp only [ne_eq, decide_not, Bool.not_eq_eq_eq_not, Bool.not_true, decide_eq_false_iff_not,
          Decidable.not_not] at hm
        rw [hm, Nat.mul_zero, Nat.zero_mul]
        omega
    have hlt : size * n < usizeSize := by
      have := Nat.le_mul_of_pos_right (size * n) hp
      omega
    rw [dimensionSize, usizeMul, if_pos hlt, Res.ok_bind, ih hle, e, Nat.mul_assoc]

end Equistore
