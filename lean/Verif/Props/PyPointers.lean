import Verif.Model.PyPointers
import Verif.Lemmas.Layout

/-!
# C107: arrays of the library in Python
-/

namespace Equistore
namespace Props

open PyPointers Spec

private theorem validIndex_iff (shape idx : List Nat) : validIndex shape idx = true ↔ InShape shape idx := by
  induction shape generalizing idx with
  | nil => cases idx <;> simp [validIndex, InShape]
  | cons n shape ih =>
    cases idx with
    | nil => simp [validIndex, InShape]
    | cons i idx =>
      have := ih idx
      simp only [InShape] at this
      simp [validIndex, InShape, this]

private theorem foldl_mul (shape : List Nat) (n : Nat) : shape.foldl (· * ·) n = n * shapeSize shape := by
  induction shape generalizing n with
  | nil => simp [shapeSize_nil]
  | cons m shape ih => rw [List.foldl_cons, ih, shapeSize_cons, Nat.mul_assoc]

private theorem reduceMul_spec {shape : List Nat} (h : shape ≠ []) : reduceMul shape = .ok (shapeSize shape) := by
  cases shape with
  | nil => exact absurd rfl h
  | cons n shape => rw [reduceMul, foldl_mul, shapeSize_cons]

private theorem ptr_spec {shape : List Nat} (h : shape ≠ []) :
    ptrToNdarray false shape = .ok ⟨shape, decide (shapeSize shape ≠ 0), true⟩ := by
  unfold ptrToNdarray
  rw [reduceMul_spec h]
  by_cases h0 : shapeSize shape = 0
  · simp [h0, bind, Except.bind, pure, Except.pure]
  · simp [h0, bind, Except.bind, pure, Except.pure]

private theorem rust_spec (a : StridedArray) (hr : InRowMajorOrder a.array) (hs : a.array.shape ≠ []) :
    rustNDArray a.array = .ok ⟨a.array.shape, decide (shapeSize a.array.shape ≠ 0), true⟩ := by
  have h : Strided.isStandard a.array.shape a.array.strides = true := a.standard_iff.2 hr
  have hg : a.array.getRustArray = .ok (a.array.memory, a.array.shape) := by
    unfold Strided.getRustArray
    rw [h]
    rfl
  simp only [rustNDArray, hg, ptr_spec hs]

private theorem location_spec (a : StridedArray) (hr : InRowMajorOrder a.array) {idx : List Nat}
    (hi : InShape a.array.shape idx) :
    Strided.location a.array.strides idx = offset a.array.shape idx ∧
      offset a.array.shape idx < a.array.memory.length ∧ shapeSize a.array.shape ≠ 0 := by
  have h : Strided.isStandard a.array.shape a.array.strides = true := a.standard_iff.2 hr
  have hlt := offset_lt hi
  exact ⟨(Strided.isStandard_iff a.complete.strides).1 h idx hi, by rw [a.complete.memory]; exact hlt, by omega⟩

/-- **C107**, reading: an array of the library in row-major order, with at least one axis, is read in Python with its shape
and its elements; other indexes are errors. -/
theorem C107_read (a : StridedArray) (hr : InRowMajorOrder a.array) (hs : a.array.shape ≠ []) :
    ∃ array, rustNDArray a.array = .ok array ∧ array.shape = a.array.shape ∧
      (∀ idx, InShape a.array.shape idx → array.read a.array.memory idx = some (.ok (a.array.get idx))) ∧
      ∀ idx, ¬ InShape a.array.shape idx → array.read a.array.memory idx = some (.error .indexError) := by
  refine ⟨_, rust_spec a hr hs, rfl, fun idx hi => ?_, fun idx hi => ?_⟩
  · obtain ⟨h1, h2, h3⟩ := location_spec a hr hi
    simp [PyArray.read, (validIndex_iff _ _).2 hi, h3, Strided.get, h1, h2]
  · have : validIndex a.array.shape idx = false := by
      rw [← Bool.not_eq_true, validIndex_iff]
      exact hi
    simp [PyArray.read, this]

/-- **C107**, writing: assigning to an element in Python changes this element in the library, and no other. -/
theorem C107_write (a : StridedArray) (hr : InRowMajorOrder a.array) (hs : a.array.shape ≠ []) (idx : List Nat)
    (hi : InShape a.array.shape idx) (value : Elt) :
    ∃ array memory, rustNDArray a.array = .ok array ∧ array.assign a.array.memory idx value = some (memory, .ok ()) ∧
      memory.length = a.array.memory.length ∧
      ∀ other, InShape a.array.shape other →
        ({ a.array with memory := memory } : Strided).get other = if other = idx then value else a.array.get other := by
  obtain ⟨h1, h2, h3⟩ := location_spec a hr hi
  refine ⟨_, a.array.memory.set (offset a.array.shape idx) value, rust_spec a hr hs, ?_, by simp, fun other ho => ?_⟩
  · simp [PyArray.assign, (validIndex_iff _ _).2 hi, h3, h2]
  · obtain ⟨g1, g2, _⟩ := location_spec a hr ho
    by_cases he : other = idx
    · subst he
      simp [Strided.get, g1, g2]
    · have hne : offset a.array.shape idx ≠ offset a.array.shape other := fun h => he (offset_inj ho hi h.symm)
      simp only [Strided.get, g1, if_neg he, List.getD_eq_getElem?_getD, List.getElem?_set_ne hne]

/-- **C107**, other arrays: an array which is not in row-major order is not read wrongly, but raises. -/
theorem C107_other_order (a : StridedArray) (hr : ¬ InRowMajorOrder a.array) :
    rustNDArray a.array = .error .equistoreError := by
  rw [← a.standard_iff] at hr
  have h : Strided.isStandard a.array.shape a.array.strides = false := by
    rw [← Bool.not_eq_true]
    exact hr
  unfold rustNDArray Strided.getRustArray
  rw [h]
  rfl

/-- **C107**, read-only memory: whatever is tried, assigning to an array made for constant memory raises, and the memory is
not changed. -/
theorem C107_const {α : Type} (null : Bool) (shape : List Nat) (array : PyArray)
    (h : ptrToConstNdarray null shape = .ok array) (memory : List α) (idx : List Nat) (value : α) :
    array.assign memory idx value = some (memory, .error .valueError) := by
  unfold ptrToConstNdarray at h
  cases hp : ptrToNdarray null shape with
  | error e => rw [hp] at h; cases h
  | ok x =>
    rw [hp] at h
    cases h
    rfl

/-- **C107**, read-only memory can be read: the element in row-major order. -/
theorem C107_const_read {α : Type} (shape : List Nat) (hs : shape ≠ []) (memory : List α)
    (hm : memory.length = shapeSize shape) :
    ∃ array, ptrToConstNdarray false shape = .ok array ∧ array.shape = shape ∧
      ∀ idx, InShape shape idx → ∃ x, memory[offset shape idx]? = some x ∧ array.read memory idx = some (.ok x) := by
  refine ⟨⟨shape, decide (shapeSize shape ≠ 0), false⟩, ?_, rfl, fun idx hi => ?_⟩
  · unfold ptrToConstNdarray
    rw [ptr_spec hs]
    rfl
  · have hlt : offset shape idx < shapeSize shape := offset_lt hi
    have h0 : shapeSize shape ≠ 0 := by omega
    rw [← hm] at hlt
    refine ⟨memory[offset shape idx], List.getElem?_eq_getElem hlt, ?_⟩
    simp [PyArray.read, (validIndex_iff _ _).2 hi, h0, hlt]

/-- Arrays without axes, which have one element, can not be read: `reduce` raises. Blocks never have such arrays. -/
theorem C107_scalar (a : StridedArray) (hs : a.array.shape = []) : rustNDArray a.array = .error .typeError := by
  unfold rustNDArray Strided.getRustArray Strided.isStandard
  rw [hs]
  cases a.array.strides <;> rfl

/-- `NULL` is only accepted for arrays without elements. -/
theorem C107_null (shape : List Nat) (hs : shape ≠ []) :
    (shapeSize shape ≠ 0 → ptrToNdarray true shape = .error .assertionError) ∧
    (shapeSize shape = 0 → ptrToNdarray true shape = .ok ⟨shape, false, true⟩) := by
  unfold ptrToNdarray
  rw [reduceMul_spec hs]
  constructor <;> intro h <;> simp [h, bind, Except.bind, pure, Except.pure, throw, throwThe, MonadExceptOf.throw]

/-! ### Examples -/

namespace PyPointersExample

/-- An array of shape [2, 3]. -/
def array : StridedArray := ⟨Strided.standard [2, 3] [1, 2, 3, 4, 5, 6], Strided.standard_ok rfl⟩

theorem rowMajor : InRowMajorOrder array.array := array.standard_iff.1 (Strided.isStandard_default [2, 3])

example : ∃ v, rustNDArray array.array = .ok v ∧ v.read array.array.memory [1, 0] = some (.ok 4) := by
  obtain ⟨v, h1, _, h3, _⟩ := C107_read array rowMajor (by decide)
  exact ⟨v, h1, h3 [1, 0] (.cons (by decide) (.cons (by decide) .nil))⟩

example : ∃ v memory, rustNDArray array.array = .ok v ∧ v.assign array.array.memory [1, 0] 9 = some (memory, .ok ()) ∧
    ({ array.array with memory := memory } : Strided).get [1, 0] = 9 := by
  obtain ⟨v, memory, h1, h2, _, h4⟩ := C107_write array rowMajor (by decide) [1, 0] (.cons (by decide) (.cons (by decide) .nil)) 9
  exact ⟨v, memory, h1, h2, h4 [1, 0] (.cons (by decide) (.cons (by decide) .nil))⟩

/-- The same array after swapping the axes is in another order. -/
def swapped : StridedArray := ⟨(array.array.swapAxes 0 1).1, Strided.swapAxes_ok array.complete 0 1⟩

example : ¬ InRowMajorOrder swapped.array := by
  rw [← swapped.standard_iff]
  show ¬ Strided.isStandard swapped.array.shape swapped.array.strides = true
  decide +kernel

/-- An array without axes. -/
def scalar : StridedArray := ⟨Strided.standard [] [7], Strided.standard_ok rfl⟩
example : scalar.array.shape = [] := rfl

example : ptrToConstNdarray false [2, 1] = .ok ⟨[2, 1], true, false⟩ := rfl

end PyPointersExample

end Props
end Equistore
