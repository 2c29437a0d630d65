import Verif.Model.CBlocks
import Verif.Lemmas.CLabels
import Verif.Props.Reachable
import Verif.Props.CLabels

/-!
# Reading blocks through the C API (C46)
-/

namespace Equistore
open Spec
variable {A : Type} [ArrayLike A]

/-- The data and labels called `name` in a block: either the values or one of the gradients. -/
def Spec.BlockPart (block : TensorBlock A) (name : String) (b : BasicBlock A) : Prop :=
  (name = "values" ∧ b = block.values) ∨ (name ≠ "values" ∧ (name, b) ∈ block.gradients)

/-- The labels of all the axes, in the order of the dimensions of the data. -/
def Spec.allLabels (b : BasicBlock A) : List Labels := b.samples :: b.components ++ [b.properties]

theorem Spec.IsCString.str {memory : Bytes} {s : String} (h : IsCString memory s) : cstrStr memory = some s := by
  obtain ⟨h0, rest, rfl⟩ := h
  exact cstrStr_append h0 rest

theorem lookup_of_mem {β : Type} {l : List (String × β)} (h : (l.map Prod.fst).Nodup) {k : String} {v : β}
    (hm : (k, v) ∈ l) : l.lookup k = some v := by
  induction l with
  | nil => simp at hm
  | cons a l ih =>
    obtain ⟨k', v'⟩ := a
    rw [List.map_cons, List.nodup_cons] at h
    rcases List.mem_cons.1 hm with heq | hm
    · cases heq
      simp [List.lookup]
    · have hne : k ≠ k' := fun heq => h.1 (List.mem_map.2 ⟨_, hm, heq⟩)
      rw [List.lookup_cons, beq_false_of_ne hne]
      exact ih h.2 hm

theorem selectBasic_of_part {block : TensorBlock A} (hb : BlockValid block) {memory : Bytes} {name : String}
    {b : BasicBlock A} (hn : IsCString memory name) (hp : BlockPart block name b) : selectBasic block memory = .ok b := by
  unfold selectBasic
  rw [hn.str]
  rcases hp with ⟨rfl, rfl⟩ | ⟨hne, hm⟩
  · simp
  · simp [hne, lookup_of_mem hb.names hm, Res.okOr]

theorem axisLabels_eq (b : BasicBlock A) (axis : Nat) :
    match (allLabels b)[axis]? with
    | some l => axisLabels b axis = .ok l
    | none => ∃ m, axisLabels b axis = .err (.invalidParameter m) := by
  unfold axisLabels allLabels
  rcases axis with _ | i
  · simp
  · simp only [List.cons_append, List.getElem?_cons_succ, Nat.add_one_ne_zero, if_false, Nat.add_sub_cancel]
    by_cases h : i < b.components.length
    · rw [List.getElem?_append_left h, List.getElem?_eq_getElem h]
      simp [h]
    · rw [List.getElem?_append_right (by omega), if_neg h]
      by_cases h' : i + 1 = b.components.length + 1
      · have : i - b.components.length = 0 := by omega
        simp [h', this]
      · have : ∃ k, i - b.components.length = k + 1 := ⟨i - b.components.length - 1, by omega⟩
        obtain ⟨k, hk⟩ := this
        simp only [hk, List.getElem?_cons_succ, List.getElem?_nil, if_neg h']
        exact ⟨_, rfl⟩

/-- **C46.** For the values or any gradient of a valid block, `eqs_block_labels` works for as many axes as the
data has dimensions. The labels are the samples for axis 0, then the components, then the properties; the C
structure describes names and entries of these labels, and the number of entries is the size of
the data along this axis. Other axes are an error. -/
theorem C46_block_labels (block : TensorBlock A) (hb : BlockValid block) (memory : Bytes) (name : String)
    (b : BasicBlock A) (hn : IsCString memory name) (hp : BlockPart block name b) :
    ∃ shape, ArrayLike.shape b.data = .ok shape ∧
      (∀ axis (h : axis < shape.length), ∃ c entries l, blockLabels block memory axis = .ok c ∧
        (allLabels b)[axis]? = some l ∧ l.iter = .ok entries ∧ Describes c l.names entries ∧
        c.count = shape[axis]) ∧
      (∀ axis, shape.length ≤ axis → ∃ m, blockLabels block memory axis = .err (.invalidParameter m)) := by
  have hv : BasicValid b := by
    rcases hp with ⟨_, rfl⟩ | ⟨_, hm⟩
    · exact hb.values
    · exact (hb.gradients _ _ hm).basic
  obtain ⟨shape, hs, hm⟩ := hv.shape
  have hsel := selectBasic_of_part hb hn hp
  have hlen : shape.length = (allLabels b).length := hm.length_eq
  have hnames : ∀ l ∈ allLabels b, l.names ≠ [] := by
    intro l hl
    obtain ⟨i, hi, rfl⟩ := List.getElem_of_mem hl
    exact Labels.count_ok_ne (hm.get (by omega) hi)
  refine ⟨shape, hs, fun axis h => ?_, fun axis h => ?_⟩
  · have hx := axisLabels_eq b axis
    rw [List.getElem?_eq_getElem (by omega)] at hx
    have hmem : (allLabels b)[axis] ∈ allLabels b := List.getElem_mem (by omega)
    obtain ⟨c, entries, hc, hi, hd, _⟩ := C04_export_import (allLabels b)[axis] (hv.labels _ hmem) (hnames _ hmem)
    refine ⟨c, entries, (allLabels b)[axis], ?_, by rw [List.getElem?_eq_getElem], hi, hd, ?_⟩
    · simp only [blockLabels, hsel, Res.ok_bind, hx, hc]
    · have hcount : (allLabels b)[axis].count = .ok shape[axis] := hm.get h (by unfold allLabels at hlen; omega)
      have hw := (hv.labels _ hmem).wf (hnames _ hmem)
      rw [hw.count_eq, Res.ok.injEq] at hcount
      rw [hd.count, ← hcount]
      have := hw.iter_eq
      rw [hi, Res.ok.injEq] at this
      rw [this]
  · have hx := axisLabels_eq b axis
    rw [List.getElem?_eq_none (by omega)] at hx
    obtain ⟨m, hx⟩ := hx
    exact ⟨m, by simp only [blockLabels, hsel, Res.ok_bind, hx, Res.err_bind]⟩

/-- Non-vacuity of `C46_block_labels`: the values (3 axes) and a gradient (4 axes) of a block. -/
example :
    (∃ b, BlockValid Example.gradBlock ∧ IsCString [118, 97, 108, 117, 101, 115, 0] "values" ∧
      BlockPart Example.gradBlock "values" b) ∧
    (∃ b, IsCString [103, 0, 5] "g" ∧ BlockPart Example.gradBlock "g" b ∧
      (do let c ← blockLabels Example.gradBlock [103, 0, 5] 0; return c.count) = Res.ok 2 ∧
      (do let c ← blockLabels Example.gradBlock [103, 0, 5] 1; return c.count) = Res.ok 1 ∧
      (do let c ← blockLabels Example.gradBlock [103, 0, 5] 3; return c.values) = Res.ok (some [0, 1, 5])) :=
  ⟨⟨_, Example.gradBlock_made.valid, ⟨by decide, [], by decide +kernel⟩, .inl ⟨rfl, rfl⟩⟩,
   ⟨⟨Example.gradientData, Example.gradientSamples, [Example.direction, Example.component], Example.properties⟩, ⟨by decide, [5], by decide +kernel⟩, .inr ⟨by decide, by decide +kernel⟩,
    by decide +kernel, by decide +kernel, by decide +kernel⟩⟩

/-- **C46.** Without a gradient with this name, `eqs_block_labels` reports an error for all axes. -/
theorem C46_missing_gradient (block : TensorBlock A) (memory : Bytes) (name : String) (hn : IsCString memory name)
    (hv : name ≠ "values") (hg : ∀ b, (name, b) ∉ block.gradients) (axis : Nat) :
    ∃ m, blockLabels block memory axis = .err (.invalidParameter m) := by
  have hl : block.gradients.lookup name = none := by
    rw [List.lookup_eq_none_iff]
    rintro ⟨k, v⟩ hm
    rw [bne_iff_ne]
    rintro rfl
    exact hg v hm
  refine ⟨s!"can not find gradients with respect to '{name}' in this block", ?_⟩
  simp only [blockLabels, selectBasic, hn.str, hv, hl, Res.expect_some, Res.ok_bind, if_false, Res.okOr]
  rfl

/-- **C46.** The list of gradients given to C contains the names of the gradients of a valid block, each of
them once; it is NULL if there are none. The name of each can be used to select this gradient. -/
theorem C46_gradients_list (block : TensorBlock A) (hb : BlockValid block)
    (hnul : ∀ p ∈ block.gradients.map Prod.fst, '\x00' ∉ p.toList) :
    ∃ memory, blockGradientsList block = (if block.gradients = [] then none else some memory, memory.length) ∧
      List.Forall₂ IsCString memory (block.gradients.map Prod.fst) ∧ (block.gradients.map Prod.fst).Nodup ∧
      (∀ p ∈ block.gradients, BlockPart block p.1 p.2) := by
  refine ⟨block.gradientParameters.map cstring, ?_, ?_, hb.names, ?_⟩
  · have : block.gradientParameters.isEmpty = decide (block.gradients = []) := by
      rw [hb.list]
      cases block.gradients <;> rfl
    simp only [blockGradientsList, this, List.length_map, decide_eq_true_eq]
  · rw [hb.list, List.forall₂_map_left_iff, List.forall₂_same]
    intro p hp
    exact isCString_cstring (hnul p hp)
  · rintro ⟨n, g⟩ hm
    refine .inr ⟨?_, hm⟩
    rintro rfl
    exact hb.reserved (List.mem_map.2 ⟨_, hm, rfl⟩)

end Equistore
