import Verif.Model.NumpyView
import Verif.Lemmas.Strided
import Verif.Lemmas.Numpy
import Verif.Lemmas.SameCallbacks

/-! Numpy arrays with strides. -/

namespace Equistore
namespace NumpyView

open Strided (exists_idx shapeSize_pos pos_of_shapeSize_pos not_mem_of_valid swapList_getElem? swapList_swapList
  swapList_valid shapeSize_swap)

/-! ### Positions in memory -/

/-- Number of elements in some axes. -/
def size (axes : List (Nat × Int)) : Nat := shapeSize (axes.map Prod.fst)

/-- Distance in memory from the first element to the one with the given position in row-major order. -/
def off : List (Nat × Int) → Nat → Int
  | [], _ => 0
  | (_, s) :: axes, f => (f / size axes : Nat) * s + off axes (f % size axes)

@[simp] theorem size_nil : size [] = 1 := rfl
@[simp] theorem size_cons (d : Nat) (s : Int) (axes : List (Nat × Int)) : size ((d, s) :: axes) = d * size axes := rfl

theorem size_append (a b : List (Nat × Int)) : size (a ++ b) = size a * size b := by
  unfold size; rw [List.map_append, shapeSize_append]

theorem location_eq_off {axes : List (Nat × Int)} {idx : List Nat} (h : ValidIdx (axes.map Prod.fst) idx) :
    location axes idx = off axes (offset (axes.map Prod.fst) idx) := by
  induction axes generalizing idx with
  | nil => cases h; rfl
  | cons a axes ih =>
    obtain ⟨d, s⟩ := a
    cases h with
    | @cons _ i _ idx hi ht =>
      have hlt := offset_lt ht
      rw [location, off, ih ht, List.map_cons, offset]
      unfold size
      have h1 : (i * shapeSize (axes.map Prod.fst) + offset (axes.map Prod.fst) idx) / shapeSize (axes.map Prod.fst) = i := by
        rw [Nat.add_comm, Nat.add_mul_div_right _ _ (by omega), Nat.div_eq_of_lt hlt, Nat.zero_add]
      have h2 : (i * shapeSize (axes.map Prod.fst) + offset (axes.map Prod.fst) idx) % shapeSize (axes.map Prod.fst) =
          offset (axes.map Prod.fst) idx := by
        rw [Nat.add_comm, Nat.add_mul_mod_self_right, Nat.mod_eq_of_lt hlt]
      rw [h1, h2, Int.mul_comm]

theorem off_zero (axes : List (Nat × Int)) : off axes 0 = 0 := by
  induction axes with
  | nil => rfl
  | cons a axes ih => obtain ⟨d, s⟩ := a; rw [off]; simp [ih]

theorem off_append (a b : List (Nat × Int)) {f : Nat} (h : f < size (a ++ b)) :
    off (a ++ b) f = off a (f / size b) + off b (f % size b) := by
  induction a generalizing f with
  | nil =>
    rw [List.nil_append] at h ⊢
    rw [off, Int.zero_add, Nat.mod_eq_of_lt h]
  | cons x a ih =>
    obtain ⟨d, s⟩ := x
    rw [List.cons_append, size_cons] at h
    have hp : 0 < size (a ++ b) := Nat.pos_of_ne_zero fun h0 => by rw [h0] at h; simp at h
    rw [List.cons_append, off, off, ih (Nat.mod_lt _ hp), size_append, Nat.mod_mul_left_div_self,
      Nat.mod_mul_left_mod, Nat.mul_comm, Nat.div_div_eq_div_mul, Int.add_assoc]

/-- Axes with one entry do not matter. -/
theorem size_filter (axes : List (Nat × Int)) : size (axes.filter fun a => a.1 ≠ 1) = size axes := by
  induction axes with
  | nil => rfl
  | cons a axes ih =>
    obtain ⟨d, s⟩ := a
    rw [List.filter_cons]
    split
    · rw [size_cons, size_cons, ih]
    · rename_i h
      have : d = 1 := by simpa using h
      rw [ih, size_cons, this, Nat.one_mul]

theorem off_filter (axes : List (Nat × Int)) {f : Nat} (h : f < size axes) :
    off (axes.filter fun a => a.1 ≠ 1) f = off axes f := by
  induction axes generalizing f with
  | nil => rfl
  | cons a axes ih =>
    obtain ⟨d, s⟩ := a
    rw [size_cons] at h
    have hp : 0 < size axes := Nat.pos_of_ne_zero fun h0 => by rw [h0] at h; simp at h
    rw [List.filter_cons]
    split
    · rw [off, off, size_filter, ih (Nat.mod_lt _ hp)]
    · rename_i h1
      have : d = 1 := by simpa using h1
      rw [this, Nat.one_mul] at h
      rw [ih h, off, Nat.div_eq_of_lt h, Nat.mod_eq_of_lt h]
      simp

/-! ### Merging and splitting axes -/

theorem canMerge_first {n : Nat} {s : Int} {axes : List (Nat × Int)} (h : canMerge ((n, s) :: axes) = true) :
    s = size axes * lastStride ((n, s) :: axes) := by
  induction axes generalizing n s with
  | nil => simp [lastStride]
  | cons a axes ih =>
    obtain ⟨m, t⟩ := a
    rw [canMerge, Bool.and_eq_true, beq_iff_eq] at h
    have h1 := ih h.2
    have h2 : lastStride ((n, s) :: (m, t) :: axes) = lastStride ((m, t) :: axes) := by
      unfold lastStride; rw [List.getLast?_cons_cons]
    rw [h2, h.1, size_cons, Int.natCast_mul, Int.mul_assoc, ← h1]

/-- In axes which can be merged, elements have the same distance from each other. -/
theorem off_merge {axes : List (Nat × Int)} (hne : axes ≠ []) (h : canMerge axes = true) (f : Nat) :
    off axes f = f * lastStride axes := by
  induction axes generalizing f with
  | nil => exact absurd rfl hne
  | cons a axes ih =>
    obtain ⟨n, s⟩ := a
    have hs := canMerge_first h
    cases axes with
    | nil => simp [off, lastStride]
    | cons b axes =>
      obtain ⟨m, t⟩ := b
      rw [canMerge, Bool.and_eq_true] at h
      have h2 : lastStride ((n, s) :: (m, t) :: axes) = lastStride ((m, t) :: axes) := by
        unfold lastStride; rw [List.getLast?_cons_cons]
      rw [off, ih (by simp) h.2]
      rw [h2] at hs ⊢
      generalize lastStride ((m, t) :: axes) = l at *
      generalize size ((m, t) :: axes) = k at *
      rw [hs, ← Int.mul_assoc, ← Int.add_mul]
      congr 1
      exact_mod_cast Nat.div_add_mod' f k

theorem groupAxes_spec (last : Int) {dims : List Nat} (h : dims ≠ []) :
    canMerge (groupAxes last dims) = true ∧ lastStride (groupAxes last dims) = last ∧
      (groupAxes last dims).map Prod.fst = dims ∧ groupAxes last dims ≠ [] := by
  induction dims with
  | nil => exact absurd rfl h
  | cons d dims ih =>
    cases dims with
    | nil => simp [groupAxes, canMerge, lastStride]
    | cons e dims =>
      obtain ⟨h1, h2, h3, h4⟩ := ih (by simp)
      rw [groupAxes]
      cases hg : groupAxes last (e :: dims) with
      | nil => exact absurd hg h4
      | cons a axes =>
        obtain ⟨e', t⟩ := a
        rw [hg] at h1 h2 h3
        refine ⟨?_, ?_, ?_, by simp⟩
        · simp only [canMerge, Bool.and_eq_true, beq_iff_eq]
          exact ⟨Int.mul_comm _ _, h1⟩
        · rw [← h2]; unfold lastStride; simp only; rw [List.getLast?_cons_cons]
        · simp only [List.map_cons] at h3 ⊢
          rw [h3]

/-! ### Finding a view with another shape -/

theorem takeGroup_spec {fuel np op : Nat} {g : Group} (hnp : np = shapeSize g.newDims) (hop : op = size g.oldAxes)
    (hsize : shapeSize g.newDims * shapeSize g.newRest = size g.oldAxes * size g.oldRest)
    (hn : ∀ d ∈ g.newDims ++ g.newRest, 0 < d) (ho : ∀ a ∈ g.oldAxes ++ g.oldRest, 0 < a.1)
    (hf : g.newRest.length + g.oldRest.length < fuel) :
    ∃ g', takeGroup fuel np op g = some g' ∧ g'.newDims ++ g'.newRest = g.newDims ++ g.newRest ∧
      g'.oldAxes ++ g'.oldRest = g.oldAxes ++ g.oldRest ∧ shapeSize g'.newDims = size g'.oldAxes ∧
      g.newDims.length ≤ g'.newDims.length ∧ g.oldAxes.length ≤ g'.oldAxes.length := by
  induction fuel generalizing np op g with
  | zero => omega
  | succ fuel ih =>
    rw [takeGroup]
    have p1 : 0 < shapeSize g.newDims := shapeSize_pos fun d hd => hn d (List.mem_append_left _ hd)
    have p2 : 0 < size g.oldAxes := shapeSize_pos fun d hd => by
      obtain ⟨a, ha, rfl⟩ := List.mem_map.1 hd
      exact ho a (List.mem_append_left _ ha)
    have p3 : 0 < shapeSize g.newRest := shapeSize_pos fun d hd => hn d (List.mem_append_right _ hd)
    have p4 : 0 < size g.oldRest := shapeSize_pos fun d hd => by
      obtain ⟨a, ha, rfl⟩ := List.mem_map.1 hd
      exact ho a (List.mem_append_right _ ha)
    split
    · exact ⟨g, rfl, rfl, rfl, by omega, Nat.le_refl _, Nat.le_refl _⟩
    · split
      · split
        · rename_i h1 h2 h3
          rw [h3, shapeSize_nil, Nat.mul_one] at hsize
          have := Nat.mul_le_mul_left (size g.oldAxes) p4
          omega
        · rename_i h1 h2 d rest h3
          obtain ⟨g', e1, e2, e3, e4, e5, e6⟩ := ih (np := np * d) (op := op)
            (g := { g with newDims := g.newDims ++ [d], newRest := rest })
            (by rw [hnp, shapeSize_append, shapeSize_cons, shapeSize_nil, Nat.mul_one]) hop
            (by rw [← hsize, h3, shapeSize_append, shapeSize_cons, shapeSize_cons, shapeSize_nil]; ring)
            (by simpa [h3] using hn) ho (by rw [h3] at hf; simp at hf ⊢; omega)
          refine ⟨g', e1, by rw [e2, h3]; simp, e3, e4, ?_, e6⟩
          simp at e5; omega
      · split
        · rename_i h1 h2 h3
          rw [h3, size_nil, Nat.mul_one] at hsize
          have := Nat.mul_le_mul_left (shapeSize g.newDims) p3
          omega
        · rename_i h1 h2 a rest h3
          obtain ⟨g', e1, e2, e3, e4, e5, e6⟩ := ih (np := np) (op := op * a.1)
            (g := { g with oldAxes := g.oldAxes ++ [a], oldRest := rest }) hnp
            (by obtain ⟨d, s⟩ := a; rw [hop, size_append, size_cons, size_nil, Nat.mul_one])
            (by obtain ⟨d, s⟩ := a; rw [hsize, h3, size_append, size_cons, size_cons, size_nil]; ring)
            hn (by simpa [h3] using ho) (by rw [h3] at hf; simp at hf ⊢; omega)
          refine ⟨g', e1, e2, by rw [e3, h3]; simp, e4, e5, ?_⟩
          simp at e6; omega

/-- A view with another shape has the same elements, in row-major order. -/
theorem attempt_spec {fuel : Nat} {last : Int} {dims : List Nat} {axes : List (Nat × Int)}
    (hsize : shapeSize dims = size axes) (hd : ∀ d ∈ dims, 0 < d) (ha : ∀ a ∈ axes, 0 < a.1 ∧ a.1 ≠ 1)
    (hf : dims.length ≤ fuel) :
    attempt fuel last dims axes = .impossible ∨
    ∃ axes', attempt fuel last dims axes = .view axes' ∧ axes'.map Prod.fst = dims ∧
      ∀ f < size axes, off axes' f = off axes f := by
  induction fuel generalizing last dims axes with
  | zero =>
    obtain rfl : dims = [] := List.eq_nil_of_length_eq_zero (by omega)
    refine .inr ⟨[], by rw [attempt], rfl, fun f hf => ?_⟩
    rw [← hsize, shapeSize_nil] at hf
    obtain rfl : f = 0 := by omega
    rw [off_zero, off_zero]
  | succ fuel ih =>
    match dims, axes with
    | [], axes =>
      refine .inr ⟨[], by rw [attempt], rfl, fun f hf => ?_⟩
      rw [← hsize, shapeSize_nil] at hf
      obtain rfl : f = 0 := by omega
      rw [off_zero, off_zero]
    | d :: dims, [] =>
      refine .inr ⟨_, by rw [attempt]; simp, by simp [Function.comp_def], fun f hf => ?_⟩
      rw [size_nil] at hf
      obtain rfl : f = 0 := by omega
      rw [off_zero, off_zero]
    | d :: dims, (n, s) :: axes =>
      rw [attempt]
      obtain ⟨g, e1, e2, e3, e4, e5, e6⟩ := takeGroup_spec (fuel := dims.length + axes.length + 1) (np := d) (op := n)
        (g := ⟨[d], [(n, s)], dims, axes⟩) (by simp [shapeSize_cons, shapeSize_nil]) (by simp)
        (by simpa [shapeSize_cons, shapeSize_nil] using hsize) hd (fun a h => (ha a h).1) (by simp)
      rw [e1]
      simp only
      simp only [List.cons_append, List.nil_append] at e2 e3
      simp only [List.length_cons, List.length_nil] at e5 e6
      split
      · rename_i hm
        have hne : g.newDims ≠ [] := by rintro h; rw [h] at e5; simp at e5
        have hne' : g.oldAxes ≠ [] := by rintro h; rw [h] at e6; simp at e6
        have p2 : 0 < size g.oldAxes := shapeSize_pos fun d hd => by
          obtain ⟨a, hx, rfl⟩ := List.mem_map.1 hd
          exact (ha a (by rw [← e3]; exact List.mem_append_left _ hx)).1
        have hs : shapeSize g.newRest = size g.oldRest := by
          rw [← e2, ← e3, shapeSize_append, size_append, e4] at hsize
          exact Nat.eq_of_mul_eq_mul_left p2 hsize
        have hlen : g.newRest.length ≤ fuel := by
          have := congrArg List.length e2
          simp only [List.length_append, List.length_cons] at this hf
          omega
        rcases ih (last := lastStride g.oldAxes) hs
          (fun d h => hd d (by rw [← e2]; exact List.mem_append_right _ h))
          (fun a h => ha a (by rw [← e3]; exact List.mem_append_right _ h)) hlen with h | ⟨axes', h1, h2, h3⟩
        · rw [h]; exact .inl rfl
        · rw [h1]
          obtain ⟨g1, g2, g3, g4⟩ := groupAxes_spec (lastStride g.oldAxes) hne
          refine .inr ⟨_, rfl, by rw [List.map_append, g3, h2, e2], fun f hf => ?_⟩
          have hsz : size (groupAxes (lastStride g.oldAxes) g.newDims) = size g.oldAxes := by
            unfold size; rw [g3, e4]; rfl
          have hsz' : size axes' = size g.oldRest := by rw [← hs, ← h2]; rfl
          rw [← e3] at hf ⊢
          have hf' := hf
          rw [size_append] at hf'
          have hp : 0 < size g.oldRest := Nat.pos_of_ne_zero fun h0 => by rw [h0] at hf'; simp at hf'
          rw [off_append _ _ (by rw [size_append, hsz, hsz', ← size_append]; exact hf), off_append _ _ hf, hsz',
            h3 _ (Nat.mod_lt _ hp), off_merge g4 g1, off_merge hne' hm, g2]
      · exact .inl rfl

theorem attemptNoCopy_spec {shape : List Nat} {axes : List (Nat × Int)} (hsize : shapeSize shape = size axes)
    (h0 : 0 < size axes) :
    attemptNoCopy shape axes = .impossible ∨
    ∃ axes', attemptNoCopy shape axes = .view axes' ∧ axes'.map Prod.fst = shape ∧
      ∀ f < size axes, off axes' f = off axes f := by
  have ha : ∀ a ∈ axes.filter fun a => a.1 ≠ 1, 0 < a.1 ∧ a.1 ≠ 1 := by
    intro a h
    rw [List.mem_filter] at h
    exact ⟨pos_of_shapeSize_pos h0 a.1 (List.mem_map_of_mem h.1), by simpa using h.2⟩
  rcases attempt_spec (fuel := shape.length) (last := 1) (hsize.trans (size_filter axes).symm)
    (pos_of_shapeSize_pos (by rw [hsize]; exact h0)) ha (Nat.le_refl _) with h | ⟨axes', h1, h2, h3⟩
  · exact .inl h
  · refine .inr ⟨axes', h1, h2, fun f hf => ?_⟩
    rw [h3 f (by rw [size_filter]; exact hf), off_filter _ hf]

/-! ### Row-major order -/

theorem rowMajor_shape (shape : List Nat) : (rowMajor shape).map Prod.fst = shape := by
  induction shape with
  | nil => rfl
  | cons n shape ih => rw [rowMajor, List.map_cons, ih]

theorem map_nonzero {shape : List Nat} (h : 0 ∉ shape) : (shape.map fun m => if m = 0 then 1 else m) = shape := by
  induction shape with
  | nil => rfl
  | cons n shape ih =>
    rw [List.mem_cons, not_or] at h
    rw [List.map_cons, ih h.2, if_neg (Ne.symm h.1)]

theorem location_rowMajor {shape idx : List Nat} (h : ValidIdx shape idx) :
    location (rowMajor shape) idx = offset shape idx := by
  induction h with
  | nil => rfl
  | @cons n i shape idx hi ht ih =>
    rw [rowMajor, location, ih, map_nonzero (not_mem_of_valid ht), offset, Int.mul_comm]
    push_cast
    rfl

/-- In a contiguous array, the position in memory is the one in row-major order. -/
theorem contiguousSize_spec {axes : List (Nat × Int)} {n : Nat} (h : contiguousSize axes = some n) :
    n = size axes ∧ ∀ idx, ValidIdx (axes.map Prod.fst) idx →
      location axes idx = offset (axes.map Prod.fst) idx := by
  induction axes generalizing n with
  | nil =>
    cases h
    exact ⟨rfl, fun idx hi => by cases hi; rfl⟩
  | cons a axes ih =>
    obtain ⟨d, s⟩ := a
    rw [contiguousSize] at h
    split at h
    · cases h
    · rename_i k h1
      obtain ⟨rfl, h3⟩ := ih h1
      split at h
      · subst d
        cases h
        refine ⟨by rw [size_cons, Nat.one_mul], fun idx hi => ?_⟩
        cases hi with
        | @cons _ i _ idx hi ht =>
          obtain rfl : i = 0 := by omega
          rw [location, h3 _ ht, List.map_cons, offset]; simp
      · split at h
        · subst s
          cases h
          refine ⟨by rw [size_cons, Nat.mul_comm], fun idx hi => ?_⟩
          cases hi with
          | @cons _ i _ idx hi ht =>
            rw [location, h3 _ ht, List.map_cons, offset, Int.mul_comm]
            push_cast
            rfl
        · cases h

/-- An array is contiguous iff all elements are where they are in row-major order. -/
theorem contiguousSize_iff {axes : List (Nat × Int)} (hp : ∀ n ∈ axes.map Prod.fst, 0 < n) :
    (contiguousSize axes).isSome ↔
      ∀ idx, ValidIdx (axes.map Prod.fst) idx → location axes idx = offset (axes.map Prod.fst) idx := by
  constructor
  · intro h
    obtain ⟨n, h⟩ := Option.isSome_iff_exists.1 h
    exact (contiguousSize_spec h).2
  · intro h
    induction axes with
    | nil => rfl
    | cons a axes ih =>
      obtain ⟨d, s⟩ := a
      rw [List.map_cons] at hp h
      have hp' : ∀ n ∈ axes.map Prod.fst, 0 < n := fun m hm => hp m (List.mem_cons_of_mem _ hm)
      have hn := hp d List.mem_cons_self
      have h1 := ih hp' fun idx hi => by
        have := h (0 :: idx) (.cons hn hi)
        rw [location, offset] at this
        simpa using this
      obtain ⟨k, h2⟩ := Option.isSome_iff_exists.1 h1
      have h3 := (contiguousSize_spec h2).1
      rw [contiguousSize, h2]
      simp only
      split
      · rfl
      · obtain ⟨idx, hi, ho⟩ := exists_idx (shapeSize_pos hp')
        have h4 := h (1 :: idx) (.cons (by omega) hi)
        have h5 := h (0 :: idx) (.cons hn hi)
        rw [location, offset, ho] at h4 h5
        have h6 : s = k := by
          rw [h3]
          unfold size
          push_cast at h4 h5
          simp only [Int.mul_one, Int.mul_zero, Int.one_mul, Int.zero_mul, Int.zero_add, Int.add_zero] at h4 h5
          omega
        rw [if_pos h6]
        rfl

theorem isContiguous_iff {axes : List (Nat × Int)} :
    isContiguous axes = true ↔
      ∀ idx, ValidIdx (axes.map Prod.fst) idx → location axes idx = offset (axes.map Prod.fst) idx := by
  unfold isContiguous
  by_cases h0 : 0 ∈ axes.map Prod.fst
  · simp only [h0, decide_true, Bool.true_or, true_iff]
    intro idx hi
    exact absurd h0 (not_mem_of_valid hi)
  · simp only [h0, decide_false, Bool.false_or]
    exact contiguousSize_iff fun n hn => Nat.pos_of_ne_zero fun h => h0 (h ▸ hn)

theorem isContiguous_rowMajor (shape : List Nat) : isContiguous (rowMajor shape) = true := by
  rw [isContiguous_iff, rowMajor_shape]
  exact fun idx h => location_rowMajor h

/-! ### Each function does the same as without strides -/

theorem toNumpy_shape (a : NumpyView) : a.toNumpy.array.shape = a.shape := rfl

theorem toNumpy_get {a : NumpyView} {idx : List Nat} (h : ValidIdx a.shape idx) :
    a.toNumpy.array.get idx = a.get idx := NdArray.get_build h _

theorem numpy_ext {a b : NumpyArray} (h : a.array = b.array) : a = b := by
  obtain ⟨a, _⟩ := a
  obtain ⟨b, _⟩ := b
  cases h
  rfl

/-- Arrays with the same elements in row-major order. -/
theorem reshaped {a b : NumpyView} (hsize : shapeSize b.shape = shapeSize a.shape)
    (h : ∀ idx idx', ValidIdx b.shape idx → ValidIdx a.shape idx' → offset b.shape idx = offset a.shape idx' →
      b.get idx = a.get idx') :
    b.toNumpy.array = { a.toNumpy.array with shape := b.shape } := by
  refine NdArray.ext_get b.toNumpy.complete ?_ rfl fun idx hi => ?_
  · exact a.toNumpy.complete.trans hsize.symm
  · change ValidIdx b.shape idx at hi
    have hlt := offset_lt hi
    rw [hsize] at hlt
    obtain ⟨idx', h1, h2⟩ := exists_idx hlt
    rw [toNumpy_get hi, h idx idx' hi h1 h2.symm, ← toNumpy_get h1]
    change a.toNumpy.array.elements.getD (offset a.shape idx') 0 = a.toNumpy.array.elements.getD (offset b.shape idx) 0
    rw [h2]

theorem fresh_shape (shape : List Nat) (elements : List Elt) : (fresh shape elements).shape = shape :=
  rowMajor_shape shape

theorem fresh_get {shape idx : List Nat} (elements : List Elt) (h : ValidIdx shape idx) :
    (fresh shape elements).get idx = elements.getD (offset shape idx) 0 := by
  unfold get fresh at'
  simp only
  rw [location_rowMajor h, Int.zero_add, if_neg (by omega), Int.toNat_natCast]

theorem copy_toNumpy {a : NumpyView} {shape : List Nat} (h : shapeSize shape = shapeSize a.shape) :
    (a.copy shape).toNumpy.array = { a.toNumpy.array with shape } := by
  have := reshaped (a := a) (b := a.copy shape) (by unfold copy; rw [fresh_shape]; exact h)
    (fun idx idx' h1 h2 h3 => by
      unfold copy at h1 h3 ⊢
      rw [fresh_shape] at h1 h3
      rw [fresh_get _ h1, h3, ← toNumpy_get h2]
      rfl)
  rw [this]
  unfold copy
  rw [fresh_shape]

/-- The cases of `reshape` when the sizes are the same. -/
theorem reshape_cases {a : NumpyView} {shape : List Nat} (h : shapeSize shape = shapeSize a.shape) :
    a.reshape shape = (a.copy shape, .ok ()) ∨
    ∃ axes, a.reshape shape = ({ a with axes }, .ok ()) ∧ axes.map Prod.fst = shape ∧
      ∀ idx idx', ValidIdx shape idx → ValidIdx a.shape idx' → offset shape idx = offset a.shape idx' →
        location axes idx = location a.axes idx' := by
  unfold reshape
  split
  · rename_i h1
    refine .inr ⟨a.axes, rfl, h1.symm, fun idx idx' h2 h3 h4 => ?_⟩
    subst h1
    rw [location_eq_off h2, location_eq_off h3]
    exact congrArg _ h4
  · split
    · rename_i h1
      exact absurd h h1
    · split
      · rename_i hc
        refine .inr ⟨_, rfl, rowMajor_shape shape, fun idx idx' h2 h3 h4 => ?_⟩
        rw [location_rowMajor h2, isContiguous_iff.1 hc _ h3]
        exact congrArg _ h4
      · rename_i hc
        have h0 : 0 < size a.axes := by
          refine shapeSize_pos fun n hn => Nat.pos_of_ne_zero ?_
          rintro rfl
          refine hc ?_
          unfold isContiguous
          simp only [hn, decide_true, Bool.true_or]
        rcases attemptNoCopy_spec (shape := shape) (axes := a.axes) h h0 with h1 | ⟨axes, h1, h2, h3⟩
        · rw [h1]; exact .inl rfl
        · rw [h1]
          refine .inr ⟨axes, rfl, h2, fun idx idx' h4 h5 h6 => ?_⟩
          have h4' := h4
          rw [← h2] at h4'
          rw [location_eq_off h4', location_eq_off h5, h2, h6]
          exact h3 _ (offset_lt h5)

theorem reshape_toNumpy (a : NumpyView) (shape : List Nat) :
    NumpyArray.reshape a.toNumpy shape = ((a.reshape shape).1.toNumpy, (a.reshape shape).2) := by
  unfold NumpyArray.reshape
  split
  · rename_i h
    change shapeSize shape = shapeSize a.shape at h
    rcases reshape_cases h with h1 | ⟨axes, h1, h2, h3⟩
    · rw [h1]
      refine Prod.ext (numpy_ext ?_) rfl
      exact (copy_toNumpy h).symm
    · rw [h1]
      refine Prod.ext (numpy_ext ?_) rfl
      have hsh : ({ a with axes } : NumpyView).shape = shape := h2
      have := reshaped (a := a) (b := { a with axes }) (by rw [hsh]; exact h) (fun idx idx' h4 h5 h6 => by
        rw [hsh] at h4 h6
        unfold get
        simp only
        rw [h3 idx idx' h4 h5 h6]
        rfl)
      rw [hsh] at this
      exact this.symm
  · rename_i h
    change ¬ shapeSize shape = shapeSize a.shape at h
    unfold reshape
    rw [if_neg (fun h1 => h (by rw [h1])), if_pos h]

theorem location_eq_sum (axes : List (Nat × Int)) (idx : List Nat) :
    location axes idx = (List.zipWith (fun a (i : Nat) => a.2 * (i : Int)) axes idx).sum := by
  induction axes generalizing idx with
  | nil => rfl
  | cons a axes ih =>
    obtain ⟨d, s⟩ := a
    cases idx with
    | nil => rfl
    | cons i idx => rw [location, ih, List.zipWith_cons_cons, List.sum_cons]

theorem sum_set (l : List Int) (i : Nat) (x : Int) (hi : i < l.length) : (l.set i x).sum + l[i] = l.sum + x := by
  induction l generalizing i with
  | nil => simp at hi
  | cons a l ih =>
    cases i with
    | zero => simp; omega
    | succ i =>
      have := ih i (by simpa using hi)
      simp only [List.set_cons_succ, List.sum_cons, List.getElem_cons_succ]
      omega

theorem swapList_sum (l : List Int) (i j : Nat) : (swapList l i j).sum = l.sum := by
  unfold swapList
  split
  · rename_i a b ha hb
    obtain ⟨hi, rfl⟩ := List.getElem?_eq_some_iff.1 ha
    obtain ⟨hj, rfl⟩ := List.getElem?_eq_some_iff.1 hb
    have h1 := sum_set l i l[j] hi
    have h2 := sum_set (l.set i l[j]) j l[i] (by simpa using hj)
    have h3 : (l.set i l[j])[j]'(by simpa using hj) = l[j] := by
      rw [List.getElem_set]; split <;> rfl
    rw [h3] at h2
    omega
  · rfl

theorem swapList_map {α β : Type} (f : α → β) (l : List α) (i j : Nat) :
    (swapList l i j).map f = swapList (l.map f) i j := by
  unfold swapList
  rw [List.getElem?_map, List.getElem?_map]
  cases l[i]? <;> cases l[j]? <;> simp [List.map_set]

theorem location_swap {axes : List (Nat × Int)} {idx : List Nat} (hl : axes.length = idx.length) {i j : Nat}
    (hi : i < axes.length) (hj : j < axes.length) :
    location (swapList axes i j) (swapList idx i j) = location axes idx := by
  rw [location_eq_sum, location_eq_sum]
  have : List.zipWith (fun a (i : Nat) => a.2 * (i : Int)) (swapList axes i j) (swapList idx i j) =
      swapList (List.zipWith (fun a (i : Nat) => a.2 * (i : Int)) axes idx) i j := by
    apply List.ext_getElem?
    intro n
    rw [List.getElem?_zipWith, swapList_getElem? _ hi hj, swapList_getElem? _ (hl ▸ hi) (hl ▸ hj),
      swapList_getElem? _ (by simp; omega) (by simp; omega), List.getElem?_zipWith]
  rw [this, swapList_sum]

theorem location_swap' {axes : List (Nat × Int)} {idx : List Nat} (hl : axes.length = idx.length) {i j : Nat}
    (hi : i < axes.length) (hj : j < axes.length) :
    location (swapList axes i j) idx = location axes (swapList idx i j) := by
  rw [← location_swap (idx := swapList idx i j) (by rw [swapList_length]; exact hl) hi hj,
    swapList_swapList _ (hl ▸ hi) (hl ▸ hj)]

theorem shape_length (a : NumpyView) : a.shape.length = a.axes.length := List.length_map _

theorem swapAxes_toNumpy (a : NumpyView) (i j : Nat) :
    NumpyArray.swapAxes a.toNumpy i j = ((a.swapAxes i j).1.toNumpy, (a.swapAxes i j).2) := by
  unfold NumpyArray.swapAxes swapAxes
  change (if i < a.shape.length ∧ j < a.shape.length then _ else _) = _
  rw [shape_length]
  split
  · rename_i hij
    obtain ⟨hi, hj⟩ := hij
    refine Prod.ext (numpy_ext ?_) rfl
    have hsh : ({ a with axes := swapList a.axes i j } : NumpyView).shape = swapList a.shape i j :=
      swapList_map _ _ _ _
    refine NdArray.ext_get (NdArray.build_wf _ _) (NumpyView.toNumpy _).complete hsh.symm fun idx hv => ?_
    change ValidIdx (swapList a.shape i j) idx at hv
    have h1 := hv.length_eq
    rw [swapList_length, shape_length] at h1
    have hi' : i < a.shape.length := by rw [shape_length]; exact hi
    have hj' : j < a.shape.length := by rw [shape_length]; exact hj
    have hv' := swapList_valid (i := i) (j := j) (by rw [swapList_length]; exact hi') (by rw [swapList_length]; exact hj') hv
    rw [swapList_swapList _ hi' hj'] at hv'
    refine (NdArray.get_build hv _).trans ?_
    rw [toNumpy_get hv', toNumpy_get (by rw [hsh]; exact hv)]
    unfold get
    simp only
    rw [location_swap' h1 hi hj]
    rfl
  · rfl

/-! ### Arrays made by the library -/

/-- An array with its own memory, as given by `create`. -/
def IsFresh (a : NumpyView) : Prop :=
  ∃ shape elements, elements.length = shapeSize shape ∧ a = fresh shape elements

theorem offset_inj {shape x y : List Nat} (hx : ValidIdx shape x) (hy : ValidIdx shape y)
    (h : offset shape x = offset shape y) : x = y := by
  have h1 := allIdx_offset hx
  have h2 := allIdx_offset hy
  rw [h] at h1
  exact Option.some.inj (h1.symm.trans h2)

theorem write_all {shape : List Nat} {elements : List Elt} (he : elements.length = shapeSize shape)
    {a : NdArray} (ha : a.WF) (hs : a.shape = shape) :
    (fresh shape elements).write (allIdx shape) a.get = fresh shape a.elements := by
  have key : ∀ (indexes : List (List Nat)) (memory : List Elt), (∀ idx ∈ indexes, ValidIdx shape idx) →
      memory.length = shapeSize shape →
      (indexes.foldl (fun memory idx => memory.set (0 + location (rowMajor shape) idx).toNat (a.get idx)) memory).length =
        shapeSize shape ∧
      ∀ idx, ValidIdx shape idx →
        (indexes.foldl (fun memory idx => memory.set (0 + location (rowMajor shape) idx).toNat (a.get idx)) memory).getD
          (offset shape idx) 0 = if idx ∈ indexes then a.get idx else memory.getD (offset shape idx) 0 := by
    intro indexes
    induction indexes with
    | nil => intro memory _ hm; exact ⟨hm, fun idx _ => rfl⟩
    | cons x indexes ih =>
      intro memory hv hm
      have hx := hv x List.mem_cons_self
      obtain ⟨h1, h2⟩ := ih (memory.set (0 + location (rowMajor shape) x).toNat (a.get x))
        (fun i hi => hv i (List.mem_cons_of_mem _ hi)) (by rw [List.length_set]; exact hm)
      refine ⟨h1, fun idx hi => ?_⟩
      rw [List.foldl_cons, h2 idx hi]
      by_cases h3 : idx ∈ indexes
      · rw [if_pos h3, if_pos (List.mem_cons_of_mem _ h3)]
      · rw [if_neg h3, location_rowMajor hx, Int.zero_add, Int.toNat_natCast]
        have hlt := offset_lt hi
        by_cases h4 : idx = x
        · subst h4
          rw [if_pos List.mem_cons_self]
          simp [List.getD_eq_getElem?_getD, hm, hlt]
        · rw [if_neg (by simp [h3, h4])]
          have h5 : offset shape x ≠ offset shape idx := fun h => h4 (offset_inj hx hi h).symm
          simp [List.getD_eq_getElem?_getD, h5]
  obtain ⟨h1, h2⟩ := key (allIdx shape) elements (fun idx h => mem_allIdx.1 h) he
  unfold write fresh
  simp only [mk.injEq, true_and]
  have h3 : (⟨shape, (allIdx shape).foldl
      (fun memory idx => memory.set (0 + location (rowMajor shape) idx).toNat (a.get idx)) elements⟩ : NdArray) = a := by
    refine NdArray.ext_get h1 ha hs.symm fun idx hi => ?_
    have := h2 idx hi
    rw [if_pos (mem_allIdx.2 hi)] at this
    exact this
  exact congrArg NdArray.elements h3

theorem fresh_toNumpy {a : NumpyArray} : (fresh a.array.shape a.array.elements).toNumpy = a := by
  refine numpy_ext (NdArray.ext_get (NumpyView.toNumpy _).complete a.complete (fresh_shape _ _) fun idx hi => ?_)
  have hi' : ValidIdx a.array.shape idx := by
    have : (fresh a.array.shape a.array.elements).toNumpy.array.shape = a.array.shape := fresh_shape _ _
    rw [← this]; exact hi
  rw [toNumpy_get hi, fresh_get _ hi']
  rfl

theorem numpy_move_shape (output input : NumpyArray) (samples : List SampleMapping) (start stop : Nat) :
    (NumpyArray.moveSamplesFrom output input samples start stop).1.array.shape = output.array.shape ∧
    ((NumpyArray.moveSamplesFrom output input samples start stop).2 ≠ .ok () →
      (NumpyArray.moveSamplesFrom output input samples start stop).1 = output) := by
  unfold NumpyArray.moveSamplesFrom
  split
  · split
    · split
      · simp only
        split
        · exact ⟨rfl, fun h => absurd rfl h⟩
        · exact ⟨rfl, fun _ => rfl⟩
      · exact ⟨rfl, fun _ => rfl⟩
    · exact ⟨rfl, fun _ => rfl⟩
  · exact ⟨rfl, fun _ => rfl⟩

theorem move_spec {output : NumpyView} (input : NumpyView) (samples : List SampleMapping) (start stop : Nat)
    (h : IsFresh output) :
    NumpyArray.moveSamplesFrom output.toNumpy input.toNumpy samples start stop =
        ((output.moveSamplesFrom input samples start stop).1.toNumpy,
          (output.moveSamplesFrom input samples start stop).2) ∧
      IsFresh (output.moveSamplesFrom input samples start stop).1 := by
  obtain ⟨h1, h2⟩ := numpy_move_shape output.toNumpy input.toNumpy samples start stop
  unfold moveSamplesFrom
  rcases hm : NumpyArray.moveSamplesFrom output.toNumpy input.toNumpy samples start stop with ⟨a, r⟩
  rw [hm] at h1 h2
  cases r with
  | ok u =>
    obtain ⟨shape, elements, he, rfl⟩ := h
    have hs : a.array.shape = shape := h1.trans (fresh_shape _ _)
    have hw : (fresh shape elements).write (allIdx (fresh shape elements).shape) a.array.get =
        fresh a.array.shape a.array.elements := by
      rw [fresh_shape, write_all he a.complete hs, hs]
    simp only
    rw [hw, fresh_toNumpy]
    exact ⟨rfl, _, _, a.complete, rfl⟩
  | err e =>
    refine ⟨?_, h⟩
    rw [← h2 (by simp)]
  | panic m =>
    refine ⟨?_, h⟩
    rw [← h2 (by simp)]

/-- The callbacks of arrays with strides do the same as the ones of arrays without them. -/
theorem sameCallbacks : SameCallbacks toNumpy IsFresh where
  origin := SameViews.origin_id fun _ => rfl
  shape _ := rfl
  reshape := reshape_toNumpy
  swapAxes := swapAxes_toNumpy
  create a shape := by
    change (.ok (NumpyArray.build shape fun _ => 0) : Res NumpyArray) = .ok (toNumpy _)
    refine congrArg _ (numpy_ext (NdArray.ext_get (NdArray.build_wf _ _) (NumpyView.toNumpy _).complete
      (fresh_shape _ _).symm fun idx hi => ?_))
    change ValidIdx shape idx at hi
    rw [toNumpy_get (by rw [fresh_shape]; exact hi), fresh_get _ hi]
    refine (NdArray.get_build hi _).trans ?_
    have hlt := offset_lt hi
    simp [List.getD_eq_getElem?_getD, hlt]
  created a shape a' h := by
    cases h
    exact ⟨shape, _, List.length_replicate, rfl⟩
  move output input samples start stop h := (move_spec input samples start stop h).1
  moved output input samples start stop h := (move_spec input samples start stop h).2

/-! ### Reading data -/

theorem data_contiguous {a : NumpyView} (h : isContiguous a.axes = true) : a.data = .ok a.toNumpy.array.elements := by
  unfold data
  rw [if_pos h]
  refine congrArg _ ?_
  have : (⟨a.shape, (List.range (shapeSize a.shape)).map fun n => a.at' (a.start + (n : Nat))⟩ : NdArray) =
      a.toNumpy.array := by
    refine NdArray.ext_get (by simp [NdArray.WF]) a.toNumpy.complete rfl fun idx hi => ?_
    have hlt := offset_lt hi
    change shapeSize _ > _ at hlt
    rw [toNumpy_get hi]
    unfold NdArray.get get
    rw [isContiguous_iff.1 h idx hi]
    simp only at hlt ⊢
    simp [List.getD_eq_getElem?_getD, hlt]
    rfl
  exact congrArg NdArray.elements this

theorem isFresh_contiguous {a : NumpyView} (h : IsFresh a) : isContiguous a.axes = true := by
  obtain ⟨shape, elements, _, rfl⟩ := h
  exact isContiguous_rowMajor shape

/-! ### Layout after moving components -/

open Strided (offset_zeros zeros_valid validIdx_append_inv shapeSize_one)

theorem location_append {s t : List (Nat × Int)} {i j : List Nat} (h : s.length = i.length) :
    location (s ++ t) (i ++ j) = location s i + location t j := by
  rw [location_eq_sum, location_eq_sum, location_eq_sum, List.zipWith_append h, List.sum_append]

theorem location_zeros (axes : List (Nat × Int)) (idx : List Nat) : location axes (idx.map fun _ => 0) = 0 := by
  induction idx generalizing axes with
  | nil => cases axes <;> rfl
  | cons i idx ih =>
    cases axes with
    | nil => rfl
    | cons a axes => obtain ⟨d, s⟩ := a; rw [List.map_cons, location, ih]; simp

/-- Position of the last index in memory. -/
theorem location_last {axes : List (Nat × Int)} {s : List Nat} (h : axes.length = s.length + 1) (q : Nat) :
    location axes (s.map (fun _ => 0) ++ [q]) = q * location axes (s.map (fun _ => 0) ++ [1]) := by
  obtain ⟨axes, x, rfl⟩ : ∃ l x, axes = l ++ [x] :=
    ⟨axes.dropLast, axes.getLast (by rintro rfl; simp at h), by rw [List.dropLast_append_getLast]⟩
  have hl : axes.length = (s.map fun _ => 0).length := by simpa using h
  rw [location_append hl, location_append hl, location_zeros]
  obtain ⟨d, x⟩ := x
  simp [location, Int.mul_comm]

/-- Position of an element after exchanging axes of a contiguous array. -/
theorem location_swapped {axes : List (Nat × Int)} (hs : isContiguous axes = true) {i j : Nat}
    (hi : i < axes.length) (hj : j < axes.length) {idx : List Nat}
    (hv : ValidIdx (swapList (axes.map Prod.fst) i j) idx) :
    location (swapList axes i j) idx = offset (axes.map Prod.fst) (swapList idx i j) := by
  have hlen := hv.length_eq
  rw [swapList_length, List.length_map] at hlen
  have hi' : i < (axes.map Prod.fst).length := by rw [List.length_map]; exact hi
  have hj' : j < (axes.map Prod.fst).length := by rw [List.length_map]; exact hj
  have hv' := swapList_valid (i := i) (j := j)
    (by rw [swapList_length]; exact hi') (by rw [swapList_length]; exact hj') hv
  rw [swapList_swapList _ hi' hj'] at hv'
  rw [location_swap' hlen hi hj, isContiguous_iff.1 hs _ hv']

/-- Exchanging an axis with others of length 1 keeps the order. -/
theorem swap_ones {axes : List (Nat × Int)} (hs : isContiguous axes = true) {pre m : List Nat}
    {nc y np : Nat} (hshape : axes.map Prod.fst = pre ++ nc :: m ++ y :: [np]) (h1 : shapeSize (m ++ [y]) = 1) :
    isContiguous (swapList axes pre.length (pre.length + 1 + m.length)) = true := by
  have hlen0 : axes.length = (pre ++ nc :: m ++ y :: [np]).length := by rw [← hshape, List.length_map]
  have hi : pre.length < axes.length := by rw [hlen0]; simp
  have hj : pre.length + 1 + m.length < axes.length := by rw [hlen0]; simp; omega
  rw [isContiguous_iff, swapList_map]
  intro idx hv
  rw [location_swapped hs hi hj hv]
  have he : swapList (axes.map Prod.fst) pre.length (pre.length + 1 + m.length) = pre ++ y :: m ++ nc :: [np] := by
    rw [hshape, swapList_append]
  rw [he] at hv ⊢
  rw [hshape]
  obtain ⟨k, j, rfl, hk, hj⟩ := validIdx_append_inv (s := pre ++ y :: m) hv
  obtain ⟨k, w, rfl, hkp, hw⟩ := validIdx_append_inv hk
  cases hw with
  | @cons _ u _ w hu hw =>
    cases hj with
    | @cons _ jc _ j hjc hj =>
      cases hj with
      | @cons _ jp _ j hjp hj =>
        cases hj
        have e1 := hkp.length_eq
        have e2 := hw.length_eq
        have hsw := swapList_append k w [jp] u jc
        rw [← e1, ← e2] at hsw
        rw [hsw]
        rw [shapeSize_append, shapeSize_cons, shapeSize_nil, Nat.mul_one] at h1
        have hy : y = 1 := Nat.eq_one_of_mul_eq_one_left h1
        have hm : shapeSize m = 1 := Nat.eq_one_of_mul_eq_one_right h1
        subst hy
        obtain rfl : u = 0 := by omega
        have e3 : (pre ++ nc :: m).length = (k ++ jc :: w).length := by simp [e1, e2]
        have e4 : (pre ++ 1 :: m).length = (k ++ 0 :: w).length := by simp [e1, e2]
        rw [offset_append e3, offset_append e4, offset_append e1, offset_append e1]
        simp only [offset, shapeSize_one hm hw, shapeSize_cons, shapeSize_nil, hm]
        simp only [Nat.mul_one, Nat.one_mul, Nat.zero_mul, Nat.add_zero, Nat.zero_add, Nat.add_mul, Nat.mul_assoc,
          Nat.add_assoc]

/-- Reshaping a contiguous array gives a contiguous array. -/
theorem reshape_contiguous {a b : NumpyView} {shape : List Nat} (hs : isContiguous a.axes = true)
    (h : a.reshape shape = (b, .ok ())) : isContiguous b.axes = true := by
  unfold reshape at h
  split at h
  · cases h; exact hs
  · split at h
    · cases h
    · cases h
      exact isContiguous_rowMajor shape

/-- `components_to_properties` gives a contiguous array when there are at least two entries in the moved component and
in the properties. -/
theorem moved_contiguous {a b : NumpyView} (hs : isContiguous a.axes = true) {pre m : List Nat}
    {nc y np : Nat} (hshape : a.shape = pre ++ nc :: m ++ y :: [np]) (hnc : nc ≠ 1) (hnp : np ≠ 1)
    {front : List Nat} (hfront : shapeSize front = shapeSize (pre ++ y :: m))
    (hb : reshape { a with axes := swapList a.axes pre.length (pre.length + 1 + m.length) } (front ++ [nc * np]) =
      (b, .ok ())) :
    isContiguous b.axes = true := by
  have hlen0 : a.axes.length = (pre ++ nc :: m ++ y :: [np]).length := by rw [← hshape, shape_length]
  have hi : pre.length < a.axes.length := by rw [hlen0]; simp
  have hj : pre.length + 1 + m.length < a.axes.length := by rw [hlen0]; simp; omega
  generalize hd : ({ a with axes := swapList a.axes pre.length (pre.length + 1 + m.length) } : NumpyView) = d at hb
  have hda : d.axes = swapList a.axes pre.length (pre.length + 1 + m.length) := by rw [← hd]
  have hds : d.shape = swapList a.shape pre.length (pre.length + 1 + m.length) := by
    unfold shape; rw [hda, swapList_map]
  have he : d.shape = pre ++ y :: m ++ nc :: [np] := by
    rw [hds, hshape, swapList_append]
  have hsize : shapeSize (front ++ [nc * np]) = shapeSize d.shape := by
    rw [he, shapeSize_append, shapeSize_append (pre ++ y :: m), hfront]
    simp [shapeSize_cons, shapeSize_nil]
  rcases reshape_cases hsize with h1 | ⟨axes, h1, h2, h6⟩
  · obtain rfl : d.copy _ = b := congrArg Prod.fst (h1.symm.trans hb)
    exact isContiguous_rowMajor _
  · obtain rfl : ({ d with axes } : NumpyView) = b := congrArg Prod.fst (h1.symm.trans hb)
    change isContiguous axes = true
    by_cases h0 : 0 ∈ d.shape
    · have : 0 ∈ front ++ [nc * np] := by
        by_contra hn
        have hpos := shapeSize_pos fun n hn' => Nat.pos_of_ne_zero fun h => hn (h ▸ hn')
        rw [hsize] at hpos
        exact Nat.lt_irrefl _ (pos_of_shapeSize_pos hpos 0 h0)
      unfold isContiguous
      rw [h2]
      simp only [this, decide_true, Bool.true_or]
    · have hpos : ∀ n ∈ pre ++ y :: m ++ nc :: [np], 0 < n := fun n hn =>
        Nat.pos_of_ne_zero fun h => h0 (by rw [he]; exact h ▸ hn)
      have hnc' : 0 < nc := hpos nc (by simp)
      have hnp' : 0 < np := hpos np (by simp)
      have hfirst : ∀ n ∈ pre ++ y :: m, 0 < n := fun n hn => hpos n (List.mem_append_left _ hn)
      let Z := (pre ++ y :: m).map fun _ => 0
      have hZ : ValidIdx (pre ++ y :: m) Z := zeros_valid hfirst
      let F := front.map fun _ => 0
      have hF : ValidIdx front F := zeros_valid (pos_of_shapeSize_pos (by rw [hfront]; exact shapeSize_pos hfirst))
      -- where an element with only the two last indexes not zero is
      have key : ∀ jc jp, jc < nc → jp < np → location axes (F ++ [jc * np + jp]) =
          (jc * (shapeSize (m ++ [y]) * np) + jp : Nat) := by
        intro jc jp hjc hjp
        have hlt : jc * np + jp < nc * np := by
          have := Nat.mul_le_mul_right np (Nat.succ_le_of_lt hjc)
          rw [Nat.succ_mul] at this
          omega
        have v1 : ValidIdx (front ++ [nc * np]) (F ++ [jc * np + jp]) :=
          NdArray.validIdx_append hF (.cons hlt .nil)
        have v2 : ValidIdx d.shape (Z ++ [jc, jp]) := by
          rw [he]; exact NdArray.validIdx_append hZ (.cons hjc (.cons hjp .nil))
        rw [h6 _ _ v1 v2 (by
          rw [he, offset_append (hF.length_eq), offset_append hZ.length_eq]
          rw [offset_zeros, offset_zeros]
          simp [offset, shapeSize_cons, shapeSize_nil])]
        rw [hds] at v2
        rw [hda, location_swapped hs hi hj v2]
        have hsw := swapList_append (pre.map fun _ => 0) (m.map fun _ => 0) [jp] 0 jc
        rw [List.length_map, List.length_map] at hsw
        have hZ' : Z ++ [jc, jp] = (pre.map fun _ => 0) ++ 0 :: (m.map fun _ => 0) ++ jc :: [jp] := by
          simp [Z]
        change (offset a.shape _ : Int) = _
        rw [hZ', hsw, hshape, offset_append (by simp), offset_append (by simp), offset_zeros]
        simp only [offset, offset_zeros, shapeSize_append, shapeSize_cons, shapeSize_nil]
        simp [Int.mul_assoc]
      have hbl : axes.length = front.length + 1 := by
        have := congrArg List.length h2
        rw [List.length_map, List.length_append] at this
        exact this
      have k1 := key 0 1 (by omega) (by omega)
      have k2 := key 1 0 (by omega) (by omega)
      have k3 := location_last hbl np
      rw [Nat.zero_mul, Nat.zero_mul, Nat.zero_add] at k1
      rw [Nat.one_mul, Nat.one_mul, Nat.add_zero, Nat.add_zero] at k2
      change location axes (F ++ [np]) = np * location axes (F ++ [1]) at k3
      rw [k2, k1] at k3
      have hone : shapeSize (m ++ [y]) = 1 := by
        have : shapeSize (m ++ [y]) * np = 1 * np := by rw [Nat.one_mul]; omega
        exact Nat.eq_of_mul_eq_mul_right hnp' this
      have hst := swap_ones hs hshape hone
      rw [← hda] at hst
      have := reshape_contiguous hst hb
      exact this

end NumpyView
end Equistore
