import Verif.Lemmas.Numpy
import Verif.Lemmas.BackendTensor

/-! Types of arrays which do what the documentation of the callbacks asks for. -/

namespace Equistore
open Spec NdArray

variable {A : Type} [ArrayLike A] {view : A → NdArray}

/-! ### Rust's `ndarray` -/

/-- An `ndarray::ArrayD<f64>`, which has one element for each index. -/
@[ext] structure RustArray where
  array : NdArray
  complete : ArrayOk array

theorem moveLoop_ok {input : NdArray} {start stop : Nat} {samples : List SampleMapping} {output : NdArray}
    (h : ArrayOk output) : ArrayOk (moveLoop input start stop output samples).1 := by
  induction samples generalizing output with
  | nil => exact h
  | cons m samples ih =>
    rw [moveLoop]
    split
    · rename_i out he
      refine ih ?_
      unfold moveOne at he
      split at he
      · split at he
        · split at he
          · cases he
          · dsimp only at he
            split at he
            · rw [← Option.some.inj he]
              exact build_wf _ _
            · cases he
        · cases he
      · cases he
    · exact h

/-- The callbacks of `ndarray` arrays. -/
instance : ArrayLike RustArray where
  origin a := ArrayLike.origin a.array
  data a := ArrayLike.data a.array
  shape a := ArrayLike.shape a.array
  reshape a shape := (⟨(ArrayLike.reshape a.array shape).1, by
    change ArrayOk (NdArray.reshape a.array shape).1
    unfold NdArray.reshape
    split
    · rename_i h; exact a.complete.trans h.symm
    · rfl⟩, (ArrayLike.reshape a.array shape).2)
  swapAxes a i j := (⟨(ArrayLike.swapAxes a.array i j).1, by
    change ArrayOk (NdArray.swapAxes a.array i j).1
    unfold NdArray.swapAxes
    split
    · exact build_wf _ _
    · exact a.complete⟩, (ArrayLike.swapAxes a.array i j).2)
  create a shape := .ok ⟨NdArray.create a.array shape, build_wf _ _⟩
  moveSamplesFrom output input samples start stop :=
    (⟨(ArrayLike.moveSamplesFrom output.array input.array samples start stop).1, by
      change ArrayOk (NdArray.moveSamplesFrom output.array input.array samples start stop).1
      unfold NdArray.moveSamplesFrom
      split
      · exact moveLoop_ok output.complete
      · exact output.complete⟩, (ArrayLike.moveSamplesFrom output.array input.array samples start stop).2)

theorem implements_rust : Implements RustArray.array where
  origin := ⟨_, fun _ => rfl⟩
  elements a := a.complete
  shape a := rfl
  create a shape := ⟨_, rfl, rfl, fun idx hi => get_build hi _⟩
  reshape a shape hs := by
    have h : NdArray.reshape a.array shape = ({ a.array with shape }, .ok ()) := by
      unfold NdArray.reshape
      rw [if_pos hs.symm]
    refine ⟨⟨{ a.array with shape }, a.complete.trans hs⟩, ?_, rfl, rfl⟩
    refine Prod.ext (RustArray.ext ?_) ?_
    · exact congrArg Prod.fst h
    · have h' := congrArg Prod.snd h; exact h'
  swapAxes a i j hs := by
    have h := NdArray.swapAxes_ok (a := a.array) hs.1 hs.2
    refine ⟨⟨build (swapList a.array.shape i j) fun idx => a.array.get (swapList idx i j), build_wf _ _⟩, ?_, rfl, ?_⟩
    · refine Prod.ext (RustArray.ext ?_) ?_
      · exact congrArg Prod.fst h
      · have h' := congrArg Prod.snd h; exact h'
    · intro idx hi
      exact get_build hi _
  move output input samples start stop h := by
    obtain ⟨⟨nOut, nIn, between, p, h1, h2, h3, h4, h5⟩, hnd⟩ := h
    obtain ⟨out, e1, e2, e3, e4, e5⟩ := moveLoop_spec h2 h3 h4 h5 output.complete h1
    have e : NdArray.moveSamplesFrom output.array input.array samples start stop = (out, .ok ()) := by
      unfold NdArray.moveSamplesFrom
      rw [if_pos (by rw [h1]; simp), e1]
    refine ⟨⟨out, e2⟩, ?_, e3, ?_⟩
    · refine Prod.ext (RustArray.ext ?_) ?_
      · exact congrArg Prod.fst e
      · have h' := congrArg Prod.snd e; exact h'
    · intro i k j hidx
      obtain ⟨i', k', j', he, hi, hk, hj⟩ := validIdx_split (by rw [← h1]; exact hidx)
      obtain ⟨rfl, rfl, rfl⟩ : i = i' ∧ k = k' ∧ j = j' := by
        have h6 := List.append_inj' he rfl
        rw [List.cons.injEq] at h6
        exact ⟨h6.1.1, h6.1.2, by simpa using h6.2⟩
      refine ⟨?_, ?_⟩
      · rintro m hm rfl hj1 hj2
        exact e5 hnd m hm k j hk hj1 hj2
      · intro hne
        exact e4 i k j hi hk hj fun h6 h7 m hm hmo => hne m hm hmo ⟨h6, h7⟩

/-! ### A backend which refuses everything it is not required to accept -/

/-- Arrays checking that `move_samples_from` is called as documented. -/
structure StrictArray where
  inner : NumpyArray

namespace StrictArray

/-- Whether a call to `move_samples_from` is allowed. -/
def check (output input : List Nat) (samples : List SampleMapping) (start stop : Nat) : Bool :=
  2 ≤ output.length && 2 ≤ input.length && output.tail.dropLast == input.tail.dropLast &&
  input.getLastD 0 == stop - start && start ≤ stop && stop ≤ output.getLastD 0 &&
  samples.all (fun m => m.input < input.headD 0 && m.output < output.headD 0) &&
  (samples.map (·.output)).Nodup

theorem check_of_allowed {output input : List Nat} {samples : List SampleMapping} {start stop : Nat}
    (h : MoveAllowed output input samples start stop) : check output input samples start stop = true := by
  obtain ⟨⟨nOut, nIn, between, p, rfl, rfl, h3, h4, h5⟩, hnd⟩ := h
  have hl : ∀ (n x : Nat), (n :: (between ++ [x])).getLastD 0 = x := by
    intro n x
    rw [← List.cons_append, List.getLastD_eq_getLast?, List.getLast?_concat]; rfl
  simp only [check, List.cons_append, hl, List.tail_cons, List.dropLast_concat, List.headD_cons,
    List.length_cons, List.length_append, List.length_nil]
  simp only [Bool.and_eq_true, decide_eq_true_eq, beq_iff_eq, List.all_eq_true]
  exact ⟨⟨⟨⟨⟨⟨⟨by omega, by omega⟩, trivial⟩, trivial⟩, h3⟩, h4⟩, fun m hm => ⟨decide_eq_true (h5 m hm).1, decide_eq_true (h5 m hm).2⟩⟩, hnd⟩

instance : ArrayLike StrictArray where
  origin a := ArrayLike.origin a.inner
  data a := ArrayLike.data a.inner
  shape a := ArrayLike.shape a.inner
  reshape a shape := (⟨(ArrayLike.reshape a.inner shape).1⟩, (ArrayLike.reshape a.inner shape).2)
  swapAxes a i j := (⟨(ArrayLike.swapAxes a.inner i j).1⟩, (ArrayLike.swapAxes a.inner i j).2)
  create a shape := .ok ⟨NumpyArray.build shape fun _ => 0⟩
  moveSamplesFrom output input samples start stop :=
    if check output.inner.array.shape input.inner.array.shape samples start stop then
      (⟨(ArrayLike.moveSamplesFrom output.inner input.inner samples start stop).1⟩,
        (ArrayLike.moveSamplesFrom output.inner input.inner samples start stop).2)
    else (output, .err (NumpyArray.raised "move_samples_from"))

end StrictArray

theorem implements_strict : Implements (fun a : StrictArray => a.inner.array) where
  origin := ⟨_, fun _ => rfl⟩
  elements a := implements_numpy.elements a.inner
  shape a := implements_numpy.shape a.inner
  create a shape := ⟨_, rfl, rfl, fun idx hi => get_build hi _⟩
  reshape a shape h := by
    obtain ⟨out, e1, e2⟩ := implements_numpy.reshape a.inner shape h
    refine ⟨⟨out⟩, ?_, e2⟩
    change ((⟨(ArrayLike.reshape a.inner shape).1⟩ : StrictArray), (ArrayLike.reshape a.inner shape).2) = _
    rw [e1]
  swapAxes a i j h := by
    obtain ⟨out, e1, e2⟩ := implements_numpy.swapAxes a.inner i j h
    refine ⟨⟨out⟩, ?_, e2⟩
    change ((⟨(ArrayLike.swapAxes a.inner i j).1⟩ : StrictArray), (ArrayLike.swapAxes a.inner i j).2) = _
    rw [e1]
  move output input samples start stop h := by
    obtain ⟨out, e1, e2⟩ := implements_numpy.move output.inner input.inner samples start stop h
    refine ⟨⟨out⟩, ?_, e2⟩
    change (if StrictArray.check output.inner.array.shape input.inner.array.shape samples start stop then
      ((⟨(ArrayLike.moveSamplesFrom output.inner input.inner samples start stop).1⟩ : StrictArray),
        (ArrayLike.moveSamplesFrom output.inner input.inner samples start stop).2) else _) = _
    rw [if_pos (StrictArray.check_of_allowed h), e1]

/-! ### Validity does not depend on the backend -/

theorem BasicValid.map_iff (h : Implements view) {b : BasicBlock A} :
    BasicValid (b.mapData view) ↔ BasicValid b := by
  constructor
  · rintro ⟨h1, h2, h3⟩
    refine ⟨?_, h2, h3⟩
    rw [BasicBlock.mapData_data, h.shape_map] at h1
    exact h1
  · rintro ⟨h1, h2, h3⟩
    refine ⟨?_, h2, h3⟩
    rw [BasicBlock.mapData_data, h.shape_map]
    exact h1

theorem BlockValid.map_iff (h : Implements view) {b : TensorBlock A} :
    BlockValid (b.mapData view) ↔ BlockValid b := by
  have hfst : (b.mapData view).gradients.map Prod.fst = b.gradients.map Prod.fst := by
    rw [TensorBlock.mapData_gradients, List.map_map]; rfl
  constructor
  · rintro ⟨h1, h2, h3, h4, h5⟩
    rw [hfst] at h3 h4 h5
    refine ⟨(BasicValid.map_iff h).1 h1, ?_, h3, h4, h5⟩
    intro name g hg
    obtain ⟨g1, g2, g3, g4, g5⟩ := h2 name (g.mapData view) (List.mem_map.2 ⟨(name, g), hg, rfl⟩)
    exact ⟨(BasicValid.map_iff h).1 g1, g2, g3, g4, h.origin_iff _ _⟩
  · rintro ⟨h1, h2, h3, h4, h5⟩
    refine ⟨(BasicValid.map_iff h).2 h1, ?_, by rw [hfst]; exact h3, by rw [hfst]; exact h4,
      by rw [hfst]; exact h5⟩
    intro name g hg
    obtain ⟨⟨name', g'⟩, hg', he⟩ := List.mem_map.1 hg
    rw [Prod.mk.injEq] at he
    obtain ⟨rfl, rfl⟩ := he
    obtain ⟨g1, g2, g3, g4, g5⟩ := h2 name' g' hg'
    exact ⟨(BasicValid.map_iff h).2 g1, g2, g3, g4, ⟨_, rfl, rfl⟩⟩

theorem Consistent.map_iff {b c : TensorBlock A} :
    Consistent (b.mapData view) (c.mapData view) ↔ Consistent b c := by
  constructor
  · rintro ⟨h1, h2, h3, h4⟩
    refine ⟨h1, h2, fun p => ?_, fun p g g' e e' => ?_⟩
    · have := h3 p
      rw [TensorBlock.mapData_gradient, TensorBlock.mapData_gradient, Option.isSome_map, Option.isSome_map] at this
      exact this
    · exact h4 p (g.mapData view) (g'.mapData view) (by rw [TensorBlock.mapData_gradient, e]; rfl)
        (by rw [TensorBlock.mapData_gradient, e']; rfl)
  · rintro ⟨h1, h2, h3, h4⟩
    refine ⟨h1, h2, fun p => ?_, fun p g g' e e' => ?_⟩
    · rw [TensorBlock.mapData_gradient, TensorBlock.mapData_gradient, Option.isSome_map, Option.isSome_map]
      exact h3 p
    · rw [TensorBlock.mapData_gradient, Option.map_eq_some_iff] at e e'
      obtain ⟨g₁, e1, rfl⟩ := e
      obtain ⟨g₂, e2, rfl⟩ := e'
      exact h4 p g₁ g₂ e1 e2

theorem TensorValid.map_iff (h : Implements view) {t : TensorMap A} :
    TensorValid (t.mapData view) ↔ TensorValid t := by
  constructor
  · rintro ⟨h1, h2, h3, h4⟩
    refine ⟨h1, by simpa using h2, fun b hb => ?_, fun a ha b hb => ?_⟩
    · exact (BlockValid.map_iff h).1 (h3 _ (List.mem_map_of_mem hb))
    · exact Consistent.map_iff.1 (h4 _ (List.mem_map_of_mem ha) _ (List.mem_map_of_mem hb))
  · rintro ⟨h1, h2, h3, h4⟩
    refine ⟨h1, by simpa using h2, fun b hb => ?_, fun a ha b hb => ?_⟩
    · obtain ⟨b', hb', rfl⟩ := List.mem_map.1 hb
      exact (BlockValid.map_iff h).2 (h3 b' hb')
    · obtain ⟨a', ha', rfl⟩ := List.mem_map.1 ha
      obtain ⟨b', hb', rfl⟩ := List.mem_map.1 hb
      exact Consistent.map_iff.2 (h4 a' ha' b' hb')

end Equistore
