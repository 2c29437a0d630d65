import Verif.Lemmas.RustArrays
import Verif.Lemmas.NdArray

/-!
# C104: an `eqs_array_t` made from an array of Rust does what the array does
-/

namespace Equistore
namespace Props

open RustArrays Spec.RustArrays

/-! ### The arrays of the crate -/

private theorem noNul_ok {α : Type} (a : α) : NoNul (.ok a : Except String α) := fun _ h => by cases h

private theorem noNul_error {α : Type} (m : String) (h : '\x00' ∉ m.toList) : NoNul (.error m : Except String α) := by
  intro m' h'
  cases h'
  exact h

private theorem noNul_panics (m : String) (h : '\x00' ∉ m.toList) (r : Res Unit) : NoNul (panics m r) := by
  unfold panics
  split
  · exact noNul_ok ()
  · exact noNul_error m h

private theorem reshape_ok {a : NdArray} (h : CrateOk (.ndarray a)) (dims : List Nat) :
    CrateOk (.ndarray (a.reshape dims).1) := by
  unfold NdArray.reshape
  split
  · rename_i hs
    show a.elements.length = shapeSize dims
    rw [hs]
    exact h
  · rfl

private theorem swapAxes_ok {a : NdArray} (h : CrateOk (.ndarray a)) (i j : Nat) :
    CrateOk (.ndarray (a.swapAxes i j).1) := by
  unfold NdArray.swapAxes
  split
  · exact NdArray.build_wf _ _
  · exact h

private theorem moveOne_ok {a b c : NdArray} {m : SampleMapping} {start stop : Nat}
    (h : NdArray.moveOne a b m start stop = some c) : CrateOk (.ndarray c) := by
  unfold NdArray.moveOne at h
  split at h
  · split at h
    · split at h
      · cases h
      · simp only at h
        split at h
        · cases h
          exact NdArray.build_wf _ _
        · cases h
    · cases h
  · cases h

private theorem move_ok {a : NdArray} (h : CrateOk (.ndarray a)) (b : NdArray) (samples : List SampleMapping)
    (start stop : Nat) : CrateOk (.ndarray (a.moveSamplesFrom b samples start stop).1) := by
  unfold NdArray.moveSamplesFrom
  split
  · clear * - h
    induction samples generalizing a with
    | nil => exact h
    | cons m samples ih =>
      unfold NdArray.moveLoop
      split
      · rename_i c hc
        exact ih (moveOne_ok hc)
      · exact h
  · exact h

/-- The arrays of the crate do what the callbacks need. -/
theorem C104_crate_honest : Honest CrateOk where
  data
    | .ndarray a, shape, data, h, hs, hd => by cases hs; cases hd; exact h
    | .empty a, shape, data, h, hs, hd => by cases hd
  origin_nul
    | .ndarray a, _ => noNul_ok _
    | .empty a, _ => noNul_ok _
  shape_nul
    | .ndarray a, _ => noNul_ok _
    | .empty a, _ => noNul_ok _
  data_nul
    | .ndarray a, _ => noNul_ok _
    | .empty a, _ => noNul_error _ (by decide)
  copy_nul
    | .ndarray a, _ => noNul_ok _
    | .empty a, _ => noNul_ok _
  create_nul
    | .ndarray a, _, _ => noNul_ok _
    | .empty a, _, _ => noNul_ok _
  reshape_nul
    | .ndarray a, _, _ => noNul_panics _ (by decide) _
    | .empty a, _, _ => noNul_ok _
  swap_nul
    | .ndarray a, _, _, _ => noNul_panics _ (by decide) _
    | .empty a, i, j, _ => by
      simp only [DynArray.swapAxes]
      split
      · exact noNul_ok _
      · exact noNul_error _ (by decide)
  move_nul
    | .ndarray a, .ndarray b, _, _, _, _, _ => noNul_panics _ (by decide) _
    | .ndarray a, .empty b, _, _, _, _, _ => noNul_error _ (by decide)
    | .empty a, _, _, _, _, _, _ => noNul_error _ (by decide)
  copy
    | .ndarray a, d', h, hd => by cases hd; exact h
    | .empty a, d', h, hd => by cases hd; exact h
  create
    | .ndarray a, d', dims, h, hd => by cases hd; exact NdArray.build_wf _ _
    | .empty a, d', dims, h, hd => by cases hd; trivial
  reshape
    | .ndarray a, dims, h => reshape_ok h dims
    | .empty a, dims, h => trivial
  swap
    | .ndarray a, i, j, h => swapAxes_ok h i j
    | .empty a, i, j, h => by
      simp only [DynArray.swapAxes]
      split <;> trivial
  move
    | .ndarray a, .ndarray b, samples, start, stop, h, _ => move_ok h b samples start stop
    | .ndarray a, .empty b, samples, start, stop, h, _ => h
    | .empty a, _, samples, start, stop, h, _ => trivial

/-! ### Programs -/

/-- The full property: for all types implementing the trait, programs using `eqs_array_t` do the same as programs using the
arrays directly, and free each array once. -/
def C104_full_statement : Prop :=
  ∀ (D : Type) [DynArray D] (thread : ThreadId) (foreign : Foreign D) (own : Nat) (program : List (Cmd D)),
    Agrees thread foreign own program

/-- **C104** (partial): this is true when arrays have data for their whole shape, and messages of panics do not contain NUL.
The trait asks for neither. -/
theorem C104_partial {D : Type} [DynArray D] (Good : D → Prop) (honest : Honest Good) (thread : ThreadId)
    (foreign : Foreign D) (own : Nat) (program : List (Cmd D)) (uses : ∀ c ∈ program, c.Uses Good) :
    Agrees thread foreign own program := by
  intro v answers h
  obtain ⟨m, addresses, hm, hs⟩ := all_spec (foreign := foreign) honest program uses same_start h
  exact ⟨m, hm, hs.messages, addresses, hs.once, hs.arrays, hs.complete⟩

/-- **C104**, for the arrays of the crate: programs with `ndarray` arrays and `EmptyArray`, where `ndarray` keeps its own
invariant. -/
theorem C104_crate (thread : ThreadId) (foreign : Foreign CrateArray) (own : Nat) (program : List (Cmd CrateArray))
    (uses : ∀ c ∈ program, c.Uses CrateOk) : Agrees thread foreign own program :=
  C104_partial CrateOk C104_crate_honest thread foreign own program uses

private theorem ends {D α : Type} {x : CAct (State D) α} {s s' : State D} {r r' : Res α} {boxes : Nat → Option D}
    (h : x s = some (s', r')) (hr : r' = r) (hb : s'.boxes = boxes) : Ends x s r boxes :=
  ⟨s', by rw [h, hr], hb⟩

private theorem outcome_panics (name message : String) (r : Res Unit)
    (h : r = .ok () ∨ r = .err (NdArray.failed name)) : outcome name (panics message r) = r := by
  rcases h with h | h <;> subst h <;> rfl

private theorem reshape_cases (a : NdArray) (dims : List Nat) :
    (a.reshape dims).2 = .ok () ∨ (a.reshape dims).2 = .err (NdArray.failed "reshape") := by
  unfold NdArray.reshape
  split <;> simp

private theorem swap_cases (a : NdArray) (i j : Nat) :
    (a.swapAxes i j).2 = .ok () ∨ (a.swapAxes i j).2 = .err (NdArray.failed "swap_axes") := by
  unfold NdArray.swapAxes
  split <;> simp

private theorem move_cases (a b : NdArray) (samples : List SampleMapping) (start stop : Nat) :
    (a.moveSamplesFrom b samples start stop).2 = .ok () ∨
      (a.moveSamplesFrom b samples start stop).2 = .err (NdArray.failed "move_samples_from") := by
  unfold NdArray.moveSamplesFrom
  split
  · clear * -
    induction samples generalizing a with
    | nil => exact .inl rfl
    | cons m samples ih =>
      unfold NdArray.moveLoop
      split
      · exact ih _
      · exact .inr rfl
  · exact .inr rfl

/-- **C104**: the functions of `eqs_array_t` for `ndarray` arrays are the ones used by all other properties. -/
theorem C104_ndarray (foreign : Foreign CrateArray) : Implements NdArray .ndarray foreign where
  origin thread s x a h hh hb := by
    subst hh
    exact ends (getOrigin_ofBox thread foreign s x _ hb (noNul_ok _)) rfl rfl
  shape thread s x a h hh hb := by
    subst hh
    exact ends (getShape_ofBox thread foreign s x _ hb (noNul_ok _)) rfl rfl
  data thread s x a h hh hb hok := by
    subst hh
    exact ends (getData_ofBox thread foreign s x _ hb (noNul_ok _) (noNul_ok _)
      (fun shape data => C104_crate_honest.data _ shape data hok)) rfl rfl
  reshape thread s x a dims h hh hb := by
    subst hh
    exact ends (doReshape_ofBox thread foreign s x _ dims hb (noNul_panics _ (by decide) _))
      (outcome_panics _ _ _ (reshape_cases a dims)) rfl
  swapAxes thread s x a i j h hh hb := by
    subst hh
    exact ends (doSwapAxes_ofBox thread foreign s x _ i j hb (noNul_panics _ (by decide) _))
      (outcome_panics _ _ _ (swap_cases a i j)) rfl
  create thread s x a dims h hh hb := by
    subst hh
    exact ⟨_, rfl, ends (doCreate_ofBox thread foreign s x _ dims hb (noNul_ok _)) rfl rfl⟩
  clone thread s x a h hh hb := by
    subst hh
    exact ends (clone_ofBox thread foreign s x _ hb (noNul_ok _)) rfl rfl
  move thread s x y a b samples start stop h h' hh hh' hb hb' := by
    subst hh hh'
    exact ends (doMove_ofBox thread foreign s x y _ _ samples start stop hb hb' (noNul_panics _ (by decide) _))
      (outcome_panics _ _ _ (move_cases a b samples start stop)) rfl

/-- **C104**: and so are the ones for `EmptyArray`. -/
theorem C104_empty (foreign : Foreign CrateArray) : Implements EmptyArray .empty foreign where
  origin thread s x a h hh hb := by
    subst hh
    exact ends (getOrigin_ofBox thread foreign s x _ hb (noNul_ok _)) rfl rfl
  shape thread s x a h hh hb := by
    subst hh
    exact ends (getShape_ofBox thread foreign s x _ hb (noNul_ok _)) rfl rfl
  data thread s x a h hh hb hok := by
    subst hh
    exact ends (getData_ofBox thread foreign s x _ hb (noNul_ok _) (noNul_error _ (by decide))
      (fun shape data => C104_crate_honest.data _ shape data hok)) rfl rfl
  reshape thread s x a dims h hh hb := by
    subst hh
    exact ends (doReshape_ofBox thread foreign s x _ dims hb (noNul_ok _)) rfl rfl
  swapAxes thread s x a i j h hh hb := by
    subst hh
    refine ends (doSwapAxes_ofBox thread foreign s x _ i j hb (C104_crate_honest.swap_nul (.empty a) i j trivial)) ?_ ?_ <;>
      by_cases hij : i < a.shape.length ∧ j < a.shape.length <;>
      simp only [DynArray.swapAxes, ArrayLike.swapAxes, hij, if_false] <;> rfl
  create thread s x a dims h hh hb := by
    subst hh
    exact ⟨_, rfl, ends (doCreate_ofBox thread foreign s x _ dims hb (noNul_ok _)) rfl rfl⟩
  clone thread s x a h hh hb := by
    subst hh
    exact ends (clone_ofBox thread foreign s x _ hb (noNul_ok _)) rfl rfl
  move thread s x y a b samples start stop h h' hh hh' hb hb' := by
    subst hh hh'
    exact ends (doMove_ofBox thread foreign s x y _ _ samples start stop hb hb' (noNul_error _ (by decide))) rfl rfl

/-! ### Raw copies, missing functions, and other origins -/

/-- **C104**: a raw copy of any `eqs_array_t` does the same, and dropping it does nothing. -/
theorem C104_raw_copy {D : Type} [DynArray D] (thread : ThreadId) (foreign : Foreign D) (own : Nat) (a : CArrayT)
    (s : State D) :
    a.rawCopy.getOrigin thread foreign s = a.getOrigin thread foreign s ∧
    a.rawCopy.getShape thread foreign s = a.getShape thread foreign s ∧
    a.rawCopy.getData thread foreign s = a.getData thread foreign s ∧
    (∀ dims, a.rawCopy.doReshape thread foreign dims s = a.doReshape thread foreign dims s) ∧
    (∀ i j, a.rawCopy.doSwapAxes thread foreign i j s = a.doSwapAxes thread foreign i j s) ∧
    (∀ dims, a.rawCopy.doCreate thread foreign dims s = a.doCreate thread foreign dims s) ∧
    (∀ b samples start stop, a.rawCopy.doMove thread foreign b samples start stop s =
      a.doMove thread foreign b samples start stop s) ∧
    (∀ (b : CArrayT) samples start stop, b.doMove thread foreign a.rawCopy samples start stop s =
      b.doMove thread foreign a samples start stop s) ∧
    a.rawCopy.clone thread foreign s = a.clone thread foreign s ∧
    a.rawCopy.asArray thread foreign own s = a.asArray thread foreign own s ∧
    a.rawCopy.drop foreign s = some s :=
  ⟨rfl, rfl, rfl, fun _ => rfl, fun _ _ => rfl, fun _ => rfl, fun _ _ _ _ => rfl, fun _ _ _ _ => rfl, rfl, rfl, rfl⟩

/-- **C104**: but it can not be used after the array was dropped. -/
theorem C104_raw_copy_after_drop {D : Type} [DynArray D] (thread : ThreadId) (foreign : Foreign D) (d : D)
    (s s' s'' : State D) (a : CArrayT) (h : CArrayT.new d s = (s', a)) (hd : a.drop foreign s' = some s'') :
    a.rawCopy.getShape thread foreign s'' = none ∧ a.rawCopy.clone thread foreign s'' = none ∧
      a.drop foreign s'' = none := by
  cases h
  simp [CArrayT.drop, rustDestroy] at hd
  subst hd
  refine ⟨?_, ?_, ?_⟩
  · simp [CArrayT.getShape, CArrayT.rawCopy, callback, CAct.bind_apply, CAct.lift, Res.expect, checked, rustShape, catching,
      checkPointer, Res.okOr, deref]
  · simp [CArrayT.clone, CArrayT.rawCopy, rustCopy, bind, CAct.bind, CAct.lift, Res.expect, catching,
      checkPointer, Res.okOr, deref]
  · simp [CArrayT.drop, rustDestroy]

/-- **C104**: functions which are not there are panics saying so, and nothing happened. -/
theorem C104_missing {D : Type} [DynArray D] (thread : ThreadId) (foreign : Foreign D) (a : CArrayT) (s : State D) :
    (a.origin = none → a.getOrigin thread foreign s = some (s, .panic "eqs_array_t.origin function is NULL")) ∧
    (a.shape = none → a.getShape thread foreign s = some (s, .panic "eqs_array_t.shape function is NULL")) ∧
    (a.reshape = none → ∀ dims,
      a.doReshape thread foreign dims s = some (s, .panic "eqs_array_t.reshape function is NULL")) ∧
    (a.swapAxes = none → ∀ i j,
      a.doSwapAxes thread foreign i j s = some (s, .panic "eqs_array_t.swap_axes function is NULL")) ∧
    (a.create = none → ∀ dims, a.doCreate thread foreign dims s = some (s, .panic "eqs_array_t.create function is NULL")) ∧
    (a.moveSamplesFrom = none → ∀ b samples start stop, a.doMove thread foreign b samples start stop s =
      some (s, .panic "eqs_array_t.move_samples_from function is NULL")) ∧
    (a.copy = none → a.clone thread foreign s = some (s, .panic "function eqs_array_t.copy is not set")) := by
  refine ⟨fun h => ?_, fun h => ?_, fun h dims => ?_, fun h i j => ?_, fun h dims => ?_, fun h b samples start stop => ?_,
    fun h => ?_⟩
  · unfold CArrayT.getOrigin; rw [h]; rfl
  · unfold CArrayT.getShape; rw [h]; rfl
  · unfold CArrayT.doReshape; rw [h]; rfl
  · unfold CArrayT.doSwapAxes; rw [h]; rfl
  · unfold CArrayT.doCreate; rw [h]; rfl
  · unfold CArrayT.doMove; rw [h]; rfl
  · unfold CArrayT.clone; rw [h]; rfl

/-- **C104**: an array of somebody else, saying that it has another origin, is never used as an array of Rust. -/
theorem C104_other_origin {D : Type} [DynArray D] (thread : ThreadId) (foreign : Foreign D) (own id other : Nat)
    (a : CArrayT) (s s' : State D) (h : a.origin = some (.foreign id))
    (ho : foreign.origin id a.ptr s = some (s', 0, some other)) (hne : other ≠ own) (f : NdArray → NdArray) :
    a.asArray thread foreign own s = some (s', .panic "this array was not created by rust ndarray") ∧
    a.asArrayMut thread foreign own f s = some (s', .panic "this array was not created by rust ndarray") := by
  have h0 : a.getOrigin thread foreign s = some (s', .ok other) := by
    unfold CArrayT.getOrigin
    rw [h]
    simp [CAct.bind_apply, callback, CAct.lift, Res.expect, checked, ho, successStatus]
  have h1 : a.asArray thread foreign own s = some (s', .panic "this array was not created by rust ndarray") := by
    unfold CArrayT.asArray
    rw [CAct.bind_apply, unwrapOr, h0]
    simp [CAct.bind_apply, CAct.lift, Res.assert, hne]
  refine ⟨h1, ?_⟩
  unfold CArrayT.asArrayMut
  rw [CAct.bind_apply, h1]

/-! ### Counterexamples -/

namespace RustArraysExample

/-- Somebody else who is not there. -/
def nobody (D : Type) : Foreign D where
  origin _ _ _ := none
  data _ _ _ := none
  shape _ _ _ := none
  reshape _ _ _ _ := none
  swapAxes _ _ _ _ _ := none
  create _ _ _ _ := none
  copy _ _ _ := none
  destroy _ _ _ := none
  moveSamplesFrom _ _ _ _ _ _ _ := none

/-- Arrays which say that they have one element, but have no data. Their origin can not be asked for. -/
inductive Liar where
  | liar

instance : DynArray Liar where
  origin _ := .error "\x00"
  data _ := .ok []
  shape _ := .ok [1]
  reshape d _ := (d, .ok ())
  swapAxes d _ _ := (d, .ok ())
  create d _ := .ok d
  copy d := .ok d
  moveSamplesFrom d _ _ _ _ := (d, .ok ())
  ndarray _ := none
  ofNdarray _ := .liar

end RustArraysExample

open RustArraysExample

/-- **C104** is false: an array whose `data` is shorter than its `shape` is safe Rust, but the data is then read outside of the
memory. -/
theorem C104_counterexample : ¬ C104_full_statement := by
  intro h
  obtain ⟨m, hm, _⟩ := h Liar 0 (nobody _) 1 [.new .liar, .data 0] _ _ rfl
  exact absurd hm (by
    have : runAll 0 (nobody Liar) 1 [.new .liar, .data 0] Machine.start = none := by
      rw [← Option.isNone_iff_eq_none]
      decide +kernel
    rw [this]
    simp)

/-- **C104** is also false for another reason: a panic with NUL in its message leaves the callback, which is a function of
C. -/
theorem C104_counterexample_nul :
    runAll 0 (nobody Liar) 1 [.new .liar, .origin 0] Machine.start = none := by
  rw [← Option.isNone_iff_eq_none]
  decide +kernel

/-! ### Examples -/

namespace RustArraysExample

/-- A program with two arrays: moving samples, an error in `reshape`, a clone, and freeing all arrays but one. -/
def program : List (Cmd CrateArray) :=
  [.new (.ndarray ⟨[2, 1], [5, 7]⟩), .create 0 [1, 2], .move 1 0 [⟨1, 0⟩] 1 2, .data 1, .clone 1, .reshape 1 [3], .shape 1,
    .data 2, .new (.empty ⟨[4]⟩), .data 3, .asArray 3, .change 2 (fun _ => ⟨[1], [9]⟩), .asArray 2, .drop 0, .drop 1, .drop 3]

/-- It only uses good arrays. -/
example : ∀ c ∈ program, c.Uses CrateOk := by
  intro c hc
  simp only [program, List.mem_cons, List.not_mem_nil, or_false] at hc
  rcases hc with rfl | rfl | rfl | rfl | rfl | rfl | rfl | rfl | rfl | rfl | rfl | rfl | rfl | rfl | rfl | rfl <;>
    simp [Cmd.Uses, CrateOk, shapeSize, DynArray.ofNdarray]

/-- What it gets, and what is left. -/
example : (runAll 0 (nobody CrateArray) NdArray.originId program Machine.start).map
      (fun x => (x.2, (List.range x.1.state.next).map x.1.state.boxes, x.1.state.messages 0)) =
    some ([.ok .nothing, .ok .nothing, .ok .nothing, .ok (.data [0, 7]), .ok .nothing,
      .err (.external 255 "calling eqs_array_t.reshape failed"), .ok (.shape [0]), .ok (.data [0, 7]), .ok .nothing,
      .err (.external 255 "calling eqs_array_t.data failed"), .panic "this array was not created by rust ndarray",
      .ok .nothing, .ok (.array ⟨[1], [9]⟩), .ok .nothing, .ok .nothing, .ok .nothing],
      [none, none, some (.ndarray ⟨[1], [9]⟩), none], "internal error: can not call Array::data() for EmptyArray") := by
  decide +kernel

/-- Somebody else who says that they are `ndarray`: their memory is used as a box, which is undefined behaviour. -/
example : ({ CArrayT.null with ptr := some 0, origin := some (.foreign 0) }).asArray 0
      { nobody CrateArray with origin := fun _ _ s => some (s, 0, some NdArray.originId) } NdArray.originId
      ⟨fun _ => none, 0, Messages.init⟩ = none := by
  rfl

end RustArraysExample

end Props
end Equistore
