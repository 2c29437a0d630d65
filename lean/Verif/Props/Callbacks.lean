import Verif.Lemmas.Callbacks
import Verif.Lemmas.CHeap
import Verif.Model.CStatus
import Verif.Props.Backend

/-!
# Callbacks which fail (C66)
-/

namespace Equistore
open Spec

variable {A : Type} [ArrayLike A] {view : A → NdArray}

theorem Op.SizesAgree.of_view {A' : Type} [ArrayLike A'] {view' : A' → NdArray} {build : Build} {u : TensorMap A'}
    {op : Op} (hu : TensorValid u) (hv : TensorValid (u.mapData view'))
    (h : Op.SizesAgree build (u.mapData view') op) : Op.SizesAgree build u op := by
  have key : ∀ moved, GradientSizesAgree (u.mapData view') moved → GradientSizesAgree u moved := by
    intro moved hm
    refine GradientSizesAgree.map (f := id) (g := view') ?_ hv hu hm
    rw [TensorMap.mapData_mapData]
    rfl
  cases op with
  | keysToSamples k sort => exact h.imp_right (key _)
  | keysToProperties k sort => exact h.imp_right (key _)
  | componentsToProperties names => trivial

/-! ### C66 -/

/-- **C66**, operations on tensor maps: with arrays whose callbacks can fail, either the caller is told about a
failed callback, or the operation ends in the same way as with arrays which never fail (including errors and their
messages) and gives the same labels, shapes and elements. What is missing: the status of the callback can be replaced
by an internal error, see `C66_status_counterexample`, and tensor maps can be left corrupted, see
`C66_corrupted_counterexample`; release builds have the same restriction as in C50. -/
theorem C66_operations_partial (view : A → NdArray) (h : MayFail view) (build : Build) (hash : HashOrder)
    (hh : OrderByName hash) (op : Op) (hop : op.LabelsExist) (t : TensorMap A) (ht : TensorValid (t.mapData view))
    (hcomp : Op.SizesAgree build (t.mapData view) op) :
    Reported (op.run build hash t).2 ∨
    (op.run build hash t).2 = (op.run build hash (t.mapData view)).2 ∧
    (op.run build hash t).1.mapData view = (op.run build hash (t.mapData view)).1 := by
  rcases Op.run_follows (Repaired.same h) build hh op t with e | e
  · right
    have hv : (t.mapData (Repaired.repair h)).mapData Repaired.view' = t.mapData view := by
      rw [TensorMap.mapData_mapData]; rfl
    have ht' : TensorValid (t.mapData (Repaired.repair h)) := by
      rw [← TensorValid.map_iff (Repaired.implements h), hv]; exact ht
    have hc' : Op.SizesAgree build (t.mapData (Repaired.repair h)) op :=
      .of_view ht' (by rw [hv]; exact ht) (by rw [hv]; exact hcomp)
    have key := Op.run_map (Repaired.implements h) hh hop ht' hc'
    simp only at e
    rw [hv, e] at key
    rw [key, TensorMap.mapData_mapData]
    exact ⟨rfl, rfl⟩
  · exact .inl e

/-- **C66**, success means success: an operation which succeeds with arrays whose callbacks can fail gives the same
tensor map as with arrays which never fail, whatever was called, and however often. Release builds have the same
restriction as in C50. -/
theorem C66_success_partial (view : A → NdArray) (h : MayFail view) (build : Build) (hash : HashOrder)
    (hh : OrderByName hash) (op : Op) (hop : op.LabelsExist) (t t' : TensorMap A) (ht : TensorValid (t.mapData view))
    (hcomp : Op.SizesAgree build (t.mapData view) op) (hr : op.run build hash t = (t', .ok ())) :
    op.run build hash (t.mapData view) = (t'.mapData view, .ok ()) ∧ TensorValid (t'.mapData view) := by
  have key : op.run build hash (t.mapData view) = (t'.mapData view, .ok ()) := by
    rcases C66_operations_partial view h build hash hh op hop t ht hcomp with e | ⟨e1, e2⟩
    · rw [hr] at e; exact e.elim
    · rw [hr] at e1 e2
      exact Prod.ext e2.symm e1.symm
  exact ⟨key, Op.run_valid lawful_ndArray hop ht key⟩

/-- **C66**, any sequence of operations. What is missing: as for `C66_operations_partial`. -/
theorem C66_sequence_partial (view : A → NdArray) (h : MayFail view) (build : Build) (hash : Nat → HashOrder)
    (hh : ∀ n, OrderByName (hash n)) (ops : List Op) (hops : ∀ op ∈ ops, op.LabelsExist) (t : TensorMap A)
    (ht : TensorValid (t.mapData view)) (hcomp : AllSizesAgree build hash ops (t.mapData view)) :
    Reported (runAll build hash ops t).2 ∨
    (runAll build hash ops t).2 = (runAll build hash ops (t.mapData view)).2 ∧
    (runAll build hash ops t).1.mapData view = (runAll build hash ops (t.mapData view)).1 := by
  induction ops generalizing hash t with
  | nil => exact .inr ⟨rfl, rfl⟩
  | cons op ops ih =>
    have hop := hops op List.mem_cons_self
    have key := C66_operations_partial view h build (hash 0) (hh 0) op hop t ht hcomp.1
    simp only [runAll]
    rcases hr : op.run build (hash 0) t with ⟨t', r⟩
    rw [hr] at key
    rcases key with e | ⟨e1, e2⟩
    · left
      cases r with
      | ok u => exact e.elim
      | err e' => exact e
      | panic m => exact e
    · rcases hr' : op.run build (hash 0) (t.mapData view) with ⟨u', r'⟩
      rw [hr'] at e1 e2
      simp only at e1 e2
      subst e1 e2
      cases r with
      | ok u =>
        exact ih (fun n => hash (n + 1)) (fun n => hh (n + 1)) (fun op h => hops op (List.mem_cons_of_mem _ h)) t'
          (Op.run_valid lawful_ndArray hop ht hr') (hcomp.2 _ hr')
      | err e' => exact .inr ⟨rfl, rfl⟩
      | panic m => exact .inr ⟨rfl, rfl⟩

/-- **C66**, creation of blocks: either the status of the failed callback is reported, or the missing callback, or the outcome is the same as with
arrays which never fail. -/
theorem C66_new_block (view : A → NdArray) (h : MayFail view) (data : A) (samples : Labels) (components : List Labels)
    (properties : Labels) :
    CallbackError (TensorBlock.new data samples components properties) ∨
    TensorBlock.new (view data) samples components properties =
      (TensorBlock.new data samples components properties).map (TensorBlock.mapData view) := by
  unfold TensorBlock.new BasicBlock.new
  rcases checkDataAndLabels_unlessError h "data and labels don't match" data samples components properties with e | e
  · exact .inl (CallbackError.bind (CallbackError.bind e _) _)
  · right
    rw [e]
    cases checkDataAndLabels "data and labels don't match" data samples components properties with
    | err e => rfl
    | panic m => rfl
    | ok u =>
      cases hc : checkComponentLabels 0 components with
      | err e => simp
      | panic m => simp
      | ok u => simp; rfl

/-- **C66**, gradients: either the status of the failed callback is reported and the block is as it was, or the outcome
and the block are the same as with arrays which never fail. -/
theorem C66_add_gradient (view : A → NdArray) (h : MayFail view) (parameter : String) (data : A) (samples : Labels)
    (components : List Labels) (b : TensorBlock A) :
    (CallbackError (TensorBlock.addGradient parameter data samples components b).2 ∧
      (TensorBlock.addGradient parameter data samples components b).1 = b) ∨
    (TensorBlock.addGradient parameter data samples components b).2 =
      (TensorBlock.addGradient parameter (view data) samples components (b.mapData view)).2 ∧
    (TensorBlock.addGradient parameter data samples components b).1.mapData view =
      (TensorBlock.addGradient parameter (view data) samples components (b.mapData view)).1 := by
  rw [addGradient_eq, addGradient_eq]
  rcases checkGradient_unlessError h b parameter data samples components with e | e
  · left
    cases hc : TensorBlock.checkGradient b parameter data samples components with
    | ok u => rw [hc] at e; exact e.elim
    | panic m => rw [hc] at e; exact ⟨e, rfl⟩
    | err e' => rw [hc] at e; exact ⟨CallbackError.err_of e, rfl⟩
  · right
    rw [e]
    cases TensorBlock.checkGradient b parameter data samples components with
    | err e => exact ⟨rfl, rfl⟩
    | panic m => exact ⟨rfl, rfl⟩
    | ok u =>
      simp only
      split
      · simp [TensorBlock.mapData, BasicBlock.withData, TensorBlock.gradientBlock]
      · simp [TensorBlock.mapData, BasicBlock.withData, TensorBlock.gradientBlock]

/-- **C66**, what failed operations leave behind: `keys_to_samples` and `keys_to_properties` give their tensor map back as
it was whenever they do not succeed, with any arrays whatever their callbacks do. -/
theorem C66_unchanged (build : Build) (hash : HashOrder) (op : Op) (hop : ∀ names, op ≠ .componentsToProperties names)
    (t : TensorMap A) (hr : (op.run build hash t).2 ≠ .ok ()) : (op.run build hash t).1 = t := by
  cases op with
  | keysToSamples k sort =>
    change (TensorMap.keysToSamples _ _ _ _ _).1 = t
    change (TensorMap.keysToSamples _ _ _ _ _).2 ≠ _ at hr
    rw [keysToSamples_eq] at hr ⊢
    split <;> simp_all
  | keysToProperties k sort =>
    change (TensorMap.keysToProperties _ _ _ _ _).1 = t
    change (TensorMap.keysToProperties _ _ _ _ _).2 ≠ _ at hr
    rw [keysToProperties_eq] at hr ⊢
    split <;> simp_all
  | componentsToProperties names => exact (hop names rfl).elim

/-- **C66**, the C API: a reported failure is never returned as `EQS_SUCCESS`. -/
theorem C66_status (r : Res Unit) (h : Reported r) (thread : ThreadId) (m : Messages) :
    (catchUnwind thread r m).2 ≠ some successStatus := by
  unfold catchUnwind Error.toStatus
  cases r with
  | ok u => exact h.elim
  | panic message =>
    simp only
    split
    · simp
    · simp [Error.status, internalErrorStatus, successStatus]
  | err e =>
    cases e <;> try exact h.elim
    rename_i status context
    simp only
    split
    · simp
    · have h : status ≠ 0 := h
      simpa [Error.status, successStatus] using h

/-! ### What is missing -/

/-- The property without its restrictions. -/
def C66_full_statement : Prop :=
  ∀ (A : Type) (_ : ArrayLike A) (view : A → NdArray), MayFail view → ∀ (build : Build) (hash : HashOrder),
    OrderByName hash → ∀ (op : Op), op.LabelsExist → ∀ t : TensorMap A, TensorValid (t.mapData view) →
    Op.SizesAgree build (t.mapData view) op →
    (CallbackError (op.run build hash t).2 ∧ (op.run build hash t).1.mapData view = t.mapData view) ∨
    (op.run build hash t).2 = (op.run build hash (t.mapData view)).2 ∧
    (op.run build hash t).1.mapData view = (op.run build hash (t.mapData view)).1

/-- Arrays where some of the callbacks fail or are missing, depending on the shape of the array. -/
structure Faulty (fails : String → List Nat → Bool) (missing : Bool := false) where
  inner : RustArray

namespace Faulty

/-- The outcome of a callback which returns 7 or is `NULL`. -/
def failed {α : Type} (missing : Bool) (callback : String) : Res α :=
  if missing then .panic ("eqs_array_t." ++ callback ++ " function is NULL")
  else .err (.external 7 ("calling eqs_array_t." ++ callback ++ " failed"))

theorem failed_error {α : Type} {missing : Bool} {callback : String}
    (h : callback ∈ ["origin", "data", "shape", "reshape", "swap_axes", "create", "move_samples_from"]) :
    CallbackError (failed missing callback : Res α) := by
  cases missing
  · simp [failed, CallbackError]
  · exact List.mem_map_of_mem h

instance (fails : String → List Nat → Bool) (missing : Bool) : ArrayLike (Faulty fails missing) where
  origin a := if fails "origin" a.inner.array.shape then failed missing "origin" else ArrayLike.origin a.inner
  data a := ArrayLike.data a.inner
  shape a := if fails "shape" a.inner.array.shape then failed missing "shape" else ArrayLike.shape a.inner
  create a shape := if fails "create" a.inner.array.shape then failed missing "create" else
    (ArrayLike.create a.inner shape).map .mk
  reshape a shape := if fails "reshape" a.inner.array.shape then (a, failed missing "reshape") else
    (⟨(ArrayLike.reshape a.inner shape).1⟩, (ArrayLike.reshape a.inner shape).2)
  swapAxes a i j := if fails "swap_axes" a.inner.array.shape then (a, failed missing "swap_axes") else
    (⟨(ArrayLike.swapAxes a.inner i j).1⟩, (ArrayLike.swapAxes a.inner i j).2)
  moveSamplesFrom output input samples start stop :=
    if fails "move_samples_from" output.inner.array.shape then (output, failed missing "move_samples_from") else
      (⟨(ArrayLike.moveSamplesFrom output.inner input.inner samples start stop).1⟩,
        (ArrayLike.moveSamplesFrom output.inner input.inner samples start stop).2)

theorem mayFail (fails : String → List Nat → Bool) (missing : Bool := false) :
    MayFail fun a : Faulty fails missing => a.inner.array where
  origin := by
    obtain ⟨o, ho⟩ := implements_rust.origin
    refine ⟨o, fun a => ?_⟩
    by_cases h : fails "origin" a.inner.array.shape
    · right; simp only [ArrayLike.origin, h, if_true]; exact failed_error (by decide)
    · left; rw [← ho a.inner]; simp [ArrayLike.origin, h]
  elements a := a.inner.complete
  shape a := by
    by_cases h : fails "shape" a.inner.array.shape
    · right; simp only [ArrayLike.shape, h, if_true]; exact failed_error (by decide)
    · left; rw [← implements_rust.shape a.inner]; simp [ArrayLike.shape, h]
  create a shape := by
    by_cases h : fails "create" a.inner.array.shape
    · right; simp only [ArrayLike.create, h, if_true]; exact failed_error (by decide)
    · left
      obtain ⟨r, h1, h2⟩ := implements_rust.create a.inner shape
      exact ⟨⟨r⟩, (if_neg h).trans (by rw [h1]; rfl), h2⟩
  reshape a shape hs := by
    by_cases h : fails "reshape" a.inner.array.shape
    · right; simp only [ArrayLike.reshape, h, if_true]; exact failed_error (by decide)
    · left
      obtain ⟨r, h1, h2⟩ := implements_rust.reshape a.inner shape hs
      exact ⟨⟨r⟩, (if_neg h).trans (by rw [h1]), h2⟩
  swapAxes a i j hs := by
    by_cases h : fails "swap_axes" a.inner.array.shape
    · right; simp only [ArrayLike.swapAxes, h, if_true]; exact failed_error (by decide)
    · left
      obtain ⟨r, h1, h2⟩ := implements_rust.swapAxes a.inner i j hs
      exact ⟨⟨r⟩, (if_neg h).trans (by rw [h1]), h2⟩
  move output input samples start stop hm := by
    by_cases h : fails "move_samples_from" output.inner.array.shape
    · right; simp only [ArrayLike.moveSamplesFrom, h, if_true]; exact failed_error (by decide)
    · left
      obtain ⟨r, h1, h2⟩ := implements_rust.move output.inner input.inner samples start stop hm
      exact ⟨⟨r⟩, (if_neg h).trans (by rw [h1]), h2⟩

end Faulty

namespace Example

/-- The same array with callbacks which can fail. -/
def toFaulty (fails : String → List Nat → Bool) (a : NdArray) : Faulty fails :=
  if h : a.elements.length = shapeSize a.shape then ⟨⟨a, h⟩⟩ else ⟨⟨⟨[0], []⟩, rfl⟩⟩
/-- The example with callbacks which can fail. -/
def tensorFaulty (fails : String → List Nat → Bool) : TensorMap (Faulty fails) := tensor.mapData (toFaulty fails)

theorem tensorFaulty_view (fails : String → List Nat → Bool) :
    (tensorFaulty fails).mapData (fun a => a.inner.array) = tensor := rfl

theorem tensorFaulty_valid (fails : String → List Nat → Bool) :
    TensorValid ((tensorFaulty fails).mapData fun a => a.inner.array) := by
  rw [tensorFaulty_view]
  exact TensorMap.valid_of_rebuilds (by decide +kernel)

/-- The shape of the array created by `keys_to_samples` can not be retrieved. -/
def shapeFails : String → List Nat → Bool := fun name shape => name == "shape" && shape == [4, 2, 3]
/-- The shape of arrays can not be changed. -/
def reshapeFails : String → List Nat → Bool := fun name _ => name == "reshape"
/-- There is no memory for new arrays. -/
def createFails : String → List Nat → Bool := fun name _ => name == "create"
/-- Nothing fails. -/
def nothingFails : String → List Nat → Bool := fun _ _ => false

theorem shapeFails_panics :
    ((tensorFaulty shapeFails).keysToSamples ⟨true⟩ .insertion moveL true).2 = .panic "invalid block" := by
  decide +kernel
theorem tensor_keysToSamples_ok : (tensor.keysToSamples ⟨true⟩ .insertion moveL true).2 = .ok () := by
  decide +kernel
theorem reshapeFails_error :
    ((tensorFaulty reshapeFails).componentsToProperties .insertion ["c"]).2 =
      .err (.external 7 "calling eqs_array_t.reshape failed") := by
  decide +kernel
theorem reshapeFails_labels :
    (((tensorFaulty reshapeFails).componentsToProperties .insertion ["c"]).1.blocks.map
      fun b => (b.values.data.inner.array.shape, b.values.components.length)) =
    [([2, 2, 3], 0), ([2, 2, 3], 1), ([2, 2, 3], 1)] := by
  decide +kernel
theorem tensor_componentsToProperties_ok : (tensor.componentsToProperties .insertion ["c"]).2 = .ok () := by
  decide +kernel

end Example

/-- **C66**, the first defect: the functions creating blocks in `keys_to_samples` and `keys_to_properties` expect the
new block to be valid, without looking at the error. When a callback of a new array fails there, the status of the callback
is lost and the caller gets an internal error (255). -/
theorem C66_status_counterexample : ¬ C66_full_statement := by
  intro hfull
  have h := hfull _ inferInstance _ (Faulty.mayFail Example.shapeFails) ⟨true⟩ .insertion Example.order_insertion
    (.keysToSamples Example.moveL true) Example.moveL_fromBuilder (Example.tensorFaulty Example.shapeFails)
    (Example.tensorFaulty_valid _) (.inl rfl)
  rw [Example.tensorFaulty_view] at h
  have h1 := Example.shapeFails_panics
  have h2 := Example.tensor_keysToSamples_ok
  simp only [Op.run] at h
  rw [h1, h2] at h
  rcases h with h | h
  · exact absurd (show "invalid block" ∈ missingCallback from h.1) (by decide)
  · cases h.1

/-- **C66**, the second defect: `components_to_properties` changes labels and data of one block after the other. When a
callback fails, the operation reports the failure, but leaves blocks where labels and data do not match, and blocks
with different components in the same tensor map. -/
theorem C66_corrupted_counterexample : ¬ C66_full_statement ∧
    ∃ t : TensorMap (Faulty Example.reshapeFails), TensorValid (t.mapData fun a => a.inner.array) ∧
      CallbackError (t.componentsToProperties .insertion ["c"]).2 ∧
      ¬ TensorValid ((t.componentsToProperties .insertion ["c"]).1.mapData fun a => a.inner.array) := by
  have hbad : ¬ TensorValid (((Example.tensorFaulty Example.reshapeFails).componentsToProperties .insertion ["c"]).1.mapData
      fun a => a.inner.array) := by
    intro hv
    have hl := Example.reshapeFails_labels
    generalize ((Example.tensorFaulty Example.reshapeFails).componentsToProperties .insertion ["c"]).1 = u at hv hl
    let v : Faulty Example.reshapeFails → NdArray := fun a => a.inner.array
    rcases hu : u.blocks with _ | ⟨b, bs⟩
    · rw [hu] at hl; cases hl
    · rw [hu] at hl
      simp only [List.map_cons, List.cons.injEq, Prod.mk.injEq] at hl
      have hb := (hv.blocks (b.mapData v) (by
        rw [TensorMap.mapData_blocks, hu]; exact List.mem_cons_self)).values.shape
      have hs : (b.mapData v).values.data.shape = [2, 2, 3] := hl.1.1
      have hc : (b.mapData v).values.components.length = 0 := hl.1.2
      obtain ⟨shape, h1, h2⟩ := hb
      have h3 : shape = [2, 2, 3] := (Res.ok.inj h1).symm.trans hs
      have h4 := List.Forall₂.length_eq h2
      simp only [h3, List.length_append, List.length_cons, hc, List.length_nil] at h4
      omega
  have herr := Example.reshapeFails_error
  refine ⟨?_, _, Example.tensorFaulty_valid _, by rw [herr]; simp [CallbackError], hbad⟩
  intro hfull
  have h := hfull _ inferInstance _ (Faulty.mayFail Example.reshapeFails) ⟨true⟩ .insertion Example.order_insertion
    (.componentsToProperties ["c"]) trivial (Example.tensorFaulty Example.reshapeFails)
    (Example.tensorFaulty_valid _) trivial
  rw [Example.tensorFaulty_view] at h
  have h2 := Example.tensor_componentsToProperties_ok
  simp only [Op.run] at h
  rw [h2, herr] at h
  rcases h with h | h
  · refine hbad ?_
    rw [h.2, ← Example.tensorFaulty_view Example.reshapeFails]
    exact Example.tensorFaulty_valid _
  · cases h.1

/-- Non-vacuity: with arrays which can not be created the status of the callback is reported, and when nothing fails
the operation succeeds. -/
example : MayFail (fun a : Faulty Example.createFails => a.inner.array) ∧
    TensorValid ((Example.tensorFaulty Example.createFails).mapData fun a => a.inner.array) ∧
    Op.SizesAgree ⟨true⟩ ((Example.tensorFaulty Example.createFails).mapData fun a => a.inner.array)
      (.keysToSamples Example.moveL true) ∧
    ((Example.tensorFaulty Example.createFails).keysToSamples ⟨true⟩ .insertion Example.moveL true).2 =
      .err (.external 7 "calling eqs_array_t.create failed") ∧
    (runAll ⟨true⟩ (fun _ => .insertion) [.keysToSamples Example.moveL true, .componentsToProperties ["c"]]
      (Example.tensorFaulty Example.nothingFails)).2 = .ok () ∧
    (runAll ⟨true⟩ (fun _ => .insertion) [.componentsToProperties ["c"], .keysToSamples Example.moveL true]
      (Example.tensorFaulty Example.createFails)).2 = .err (.external 7 "calling eqs_array_t.create failed") :=
  ⟨Faulty.mayFail _, Example.tensorFaulty_valid _, .inl rfl, by decide +kernel, by decide +kernel, by decide +kernel⟩

/-- Non-vacuity for missing callbacks: arrays without `create`. -/
example : MayFail (fun a : Faulty Example.createFails true => a.inner.array) ∧
    (Example.tensor.mapData fun a => (⟨(Example.toFaulty Example.createFails a).inner⟩ : Faulty Example.createFails true)).mapData
      (fun a => a.inner.array) = Example.tensor ∧
    ((Example.tensor.mapData fun a => (⟨(Example.toFaulty Example.createFails a).inner⟩ :
      Faulty Example.createFails true)).keysToSamples ⟨true⟩ .insertion Example.moveL true).2 =
      .panic "eqs_array_t.create function is NULL" :=
  ⟨Faulty.mayFail _ _, rfl, by decide +kernel⟩

/-- Non-vacuity of the theorems on blocks: the shape of `[2, 2, 3]` arrays can not be retrieved. -/
example : CallbackError (TensorBlock.new (Example.toFaulty (fun name _ => name == "shape") Example.data) Example.samples
      [Example.component] Example.properties) ∧
    (TensorBlock.addGradient "g" (Example.toFaulty (fun name _ => name == "origin") Example.gradientData)
      Example.gradientSamples [Example.direction, Example.component]
      (Example.block.mapData (Example.toFaulty fun name _ => name == "origin"))).2 =
      .err (.external 7 "calling eqs_array_t.origin failed") ∧
    (catchUnwind 0 (.err (.external 7 "calling eqs_array_t.create failed")) Messages.init).2 = some 7 := by
  decide +kernel

end Equistore
