import Verif.Lemmas.Mixed
import Verif.Lemmas.Concrete
import Verif.Props.Backend
import Verif.Props.Reachable
import Verif.Props.MovedTwice

/-!
# Arrays of several implementations (C92)
-/

namespace Equistore
open Spec

variable {ι : Type} [DecidableEq ι] {Arr : ι → Type} [∀ i, ArrayLike (Arr i)] {wrong : Confusion Arr}

/-! ### C92 -/

/-- **C92**, operations on tensor maps: when the blocks which become one block have values from one implementation, the
outcome and the resulting tensor map are the same whatever callbacks do with arrays of other implementations. What is
missing: blocks of different implementations are merged as well, see `C92_counterexample`. -/
theorem C92_operations_partial (ho : OriginsDiffer Arr) (wrong' : Confusion Arr) (build : Build) (hash : HashOrder) (hh : OrderByName hash)
    (op : Op) (t : TensorMap (Mixed Arr wrong)) (ht : TensorValid t) (hone : Op.MergesOne t op) :
    op.run build hash (t.mapData (Mixed.confusedBy wrong')) =
      ((op.run build hash t).1.mapData (Mixed.confusedBy wrong'), (op.run build hash t).2) := by
  cases op with
  | keysToSamples k sort => exact keysToSamples_confusedBy wrong' hh ho ht hone
  | keysToProperties k sort => exact keysToProperties_confusedBy wrong' hh ho ht hone
  | componentsToProperties names => exact (Mixed.sameViews wrong wrong').componentsToProperties hh

theorem Mixed.lawful (hA : ∀ i, LawfulArray (Arr i)) : LawfulArray (Mixed Arr wrong) where
  reshape_shape a a' shape h := by
    simp only [ArrayLike.reshape, Prod.mk.injEq] at h
    rw [← h.1]
    exact (hA a.impl).reshape_shape _ _ _ (Prod.ext rfl h.2)
  reshape_origin a a' shape h := by
    simp only [ArrayLike.reshape, Prod.mk.injEq] at h
    rw [← h.1]
    exact (hA a.impl).reshape_origin _ _ _ (Prod.ext rfl h.2)
  swap_origin a a' i j h := by
    simp only [ArrayLike.swapAxes, Prod.mk.injEq] at h
    rw [← h.1]
    exact (hA a.impl).swap_origin _ _ _ _ (Prod.ext rfl h.2)

/-- **C92**, sequences of operations: the same for any number of operations, when each of them only merges blocks with
values from one implementation. What is missing: as above. -/
theorem C92_sequences_partial (ho : OriginsDiffer Arr) (hA : ∀ i, LawfulArray (Arr i)) (wrong' : Confusion Arr)
    (build : Build) : ∀ (ops : List Op) (hash : Nat → HashOrder), (∀ n, OrderByName (hash n)) →
    (∀ op ∈ ops, op.LabelsExist) → ∀ t : TensorMap (Mixed Arr wrong), TensorValid t → EachMergesOne build hash ops t →
    runAll build hash ops (t.mapData (Mixed.confusedBy wrong')) =
      ((runAll build hash ops t).1.mapData (Mixed.confusedBy wrong'), (runAll build hash ops t).2)
  | [], _, _, _, _, _, _ => rfl
  | op :: ops, hash, hh, hl, t, ht, hone => by
    have h := C92_operations_partial ho wrong' build (hash 0) (hh 0) op t ht hone.1
    simp only [runAll]
    rw [h]
    have hnext := hone.2
    have hvalid : (op.run build (hash 0) t).2 = .ok () → TensorValid (op.run build (hash 0) t).1 := by
      intro hok
      have hop := hl op (by simp)
      cases op with
      | keysToSamples k sort => exact keysToSamples_keeps ht hop rfl
      | keysToProperties k sort => exact keysToProperties_keeps ht hop rfl
      | componentsToProperties names => exact componentsToProperties_keeps (Mixed.lawful hA) ht (Prod.ext rfl hok)
    generalize op.run build (hash 0) t = out at hnext hvalid ⊢
    obtain ⟨t', r⟩ := out
    cases r with
    | ok u =>
      exact C92_sequences_partial ho hA wrong' build ops (fun n => hash (n + 1)) (fun n => hh (n + 1))
        (fun op h => hl op (by simp [h])) t' (hvalid rfl) (hnext rfl)
    | err e => rfl
    | panic m => rfl

/-- **C92**, tensor maps using a single implementation: any sequence of operations does the same as if there was no other
implementation, and only ever has arrays of this implementation. Nothing is assumed about what its callbacks do. -/
theorem C92_one_implementation (wrong : Confusion Arr) (i : ι) (build : Build) (hash : Nat → HashOrder)
    (hh : ∀ n, OrderByName (hash n)) (ops : List Op) (t : TensorMap (Arr i)) :
    runAll build hash ops (t.mapData (Mixed.mk i : Arr i → Mixed Arr wrong)) =
      ((runAll build hash ops t).1.mapData (Mixed.mk i), (runAll build hash ops t).2) :=
  (Mixed.sameCallbacks wrong i).runAll hh ops t

/-- **C92**, blocks of tensor maps: in every tensor map a program can get to, all the arrays of a block come from one
implementation, also after blocks of different implementations were merged. -/
theorem C92_blocks (ho : OriginsDiffer Arr) (hA : ∀ i, LawfulArray (Arr i)) (t : TensorMap (Mixed Arr wrong))
    (h : Reachable (fun r => r = .ok ()) t) : ∀ b ∈ t.blocks, BlockFrom b.values.data.impl b := by
  intro b hb
  refine ⟨rfl, fun name g hg => ?_⟩
  obtain ⟨o, h1, h2⟩ := (((C28_reachable_valid_any_array (Mixed.lawful hA) t h).blocks b hb).gradients name g hg).origin
  obtain ⟨origin, hinj, horigin⟩ := ho
  have e1 : origin g.data.impl = o := Res.ok.inj ((horigin _ _).symm.trans h1)
  have e2 : origin b.values.data.impl = o := Res.ok.inj ((horigin _ _).symm.trans h2)
  exact hinj (e1.trans e2.symm)

/-- **C92**, creation of blocks: all the arrays of a new block come from one implementation. -/
theorem C92_new_block (data : Mixed Arr wrong) (samples : Labels) (components : List Labels) (properties : Labels)
    (b : TensorBlock (Mixed Arr wrong)) (h : TensorBlock.new data samples components properties = .ok b) :
    BlockFrom data.impl b := by
  unfold TensorBlock.new BasicBlock.new at h
  simp only [Res.bind_eq_ok] at h
  obtain ⟨v, ⟨_, _, _, _, h1⟩, h2⟩ := h
  cases h1
  cases h2
  exact ⟨rfl, fun name g hg => by simp at hg⟩

/-- **C92**, gradients: when implementations have different origins, all the arrays of a block still come from one
implementation after adding a gradient, whether this is accepted or not; it is not accepted with an array of another
implementation. -/
theorem C92_add_gradient (ho : OriginsDiffer Arr) (i : ι) (b : TensorBlock (Mixed Arr wrong)) (hb : BlockFrom i b)
    (parameter : String) (data : Mixed Arr wrong) (samples : Labels) (components : List Labels) :
    BlockFrom i (TensorBlock.addGradient parameter data samples components b).1 ∧
    ((TensorBlock.addGradient parameter data samples components b).2 = .ok () → data.impl = i) := by
  obtain ⟨origin, hinj, ho⟩ := ho
  have key : TensorBlock.checkGradient b parameter data samples components = .ok () → data.impl = i := by
    intro h
    obtain ⟨o, h1, h2⟩ := (checkGradient_iff.1 h).origin
    have e1 : ArrayLike.origin data = .ok (origin data.impl) := ho _ data.array
    have e2 : ArrayLike.origin b.values.data = .ok (origin b.values.data.impl) := ho _ b.values.data.array
    rw [e1] at h1
    rw [e2] at h2
    rw [← hb.1]
    exact hinj ((Res.ok.inj h1).trans (Res.ok.inj h2).symm)
  rw [addGradient_eq]
  cases hc : TensorBlock.checkGradient b parameter data samples components with
  | err e => exact ⟨hb, fun h => by cases h⟩
  | panic m => exact ⟨hb, fun h => by cases h⟩
  | ok u =>
    have hd := key hc
    have step : ∀ parameters, BlockFrom i { b with
        gradients := b.gradients ++ [(parameter, TensorBlock.gradientBlock b data samples components)],
        gradientParameters := parameters } := by
      intro parameters
      refine ⟨hb.1, fun name g hg => ?_⟩
      rcases List.mem_append.1 hg with h | h
      · exact hb.2 name g h
      · simp only [List.mem_singleton, Prod.mk.injEq] at h
        rw [h.2]
        exact hd
    simp only
    split
    · exact ⟨step _, fun h => by cases h⟩
    · exact ⟨step _, fun _ => hd⟩

/-! ### What is missing -/

/-- The property without its restriction. -/
def C92_full_statement : Prop :=
  ∀ (ι : Type) (_ : DecidableEq ι) (Arr : ι → Type) (_ : ∀ i, ArrayLike (Arr i)), OriginsDiffer Arr →
    ∀ (wrong wrong' : Confusion Arr) (build : Build) (hash : HashOrder), OrderByName hash → ∀ (op : Op),
    op.LabelsExist → ∀ t : TensorMap (Mixed Arr wrong), TensorValid t →
    op.run build hash (t.mapData (Mixed.confusedBy wrong')) =
      ((op.run build hash t).1.mapData (Mixed.confusedBy wrong'), (op.run build hash t).2)

namespace Example

/-- Arrays of the Rust library, and of numpy. -/
def RustOrNumpy : Bool → Type
  | false => NdArray
  | true => NumpyArray

instance : ∀ numpy, ArrayLike (RustOrNumpy numpy)
  | false => inferInstanceAs (ArrayLike NdArray)
  | true => inferInstanceAs (ArrayLike NumpyArray)

/-- Callbacks reading the memory of another array stop the program. -/
def crash (message : String) : Confusion RustOrNumpy := fun _ _ output _ _ _ _ => (output, .panic message)

variable (wrong : Confusion RustOrNumpy)

/-- An array of the Rust library. -/
def rustArray (a : NdArray) : Mixed RustOrNumpy wrong := ⟨false, a⟩
/-- An array of numpy. -/
def numpyArray (a : NdArray) : Mixed RustOrNumpy wrong := ⟨true, toNumpy a⟩

/-- A tensor map where the first and last block were loaded from a file by the Rust library, and the second one was created
from Python. -/
def rustAndNumpy : TensorMap (Mixed RustOrNumpy wrong) :=
  ⟨keys, [gradBlock.mapData (rustArray wrong), gradBlock.mapData (numpyArray wrong), gradBlock.mapData (rustArray wrong)]⟩

theorem origins_differ : OriginsDiffer RustOrNumpy :=
  ⟨fun | false => 1 | true => 3, by intro a b; cases a <;> cases b <;> simp,
    fun i a => by cases i <;> rfl⟩

instance : ∀ numpy, DecidableEq (RustOrNumpy numpy)
  | false => inferInstanceAs (DecidableEq NdArray)
  | true => inferInstanceAs (DecidableEq NumpyArray)

instance : DecidableEq (Mixed RustOrNumpy wrong) := fun ⟨i, x⟩ ⟨j, y⟩ =>
  if h : i = j then
    if h' : h ▸ x = y then isTrue (by subst h; cases h'; rfl)
    else isFalse (by rintro e; cases e; exact h' rfl)
  else isFalse (by rintro e; cases e; exact h rfl)

/-- The two ways the program may stop. -/
def crashed : Confusion RustOrNumpy := crash "segmentation fault"
def crashed' : Confusion RustOrNumpy := crash "illegal instruction"

theorem rustAndNumpy_valid : TensorValid (rustAndNumpy crashed) :=
  TensorMap.valid_of_rebuilds (by decide +kernel)

theorem rustAndNumpy_first :
    ((rustAndNumpy crashed).keysToProperties ⟨false⟩ .insertion moveL true).2 = .panic "segmentation fault" := by
  decide +kernel
theorem rustAndNumpy_second :
    (((rustAndNumpy crashed).mapData (Mixed.confusedBy crashed')).keysToProperties ⟨false⟩ .insertion moveL true).2 =
      .panic "illegal instruction" := by
  decide +kernel

end Example

/-- **C92**, the defect: `TensorMap::new` does not compare the origins of its blocks, and merging blocks does not either. An
array of numpy is given to `move_samples_from` of the Rust library, which reads the Python object as if it was a Rust
one: anything can happen. -/
theorem C92_counterexample : ¬ C92_full_statement := by
  intro hfull
  have h := congrArg Prod.snd (hfull Bool inferInstance Example.RustOrNumpy inferInstance Example.origins_differ
    Example.crashed Example.crashed' ⟨false⟩ .insertion Example.order_insertion (.keysToProperties Example.moveL true)
    Example.moveL_fromBuilder (Example.rustAndNumpy Example.crashed) Example.rustAndNumpy_valid)
  have h1 := Example.rustAndNumpy_first
  have h2 := Example.rustAndNumpy_second
  have h3 := h2.symm.trans (h.trans h1)
  simp at h3

theorem Example.rustAndNumpy_mergesOne :
    Op.MergesOne (Example.rustAndNumpy Example.crashed) (.keysToProperties Example.moveK true) := by
  intro pairs hp key' a ha b hb
  rw [Example.rustAndNumpy_valid.iter_eq, Res.ok.injEq] at hp
  subst hp
  have split : ∀ x ∈ group (Example.rustAndNumpy Example.crashed).keys.names Example.moveK.names
      ((Example.rustAndNumpy Example.crashed).keys.rows.zip (Example.rustAndNumpy Example.crashed).blocks) key',
      (x.2.values.data.impl = false ∧ key' = [1]) ∨ (x.2.values.data.impl = true ∧ key' = [2]) := by
    intro x hx
    obtain ⟨h1, h2⟩ := List.mem_filter.1 hx
    have h2 := of_decide_eq_true h2
    have key : ∀ x ∈ (Example.rustAndNumpy Example.crashed).keys.rows.zip (Example.rustAndNumpy Example.crashed).blocks,
        (x.2.values.data.impl = false ∧
          remainingKey (Example.rustAndNumpy Example.crashed).keys.names Example.moveK.names x.1 = [1]) ∨
        (x.2.values.data.impl = true ∧
          remainingKey (Example.rustAndNumpy Example.crashed).keys.names Example.moveK.names x.1 = [2]) := by
      decide +kernel
    rw [← h2]
    exact key x h1
  rcases split a ha with ⟨h1, h2⟩ | ⟨h1, h2⟩ <;> rcases split b hb with ⟨h3, h4⟩ | ⟨h3, h4⟩
  · rw [h1, h3]
  · rw [h2] at h4; simp at h4
  · rw [h2] at h4; simp at h4
  · rw [h1, h3]

/-- Non-vacuity of `C92_operations_partial`: moving the other name merges the two blocks of the Rust library and keeps the
block of numpy; this succeeds. -/
example : OriginsDiffer Example.RustOrNumpy ∧ TensorValid (Example.rustAndNumpy Example.crashed) ∧
    Op.MergesOne (Example.rustAndNumpy Example.crashed) (.keysToProperties Example.moveK true) ∧
    (Op.run ⟨true⟩ .insertion (Example.rustAndNumpy Example.crashed) (.keysToProperties Example.moveK true)).2 = .ok () ∧
    (Op.run ⟨true⟩ .insertion (Example.rustAndNumpy Example.crashed)
      (.keysToProperties Example.moveK true)).1.blocks.map (fun b => b.values.data.impl) = [false, true] ∧
    (Op.run ⟨true⟩ .insertion (Example.rustAndNumpy Example.crashed) (.componentsToProperties ["c"])).2 = .ok () :=
  ⟨Example.origins_differ, Example.rustAndNumpy_valid, Example.rustAndNumpy_mergesOne, by decide +kernel,
    by decide +kernel, by decide +kernel⟩

theorem lawful_numpyArray : LawfulArray NumpyArray := by
  refine ⟨?_, fun _ _ _ _ => rfl, fun _ _ _ _ _ => rfl⟩
  intro a a' shape h
  simp only [ArrayLike.reshape, NumpyArray.reshape] at h
  split at h
  · rw [Prod.mk.injEq] at h
    rw [← h.1]
    rfl
  · simp at h

/-- Non-vacuity of `C92_sequences_partial`: keys are moved, and then components; both operations succeed. -/
example : (∀ i, LawfulArray (Example.RustOrNumpy i)) ∧
    EachMergesOne ⟨true⟩ (fun _ => .insertion) [.keysToProperties Example.moveK true, .componentsToProperties ["c"]]
      (Example.rustAndNumpy Example.crashed) ∧
    (runAll ⟨true⟩ (fun _ => .insertion) [.keysToProperties Example.moveK true, .componentsToProperties ["c"]]
      (Example.rustAndNumpy Example.crashed)).2 = .ok () :=
  ⟨fun i => match i with
    | false => lawful_ndArray
    | true => lawful_numpyArray,
    ⟨Example.rustAndNumpy_mergesOne, fun _ => ⟨trivial, fun _ => trivial⟩⟩, by decide +kernel⟩

theorem Example.mixed_made (array : NdArray → Mixed Example.RustOrNumpy Example.crashed)
    (h : array = Example.rustArray Example.crashed ∨ array = Example.numpyArray Example.crashed) :
    MadeBlock (Example.gradBlock.mapData array) :=
  ⟨array Example.data, Example.samples, [Example.component], Example.properties, Example.block.mapData array,
    [⟨"g", array Example.gradientData, Example.gradientSamples, [Example.direction, Example.component]⟩], ["g"],
    by rcases h with rfl | rfl <;> decide +kernel,
    fun l hl => Labels.rebuilds_fromBuilder (by revert l; decide +kernel),
    fun c hc => by
      rw [List.mem_singleton] at hc
      subst hc
      exact ⟨show '\x00' ∉ "g".toList by decide +kernel,
        show ∀ l ∈ Example.gradientSamples :: [Example.direction, Example.component], l.FromBuilder from
          fun l hl => Labels.rebuilds_fromBuilder (by revert l; decide +kernel)⟩,
    by
      rcases h with rfl | rfl <;>
        exact .success (by unfold AddGradientCall.succeeds; decide +kernel) (.nil _)⟩

/-- Non-vacuity of `C92_blocks`: a program can get to the tensor map with blocks, with gradients, of both
implementations. -/
example (allowed : Res Unit → Prop) : Reachable allowed (Example.rustAndNumpy Example.crashed) ∧
    (Example.rustAndNumpy Example.crashed).blocks.map (fun b => (b.values.data.impl, b.gradientParameters)) =
      [(false, ["g"]), (true, ["g"]), (false, ["g"])] :=
  ⟨.new (hash := .insertion) (keys := (Example.rustAndNumpy Example.crashed).keys)
    (blocks := (Example.rustAndNumpy Example.crashed).blocks) (Labels.rebuilds_fromBuilder (by decide +kernel))
    (by
      simp only [Example.rustAndNumpy, List.mem_cons, List.not_mem_nil, or_false]
      rintro b (rfl | rfl | rfl)
      · exact Example.mixed_made _ (.inl rfl)
      · exact Example.mixed_made _ (.inr rfl)
      · exact Example.mixed_made _ (.inl rfl))
    (by decide +kernel), by decide +kernel⟩

/-- Non-vacuity of `C92_one_implementation`: a sequence of operations succeeds. -/
example : (runAll ⟨true⟩ (fun _ => .insertion) [.keysToProperties Example.moveL true, .componentsToProperties ["c"]]
    (Example.tensor.mapData (Example.rustArray Example.crashed))).2 = .ok () := by
  decide +kernel

/-- Non-vacuity of `C92_new_block` and `C92_add_gradient`: a block of the Rust library, a gradient which is accepted, and a
gradient of numpy which is not. -/
example : TensorBlock.new (Example.rustArray Example.crashed Example.data) Example.samples [Example.component]
      Example.properties = .ok (Example.block.mapData (Example.rustArray Example.crashed)) ∧
    (TensorBlock.addGradient "g" (Example.rustArray Example.crashed Example.gradientData) Example.gradientSamples
      [Example.direction, Example.component] (Example.block.mapData (Example.rustArray Example.crashed))).2 = .ok () ∧
    ∃ m, (TensorBlock.addGradient "g" (Example.numpyArray Example.crashed Example.gradientData) Example.gradientSamples
      [Example.direction, Example.component] (Example.block.mapData (Example.rustArray Example.crashed))).2 =
        .err (.invalidParameter m) :=
  ⟨by decide +kernel, by decide +kernel, _, by rfl⟩

end Equistore
