import Verif.Spec.PyWrapper
import Verif.Lemmas.SubArrays
import Verif.Lemmas.SaveData
import Verif.Props.Backend
import Verif.Props.Archive

/-!
# C96: The library and Python agree on the shape of arrays
-/

namespace Equistore
open Spec

namespace PyWrapper

theorem known_iff {w : PyWrapper} : ShapeIsKnown w ↔ ∃ a, w = wrap a := by
  obtain ⟨array, shape⟩ := w
  constructor
  · rintro ⟨a, rfl, h⟩
    change Res.ok shape = _ at h
    obtain rfl := Res.ok.inj h
    exact ⟨a, rfl⟩
  · rintro ⟨a, h⟩
    exact ⟨a, by rw [h]; rfl, by rw [h]; rfl⟩

theorem unwrap_wrap (a : NumpyArray) : unwrap (wrap a) = a := rfl

theorem reshape_wrap (a : NumpyArray) (shape : List Nat) :
    ArrayLike.reshape (wrap a) shape = (wrap (ArrayLike.reshape a shape).1, (ArrayLike.reshape a shape).2) := by
  change (wrap a).reshape shape = (wrap (a.reshape shape).1, (a.reshape shape).2)
  unfold reshape NumpyArray.reshape wrap
  by_cases h : shapeSize shape = shapeSize a.array.shape
  · simp [h]
  · simp [h]

theorem swapAxes_wrap (a : NumpyArray) (i j : Nat) :
    ArrayLike.swapAxes (wrap a) i j = (wrap (ArrayLike.swapAxes a i j).1, (ArrayLike.swapAxes a i j).2) := by
  change (wrap a).swapAxes i j = (wrap (a.swapAxes i j).1, (a.swapAxes i j).2)
  unfold swapAxes NumpyArray.swapAxes wrap
  by_cases h : i < a.array.shape.length ∧ j < a.array.shape.length
  · simp [h]
  · simp [h]

theorem moveSamplesFrom_shape (a b : NumpyArray) (samples : List SampleMapping) (start stop : Nat) :
    (a.moveSamplesFrom b samples start stop).1.array.shape = a.array.shape := by
  unfold NumpyArray.moveSamplesFrom
  dsimp only
  repeat' split
  all_goals rfl

theorem move_wrap (a b : NumpyArray) (samples : List SampleMapping) (start stop : Nat) :
    ArrayLike.moveSamplesFrom (wrap a) (wrap b) samples start stop =
      (wrap (ArrayLike.moveSamplesFrom a b samples start stop).1,
        (ArrayLike.moveSamplesFrom a b samples start stop).2) := by
  have h := moveSamplesFrom_shape a b samples start stop
  change (wrap a).moveSamplesFrom (wrap b) samples start stop = (wrap (a.moveSamplesFrom b samples start stop).1,
    (a.moveSamplesFrom b samples start stop).2)
  unfold moveSamplesFrom
  simp only [wrap, h]

theorem kept : KeptByCallbacks ShapeIsKnown where
  reshape w shape h := by
    obtain ⟨a, rfl⟩ := known_iff.1 h
    exact known_iff.2 ⟨_, congrArg Prod.fst (reshape_wrap a shape)⟩
  swapAxes w i j h := by
    obtain ⟨a, rfl⟩ := known_iff.1 h
    exact known_iff.2 ⟨_, congrArg Prod.fst (swapAxes_wrap a i j)⟩
  create w shape w' h e := by
    obtain ⟨a, rfl⟩ := known_iff.1 h
    exact known_iff.2 ⟨_, (Res.ok.inj e).symm⟩
  move output input samples start stop h1 h2 := by
    obtain ⟨a, rfl⟩ := known_iff.1 h1
    obtain ⟨b, rfl⟩ := known_iff.1 h2
    exact known_iff.2 ⟨_, congrArg Prod.fst (move_wrap a b samples start stop)⟩

theorem same : SameCallbacksOn ShapeIsKnown unwrap where
  origin _ _ := rfl
  shape w h := by
    obtain ⟨a, rfl⟩ := known_iff.1 h
    rfl
  reshape w shape h := by
    obtain ⟨a, rfl⟩ := known_iff.1 h
    rw [reshape_wrap]
    rfl
  swapAxes w i j h := by
    obtain ⟨a, rfl⟩ := known_iff.1 h
    rw [swapAxes_wrap]
    rfl
  create w shape h := by
    obtain ⟨a, rfl⟩ := known_iff.1 h
    rfl
  move output input samples start stop h1 h2 := by
    obtain ⟨a, rfl⟩ := known_iff.1 h1
    obtain ⟨b, rfl⟩ := known_iff.1 h2
    rw [move_wrap]
    rfl

theorem write_wrap (f : Nat → Elt) (a : NumpyArray) :
    (Edit.write f).onWrapper (wrap a) = wrap ((Edit.write f).onArray a) := rfl

section
variable {A B : Type}

theorem editArray_all {Q : A → Prop} {f : A → A} (hf : ∀ a, Q a → Q (f a)) {i : Nat} {g : Option String}
    {t : TensorMap A} (h : t.AllData Q) : (editArray i g f t).AllData Q := by
  intro b hb
  obtain ⟨j, hj, rfl⟩ := List.mem_mapIdx.1 hb
  obtain ⟨h1, h2⟩ := h t.blocks[j] (List.getElem_mem hj)
  split
  · cases g with
    | none => exact ⟨hf _ h1, h2⟩
    | some g =>
      refine ⟨h1, fun p hp => ?_⟩
      obtain ⟨q, hq, rfl⟩ := List.mem_map.1 hp
      split
      · exact hf _ (h2 q hq)
      · exact h2 q hq
  · exact ⟨h1, h2⟩

theorem editArray_mapData {Q : A → Prop} {u : A → B} {f : A → A} {f' : B → B} (hf : ∀ a, Q a → u (f a) = f' (u a))
    {i : Nat} {g : Option String} {t : TensorMap A} (h : t.AllData Q) :
    editArray i g f' (t.mapData u) = (editArray i g f t).mapData u := by
  unfold editArray TensorMap.mapData
  simp only [TensorMap.mk.injEq, true_and]
  refine List.ext_getElem (by simp) fun j h1 h2 => ?_
  simp only [List.getElem_mapIdx, List.getElem_map]
  have hj : j < t.blocks.length := by simpa using h1
  obtain ⟨hv, hg⟩ := h t.blocks[j] (List.getElem_mem hj)
  by_cases e : j = i
  · simp only [e, if_true]
    subst e
    cases g with
    | none =>
      unfold TensorBlock.mapData
      simp only [TensorBlock.mk.injEq, and_true]
      unfold BasicBlock.withData
      simp only [BasicBlock.mk.injEq, and_true]
      exact (hf _ hv).symm
    | some g =>
      unfold TensorBlock.mapData
      simp only [TensorBlock.mk.injEq, and_true, true_and, List.map_map]
      refine List.map_congr_left fun p hp => ?_
      simp only [Function.comp_apply]
      by_cases ep : p.1 = g
      · simp only [ep, if_true]
        unfold BasicBlock.withData
        simp [hf _ (hg p hp)]
      · simp [ep]
  · simp only [e, if_false]

end
end PyWrapper

open PyWrapper

/-- The program does not assign `array.shape`. -/
def NoNewShape (steps : List PyStep) : Prop := ∀ i g shape, PyStep.edit i g (.setShape shape) ∉ steps

/-- **C96**, full statement: starting with any numpy arrays in a tensor map, after any program using the library and
the arrays, the library has the shape of all arrays. -/
def C96_full_statement : Prop :=
  ∀ (build : Build) (hash : Nat → HashOrder), (∀ n, OrderByName (hash n)) → ∀ (steps : List PyStep)
    (t : TensorMap NumpyArray),
    ShapesAreKnown (runSteps (fun e w => e.onWrapper w) build hash steps (t.mapData wrap)).1

/-- **C96**, partial: without assignments to `array.shape`. Operations may fail. Everything happens as if the library
was using the arrays themselves: the same outcomes, and the same arrays in the end. -/
theorem C96_partial (build : Build) (hash : Nat → HashOrder) (hh : ∀ n, OrderByName (hash n)) (steps : List PyStep)
    (hs : NoNewShape steps) (t : TensorMap PyWrapper) (ht : ShapesAreKnown t) :
    ShapesAreKnown (runSteps (fun e w => e.onWrapper w) build hash steps t).1 ∧
    runSteps (fun e a => e.onArray a) build hash steps (t.mapData unwrap) =
      ((runSteps (fun e w => e.onWrapper w) build hash steps t).1.mapData unwrap,
        (runSteps (fun e w => e.onWrapper w) build hash steps t).2) := by
  induction steps generalizing t hash with
  | nil => exact ⟨ht, rfl⟩
  | cons s steps ih =>
    have hs' : NoNewShape steps := fun i g shape h => hs i g shape (List.mem_cons_of_mem _ h)
    cases s with
    | operation op =>
      obtain ⟨h1, h2⟩ := kept.run same (build := build) (hh 0) op (t := t) ht
      obtain ⟨h3, h4⟩ := ih (fun n => hash (n + 1)) (fun n => hh (n + 1)) hs' (op.run build (hash 0) t).1 h2
      refine ⟨h3, ?_⟩
      simp only [runSteps, h1, h4]
    | edit i g e =>
      cases e with
      | setShape shape => exact absurd List.mem_cons_self (hs i g shape)
      | write f =>
        have h1 : (editArray i g (fun w => (Edit.write f).onWrapper w) t).AllData ShapeIsKnown := by
          refine editArray_all (fun w hw => ?_) ht
          obtain ⟨a, rfl⟩ := known_iff.1 hw
          exact known_iff.2 ⟨_, write_wrap f a⟩
        obtain ⟨h3, h4⟩ := ih (fun n => hash (n + 1)) (fun n => hh (n + 1)) hs' _ h1
        refine ⟨h3, ?_⟩
        simp only [runSteps]
        rw [editArray_mapData (Q := ShapeIsKnown) (f := fun w => (Edit.write f).onWrapper w) ?_ ht, h4]
        intro w hw
        obtain ⟨a, rfl⟩ := known_iff.1 hw
        rfl

/-- Arrays given to the library, and arrays made by `create` and `copy`, start with the right shape. Without an array
(after `destroy`), `create` and `copy` fail. -/
theorem C96_new (a : NumpyArray) (w w' : PyWrapper) (shape : List Nat) :
    ShapeIsKnown (wrap a) ∧
    (ArrayLike.create w shape = .ok w' → ShapeIsKnown w' ∧ ArrayLike.shape w' = .ok shape) ∧
    (w.copy = .ok w' → ShapeIsKnown w' ∧ w'.array = w.array) ∧
    ¬ (ArrayLike.create w.destroy shape = .ok w') ∧ ¬ (w.destroy.copy = .ok w') := by
  refine ⟨known_iff.2 ⟨a, rfl⟩, ?_, ?_, ?_, ?_⟩
  · intro h
    change w.create shape = _ at h
    unfold create at h
    split at h
    · obtain rfl := Res.ok.inj h
      exact ⟨known_iff.2 ⟨_, rfl⟩, rfl⟩
    · cases h
  · intro h
    unfold copy at h
    split at h
    · rename_i b hb
      obtain rfl := Res.ok.inj h
      exact ⟨known_iff.2 ⟨_, rfl⟩, hb.symm⟩
    · cases h
  · intro h; cases h
  · intro h; cases h

/-- A single array: whatever the library calls and the program writes, in any order, the shape stays known as long as
the program does not assign `array.shape`. -/
theorem C96_wrapper (w : PyWrapper) (hw : ShapeIsKnown w) (steps : List WrapperStep)
    (hs : ∀ shape, WrapperStep.edit (.setShape shape) ∉ steps) :
    ShapeIsKnown (steps.foldl WrapperStep.run w) := by
  induction steps generalizing w with
  | nil => exact hw
  | cons s steps ih =>
    refine ih _ ?_ fun shape h => hs shape (List.mem_cons_of_mem _ h)
    cases s with
    | reshape shape => exact kept.reshape w shape hw
    | swapAxes i j => exact kept.swapAxes w i j hw
    | moveSamplesFrom input samples start stop =>
      cases e : input.array with
      | none =>
        change ShapeIsKnown (w.moveSamplesFrom input samples start stop).1
        unfold moveSamplesFrom
        rw [e]
        cases w.array <;> exact hw
      | some b =>
        have : ArrayLike.moveSamplesFrom w input samples start stop =
            ArrayLike.moveSamplesFrom w (wrap b) samples start stop := by
          change w.moveSamplesFrom input samples start stop = w.moveSamplesFrom (wrap b) samples start stop
          unfold moveSamplesFrom
          rw [e]
          rfl
        change ShapeIsKnown (ArrayLike.moveSamplesFrom w input samples start stop).1
        rw [this]
        exact kept.move w (wrap b) samples start stop hw (known_iff.2 ⟨b, rfl⟩)
    | edit e =>
      cases e with
      | setShape shape => exact absurd List.mem_cons_self (hs shape)
      | write f =>
        obtain ⟨a, rfl⟩ := known_iff.1 hw
        exact known_iff.2 ⟨_, write_wrap f a⟩

/-- What an assignment to `array.shape` does: the library keeps the previous shape. -/
theorem C96_assigned (w : PyWrapper) (a : NumpyArray) (ha : w.array = some a) (hw : ShapeIsKnown w)
    (shape : List Nat) (h : shapeSize shape = shapeSize a.array.shape) :
    ArrayLike.shape ((Edit.setShape shape).onWrapper w) = .ok a.array.shape ∧
    (∃ a', ((Edit.setShape shape).onWrapper w).array = some a' ∧ a'.array.shape = shape) ∧
    (ShapeIsKnown ((Edit.setShape shape).onWrapper w) ↔ shape = a.array.shape) := by
  obtain ⟨b, rfl⟩ := known_iff.1 hw
  obtain rfl : b = a := Option.some.inj ha
  have e : ((Edit.setShape shape).onWrapper (wrap b)).array =
      some ⟨{ b.array with shape }, b.complete.trans h.symm⟩ := by
    simp [Edit.onWrapper, Edit.onArray, wrap, h]
  refine ⟨rfl, ⟨_, e, rfl⟩, ?_⟩
  constructor
  · rintro ⟨c, hc, hs⟩
    rw [e] at hc
    obtain rfl := Option.some.inj hc
    exact (Res.ok.inj hs).symm
  · rintro rfl
    exact ⟨_, e, rfl⟩

/-- The shape is known again when the library changes it: after `reshape` or `swap_axes`, whatever happened before. -/
theorem C96_again (w w' : PyWrapper) :
    (∀ shape, ArrayLike.reshape w shape = (w', .ok ()) → ShapeIsKnown w' ∧ ArrayLike.shape w' = .ok shape) ∧
    (∀ i j, ArrayLike.swapAxes w i j = (w', .ok ()) → ShapeIsKnown w') := by
  constructor
  · intro shape h
    change w.reshape shape = _ at h
    unfold reshape at h
    split at h
    · rename_i a ha
      split at h
      · rename_i b hb
        obtain rfl := (Prod.mk.injEq .. ▸ h : _ ∧ _).1
        refine ⟨⟨b, rfl, ?_⟩, rfl⟩
        unfold NumpyArray.reshape at hb
        split at hb
        · obtain rfl := congrArg Prod.fst hb
          rfl
        · cases (congrArg Prod.snd hb)
      · rename_i r hr _
        obtain ⟨_, rfl⟩ := (Prod.mk.injEq .. ▸ h : _ ∧ _)
        exact (hr rfl).elim
    · cases (congrArg Prod.snd h)
  · intro i j h
    change w.swapAxes i j = _ at h
    unfold swapAxes at h
    split at h
    · split at h
      · rename_i b hb
        obtain rfl := (Prod.mk.injEq .. ▸ h : _ ∧ _).1
        exact ⟨b, rfl, rfl⟩
      · rename_i r hr _
        obtain ⟨_, rfl⟩ := (Prod.mk.injEq .. ▸ h : _ ∧ _)
        exact (hr rfl).elim
    · cases (congrArg Prod.snd h)

/-- Files: while the shapes are known, `save` writes the arrays the program sees. -/
theorem C96_save (build : Build) (py : PyLiteral) (native : Endian) (hash : HashOrder) (hh : OrderByName hash)
    (t : TensorMap PyWrapper) (ht : ShapesAreKnown t) :
    save build py native hash t = save build py native hash (t.mapData unwrap) := by
  let _ := kept.callbacks
  obtain ⟨u, rfl⟩ := exists_attached (Q := ShapeIsKnown) ht
  have h1 := save_same (f := fun a : { w // ShapeIsKnown w } => a.1) (fun _ => rfl) (build := build) (py := py)
    (native := native) hh (t := u) fun b _ => ⟨rfl, fun _ _ => rfl⟩
  have h2 := save_same (f := fun a : { w // ShapeIsKnown w } => unwrap a.1) (fun a => same.shape a.1 a.2)
    (build := build) (py := py) (native := native) hh (t := u) (by
      have key : ∀ a : { w // ShapeIsKnown w }, ArrayLike.data (unwrap a.1) = ArrayLike.data a := by
        rintro ⟨w, hw⟩
        obtain ⟨a, rfl⟩ := known_iff.1 hw
        rfl
      exact fun b _ => ⟨key _, fun _ _ => key _⟩)
  rw [mapData_mapData', h2, ← h1]

/-- Blocks: while the shapes are known, a block is accepted if and only if it is with the array the program sees. -/
theorem C96_blocks (w : PyWrapper) (hw : ShapeIsKnown w) (samples : Labels) (components : List Labels)
    (properties : Labels) :
    TensorBlock.new (unwrap w) samples components properties =
      ((TensorBlock.new w samples components properties).bind fun b => .ok (b.mapData unwrap)) := by
  let _ := kept.callbacks
  have h1 := kept.sameVal.toSameViews.newBlock ⟨w, hw⟩ samples components properties
  have h2 := (kept.same same).toSameViews.newBlock ⟨w, hw⟩ samples components properties
  simp only at h1 h2
  rw [h1, h2]
  cases TensorBlock.new (⟨w, hw⟩ : { w // ShapeIsKnown w }) samples components properties with
  | ok b =>
    obtain ⟨values, gradients, list⟩ := b
    simp only [Res.map, Res.bind, Res.ok.injEq]
    unfold TensorBlock.mapData
    simp only [TensorBlock.mk.injEq, and_true, List.map_map]
    exact ⟨rfl, List.map_congr_left fun _ _ => rfl⟩
  | err e => rfl
  | panic m => rfl

/-- Gradients: while the shapes are known, a gradient is accepted if and only if it is with the arrays the program sees,
and the shapes are still known. -/
theorem C96_gradients (b : TensorBlock PyWrapper) (hb : ShapeIsKnown b.values.data)
    (hg : ∀ p ∈ b.gradients, ShapeIsKnown p.2.data) (w : PyWrapper) (hw : ShapeIsKnown w) (parameter : String)
    (samples : Labels) (components : List Labels) :
    TensorBlock.addGradient parameter (unwrap w) samples components (b.mapData unwrap) =
      ((TensorBlock.addGradient parameter w samples components b).1.mapData unwrap,
        (TensorBlock.addGradient parameter w samples components b).2) ∧
    ∀ p ∈ (TensorBlock.addGradient parameter w samples components b).1.gradients, ShapeIsKnown p.2.data := by
  let _ := kept.callbacks
  obtain ⟨⟨keys, us⟩, hu⟩ := exists_attached (Q := ShapeIsKnown) (t := (⟨samples, [b]⟩ : TensorMap PyWrapper)) (by
    intro b' hb'
    rw [List.mem_singleton] at hb'
    subst hb'
    exact ⟨hb, hg⟩)
  obtain ⟨-, hu⟩ := (TensorMap.mk.injEq .. ▸ hu : _ ∧ _)
  obtain ⟨u, rfl, rfl⟩ : ∃ u, us = [u] ∧ TensorBlock.mapData Subtype.val u = b := by
    match us, hu with
    | [u], hu => exact ⟨u, rfl, (List.cons.inj hu).1⟩
  have h1 := kept.sameVal.toSameViews.addGradient parameter ⟨w, hw⟩ samples components u
  have h2 := (kept.same same).toSameViews.addGradient parameter ⟨w, hw⟩ samples components u
  simp only at h1 h2
  have e : ∀ u : TensorBlock { w // ShapeIsKnown w },
      (u.mapData Subtype.val).mapData unwrap = u.mapData fun a => unwrap a.1 := by
    intro u
    unfold TensorBlock.mapData BasicBlock.withData
    simp [List.map_map, Function.comp_def]
  rw [e, h2]
  refine ⟨?_, ?_⟩
  · rw [show TensorBlock.addGradient parameter w samples components (u.mapData Subtype.val) = _ from h1, e]
  · rw [show TensorBlock.addGradient parameter w samples components (u.mapData Subtype.val) = _ from h1]
    intro p hp
    unfold TensorBlock.mapData at hp
    simp only [List.mem_map] at hp
    obtain ⟨q, -, rfl⟩ := hp
    exact q.2.data.2

namespace Example

/-- Two blocks with 2 samples and 2 properties each. -/
def squareBlock (x : Nat) : TensorBlock NumpyArray :=
  ⟨⟨⟨⟨[2, 2], [x, x + 1, x + 2, x + 3]⟩, rfl⟩, Labels.mk' ["s"] [[0], [1]], [], Labels.mk' ["p"] [[0], [1]]⟩, [], []⟩
def squares : TensorMap NumpyArray := ⟨Labels.mk' ["k", "l"] [[0, 1], [0, 2]], [squareBlock 10, squareBlock 20]⟩

/-- `tensor.block(0).values.shape = (4, 1)`, and then `tensor.keys_to_samples("l")`. -/
def assignShape : List PyStep := [.edit 0 none (.setShape [4, 1]), .operation (.keysToSamples moveL true)]

/-- The elements the program sees in the values. -/
def seen (t : TensorMap PyWrapper) : List (List Nat × List Elt) :=
  t.blocks.map fun b => ((unwrap b.values.data).array.shape, (unwrap b.values.data).array.elements)

/-- A program without assignments of a shape: all values of the first block and of its gradients are replaced, then
blocks are merged. -/
def writing : List PyStep :=
  [.edit 0 none (.write fun k => k), .edit 0 (some "g") (.write fun k => k + 100),
    .operation (.keysToSamples moveL true)]

end Example

/-- **C96** is false: the program can assign `array.shape`. -/
theorem C96_counterexample : ¬ C96_full_statement := by
  intro h
  have h1 := h ⟨true⟩ (fun _ => .insertion) (fun _ => Example.order_insertion) [.edit 0 none (.setShape [4, 1])] Example.squares
  obtain ⟨⟨a, h2, h3⟩, _⟩ := h1 _ List.mem_cons_self
  obtain rfl := Option.some.inj h2
  revert h3
  decide +kernel

/-- What follows from this: the next operation can succeed, with other numbers than the ones in the arrays. The values
10, 11, 12, 13 of the first block become 10, 10, 11, 11. -/
theorem C96_wrong_values :
    TensorValid (Example.squares.mapData wrap) ∧
    (runSteps (fun e w => e.onWrapper w) ⟨true⟩ (fun _ => .insertion) Example.assignShape
      (Example.squares.mapData wrap)).2 = [.ok ()] ∧
    Example.seen (runSteps (fun e w => e.onWrapper w) ⟨true⟩ (fun _ => .insertion) Example.assignShape
      (Example.squares.mapData wrap)).1 = [([4, 2], [10, 10, 20, 21, 11, 11, 22, 23])] := by
  refine ⟨TensorMap.valid_of_rebuilds (by decide +kernel), ?_⟩
  decide +kernel

/-- The hypotheses of `C96_partial` and `C96_save` are met, and the operations succeed. -/
example :
    NoNewShape Example.writing ∧ ShapesAreKnown (Example.tensor.mapData fun a => wrap (Example.toNumpy a)) ∧
    (runSteps (fun e w => e.onWrapper w) ⟨true⟩ (fun _ => .insertion) Example.writing
      (Example.tensor.mapData fun a => wrap (Example.toNumpy a))).2 = [.ok ()] := by
  refine ⟨?_, ?_, by decide +kernel⟩
  · intro i g shape h
    simp [Example.writing] at h
  · exact allData_mapData (Q := ShapeIsKnown) (fun a => known_iff.2 ⟨_, rfl⟩) _

/-- The hypotheses of `C96_wrapper`, `C96_assigned`, `C96_again` and `C96_blocks` are met. -/
example :
    let w := wrap (Example.squareBlock 10).values.data
    ShapeIsKnown w ∧
    (∀ shape, WrapperStep.edit (.setShape shape) ∉ [.reshape [4, 1], .swapAxes 0 1, .edit (.write fun k => k)]) ∧
    shapeSize [4, 1] = shapeSize (Example.squareBlock 10).values.data.array.shape ∧
    (ArrayLike.reshape w [1, 4]).2 = .ok () ∧ (ArrayLike.swapAxes w 0 1).2 = .ok () ∧
    Example.isOk (TensorBlock.new w (Example.squareBlock 10).values.samples [] (Example.squareBlock 10).values.properties)
      = true := by
  refine ⟨known_iff.2 ⟨_, rfl⟩, fun shape h => by simp at h, ?_⟩
  decide +kernel

/-- The hypotheses of `C96_gradients` are met by a gradient which is accepted. -/
example :
    let wrapper := fun a => wrap (Example.toNumpy a)
    ShapeIsKnown (wrapper Example.gradientData) ∧ ShapeIsKnown (Example.block.mapData wrapper).values.data ∧
    (∀ p ∈ (Example.block.mapData wrapper).gradients, ShapeIsKnown p.2.data) ∧
    (TensorBlock.addGradient "g" (wrapper Example.gradientData) Example.gradientSamples
      [Example.direction, Example.component] (Example.block.mapData wrapper)).2 = .ok () :=
  ⟨known_iff.2 ⟨_, rfl⟩, known_iff.2 ⟨_, rfl⟩, fun p hp => absurd hp (List.not_mem_nil), by decide +kernel⟩

end Equistore
