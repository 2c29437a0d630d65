import Verif.Spec.Torch
import Verif.Lemmas.SameCallbacks
import Verif.Lemmas.Accumulates
import Verif.Lemmas.Flags
import Verif.Lemmas.SaveData
import Verif.Props.KeysToProperties
import Verif.Props.Backend
import Verif.Props.NumpyIo

/-!
# Torch tensors in tensor maps (C78)
-/

namespace Equistore
open Spec

variable {device : Device}

/-! ### C78 -/

theorem sameCallbacks_torch :
    SameCallbacks (TorchTensor.array (device := device)) (fun a => a.autograd ≠ .leaf) where
  origin := by
    let g : Nat → Nat := fun n => if n = 4 then 3 else if n = 3 then 4 else n
    have hg : ∀ n, g (g n) = n := by
      intro n
      by_cases h1 : n = 4
      · subst h1; rfl
      · by_cases h2 : n = 3
        · subst h2; rfl
        · simp [g, h1, h2]
    exact ⟨g, Function.LeftInverse.injective hg, fun _ => rfl⟩
  shape _ := rfl
  reshape a shape := by
    change NumpyArray.reshape a.array shape = (TorchTensor.array (TorchTensor.reshape a shape).1, (TorchTensor.reshape a shape).2)
    have hu : (a.array.reshape shape).2 ≠ .ok () → (a.array.reshape shape).1 = a.array := by
      unfold NumpyArray.reshape
      split
      · intro h; exact absurd rfl h
      · intro _; rfl
    unfold TorchTensor.reshape
    revert hu
    rcases a.array.reshape shape with ⟨x, r | r | r⟩
    · intro _; rfl
    · intro hu; rw [← hu (by simp)]
    · intro hu; rw [← hu (by simp)]
  swapAxes a i j := by
    change NumpyArray.swapAxes a.array i j = (TorchTensor.array (TorchTensor.swapAxes a i j).1, (TorchTensor.swapAxes a i j).2)
    have hu : (a.array.swapAxes i j).2 ≠ .ok () → (a.array.swapAxes i j).1 = a.array := by
      unfold NumpyArray.swapAxes
      split
      · intro h; exact absurd rfl h
      · intro _; rfl
    unfold TorchTensor.swapAxes
    revert hu
    rcases a.array.swapAxes i j with ⟨x, r | r | r⟩
    · intro _; rfl
    · intro hu; rw [← hu (by simp)]
    · intro hu; rw [← hu (by simp)]
  create _ _ := rfl
  created a shape a' h := by
    cases h
    exact fun h => by cases h
  move output input samples start stop h := by
    change NumpyArray.moveSamplesFrom output.array input.array samples start stop =
      (TorchTensor.array (TorchTensor.moveSamplesFrom output input samples start stop).1,
        (TorchTensor.moveSamplesFrom output input samples start stop).2)
    have hu : (output.array.moveSamplesFrom input.array samples start stop).2 ≠ .ok () →
        (output.array.moveSamplesFrom input.array samples start stop).1 = output.array := by
      unfold NumpyArray.moveSamplesFrom
      intro h
      revert h
      split <;> (try exact fun _ => rfl)
      split <;> (try exact fun _ => rfl)
      split <;> (try exact fun _ => rfl)
      dsimp only
      split <;> intro h
      · exact absurd rfl h
      · rfl
    unfold TorchTensor.moveSamplesFrom
    rw [if_neg h]
    revert hu
    rcases output.array.moveSamplesFrom input.array samples start stop with ⟨x, r | r | r⟩
    · intro _; rfl
    · intro hu; rw [← hu (by simp)]
    · intro hu; rw [← hu (by simp)]
  moved output input samples start stop h := by
    change (TorchTensor.moveSamplesFrom output input samples start stop).1.autograd ≠ .leaf
    unfold TorchTensor.moveSamplesFrom
    rw [if_neg h]
    rcases output.array.moveSamplesFrom input.array samples start stop with ⟨x, r | r | r⟩
    · simp only [TorchTensor.result]
      split <;> simp
    · exact h
    · exact h

/-- **C78**, operations: any sequence of operations on a tensor map with torch tensors, on any device and requiring
gradients or not, has the same outcome and gives the same elements as with numpy arrays. -/
theorem C78_sequence (build : Build) (hash : Nat → HashOrder) (hh : ∀ n, OrderByName (hash n)) (ops : List Op)
    (t : TensorMap (TorchTensor device)) :
    (runAll build hash ops t).2 = (runAll build hash ops (t.mapData TorchTensor.array)).2 ∧
    (runAll build hash ops t).1.mapData TorchTensor.array =
      (runAll build hash ops (t.mapData TorchTensor.array)).1 := by
  rw [sameCallbacks_torch.runAll hh]
  exact ⟨rfl, rfl⟩

/-- **C78**, blocks: torch tensors are accepted in blocks and as gradients exactly if numpy arrays are. -/
theorem C78_blocks (data : TorchTensor device) (samples : Labels) (components : List Labels) (properties : Labels)
    (b : TensorBlock (TorchTensor device)) (parameter : String) :
    TensorBlock.new data.array samples components properties =
      (TensorBlock.new data samples components properties).map (TensorBlock.mapData TorchTensor.array) ∧
    TensorBlock.addGradient parameter data.array samples components (b.mapData TorchTensor.array) =
      ((TensorBlock.addGradient parameter data samples components b).1.mapData TorchTensor.array,
        (TensorBlock.addGradient parameter data samples components b).2) :=
  ⟨sameCallbacks_torch.newBlock _ _ _ _, sameCallbacks_torch.addGradient _ _ _ _ _⟩

/-! Tracking of gradients. -/

theorem requiresGrad_result (array : NumpyArray) (x : Bool) :
    TorchTensor.requiresGrad (device := device) ⟨array, TorchTensor.result x⟩ = x := by cases x <;> rfl

theorem accumulates_torch : Accumulates (TorchTensor.requiresGrad (device := device)) where
  create a shape b h := by cases h; rfl
  move output input samples start stop output' h := by
    change TorchTensor.moveSamplesFrom output input samples start stop = _ at h
    unfold TorchTensor.moveSamplesFrom at h
    split at h
    · cases h
    · split at h
      · cases h; exact requiresGrad_result _ _
      · cases h
      · cases h

theorem keepsFlag_torch : KeepsFlag (TorchTensor.requiresGrad (device := device)) where
  reshape a shape := by
    change (TorchTensor.reshape a shape).1.requiresGrad = a.requiresGrad
    unfold TorchTensor.reshape
    split
    · exact requiresGrad_result _ _
    · rfl
    · rfl
  swapAxes a i j := by
    change (TorchTensor.swapAxes a i j).1.requiresGrad = a.requiresGrad
    unfold TorchTensor.swapAxes
    split
    · exact requiresGrad_result _ _
    · rfl
    · rfl

section
variable (build : Build) (hash : HashOrder) (keysToMove : Labels) (sort : Bool) (t t' : TensorMap (TorchTensor device))

/-- **C78**, gradients followed by torch, `keys_to_samples`: an array in the result requires gradients exactly if this
is the case for one of the arrays which were merged. -/
theorem C78_keys_to_samples_tracked (ht : TensorValid t) (hm : keysToMove.FromBuilder)
    (h : t.keysToSamples build hash keysToMove sort = (t', .ok ()))
    (pairs pairs' : List (List LabelValue × TensorBlock (TorchTensor device)))
    (hp : t.iter = .ok pairs) (hp' : t'.iter = .ok pairs')
    (key' : List LabelValue) (b' : TensorBlock (TorchTensor device)) (hb' : (key', b') ∈ pairs') :
    Tracked (fun b => ∃ key, (key, b) ∈ pairs ∧ remainingKey t.keys.names keysToMove.names key = key') b' := by
  obtain ⟨hw, hr, hk⟩ := (keysToSamples_ok_iff ht hm).1 h
  rw [ht.iter_eq, Res.ok.injEq] at hp
  rw [hk.iter_eq, Res.ok.injEq] at hp'
  subst hp hp'
  have hg := group_ok ht (Labels.Holds.names_ok hw).2 hk.names key'
  obtain ⟨h1, h2⟩ := accumulates_torch.mergeBlocksAlongSamples hg rfl (Labels.Holds.names_pos hw) (hk.merged hb')
  constructor
  · refine h1.trans ((exists_toMerge (P := fun _ (b : TensorBlock (TorchTensor device)) => b.values.data.requiresGrad = true)).trans ?_)
    exact ⟨fun ⟨k, b, x, y, z⟩ => ⟨b, ⟨k, x, y⟩, z⟩, fun ⟨b, ⟨k, x, y⟩, z⟩ => ⟨k, b, x, y, z⟩⟩
  · intro q g' hq
    refine (h2 q g' hq).trans ((exists_toMerge
      (P := fun _ (b : TensorBlock (TorchTensor device)) => ∃ g, b.gradient q = some g ∧ g.data.requiresGrad = true)).trans ?_)
    exact ⟨fun ⟨k, b, x, y, z⟩ => ⟨b, ⟨k, x, y⟩, z⟩, fun ⟨b, ⟨k, x, y⟩, z⟩ => ⟨k, b, x, y, z⟩⟩

/-- **C78**, gradients followed by torch, `keys_to_properties`: an array in the result requires gradients exactly if this
is the case for one of the arrays which were merged. Arrays which are not requested by the user do not matter. -/
theorem C78_keys_to_properties_tracked (ht : TensorValid t) (hm : keysToMove.FromBuilder)
    (h : t.keysToProperties build hash keysToMove sort = (t', .ok ()))
    (pairs pairs' : List (List LabelValue × TensorBlock (TorchTensor device)))
    (hp : t.iter = .ok pairs) (hp' : t'.iter = .ok pairs')
    (key' : List LabelValue) (b' : TensorBlock (TorchTensor device)) (hb' : (key', b') ∈ pairs') :
    Tracked (fun b => ∃ key, (key, b) ∈ pairs ∧ remainingKey t.keys.names keysToMove.names key = key' ∧
      (entriesOf keysToMove = [] ∨ movedKey t.keys.names keysToMove.names key ∈ entriesOf keysToMove)) b' := by
  obtain ⟨hw, hk⟩ := (keysToProperties_ok_iff ht hm).1 h
  rw [ht.iter_eq, Res.ok.injEq] at hp
  rw [hk.iter_eq, Res.ok.injEq] at hp'
  subst hp hp'
  have hg := group_ok ht (Labels.Holds.names_ok hw).2 hk.names key'
  obtain ⟨h1, h2⟩ := accumulates_torch.mergeBlocksAlongProperties hg (userKeys_ok hw) (hk.merged hb')
  rw [entriesOf_eq hw]
  constructor
  · refine h1.trans ((exists_toMerge
      (P := fun k (b : TensorBlock (TorchTensor device)) => Listed (userKeys keysToMove) k ∧ b.values.data.requiresGrad = true)).trans ?_)
    simp only [listed_userKeys]
    exact ⟨fun ⟨k, b, x, y, l, z⟩ => ⟨b, ⟨k, x, y, l⟩, z⟩, fun ⟨b, ⟨k, x, y, l⟩, z⟩ => ⟨k, b, x, y, l, z⟩⟩
  · intro q g' hq
    refine (h2 q g' hq).trans ((exists_toMerge (P := fun k (b : TensorBlock (TorchTensor device)) => Listed (userKeys keysToMove) k ∧
      ∃ g, b.gradient q = some g ∧ g.data.requiresGrad = true)).trans ?_)
    simp only [listed_userKeys]
    exact ⟨fun ⟨k, b, x, y, l, z⟩ => ⟨b, ⟨k, x, y, l⟩, z⟩, fun ⟨b, ⟨k, x, y, l⟩, z⟩ => ⟨k, b, x, y, l, z⟩⟩

/-- **C78**, gradients followed by torch, `components_to_properties`: the same arrays require gradients afterwards,
even if the function fails. -/
theorem C78_components_tracked (names : List String) (ht : TensorValid t) :
    trackedArrays (t.componentsToProperties hash names).1 = trackedArrays t :=
  keepsFlag_torch.componentsToProperties hash names t fun b hb => (ht.blocks b hb).names

end

/-! Saving. -/

theorem torch_data (a : TorchTensor device) : ArrayLike.data a = .err (NumpyArray.raised "data") := by
  change TorchTensor.data a = _
  unfold TorchTensor.data TorchTensor.numpy
  by_cases h : device = .cpu
  · rw [if_pos h]
  · rw [if_neg h, if_neg (fun hc => h hc.1)]

/-- **C78**, what fails: `save` never works with torch tensors, wherever they are. -/
theorem C78_native_save_fails (build : Build) (py : PyLiteral) (native : Endian) (hash : HashOrder)
    (t : TensorMap (TorchTensor device)) (ht : t.blocks ≠ []) (archive : Archive) :
    save build py native hash t ≠ .ok archive := by
  intro h
  obtain ⟨b, bs, hb⟩ := List.exists_cons_of_ne_nil ht
  obtain ⟨⟨data, hd⟩, _⟩ := save_canRead h b (by rw [hb]; exact List.mem_cons_self)
  rw [torch_data] at hd
  cases hd

theorem toNumpy_toBool (a : TorchTensor device) : a.toNumpy.toBool = !a.requiresGrad := by
  obtain ⟨array, grad⟩ := a
  cases grad <;> rfl

theorem allToNumpy_iff (t : TensorMap (TorchTensor device)) : TorchTensor.allToNumpy t = true ↔ NoGradients t := by
  unfold TorchTensor.allToNumpy NoGradients EveryArray
  simp only [toNumpy_toBool, List.all_eq_true, Bool.and_eq_true, Bool.not_eq_true']

theorem pySave_mapData {A B : Type} [ArrayLike A] [ArrayLike B] (f : A → B) (view : B → NpArray) (native : Endian)
    (np : Numpy) (t : TensorMap A) :
    pySave view native np (t.mapData f) = pySave (fun a => view (f a)) native np t := by
  have hg : ∀ (b : TensorBlock A) i p, gradientAssignments view native (b.mapData f) i p =
      gradientAssignments (fun a => view (f a)) native b i p := by
    intro b i p
    unfold gradientAssignments
    rw [TensorBlock.mapData_gradient]
    cases b.gradient p <;> rfl
  have hb : ∀ (b : TensorBlock A) i, blockAssignments view native (b.mapData f) i =
      blockAssignments (fun a => view (f a)) native b i := by
    intro b i
    unfold blockAssignments
    simp only [funext (hg b i)]
    rfl
  have hi : pyIter (t.mapData f) = pyIter t := by
    have : ∀ i, pyBlockById (t.mapData f) i = pyBlockById t i := by
      intro i
      unfold pyBlockById
      simp
    unfold pyIter
    simp only [this]
    rfl
  have ha : tensorAssignments view native (t.mapData f) = tensorAssignments (fun a => view (f a)) native t := by
    unfold tensorAssignments
    rw [hi]
    simp only [TensorMap.mapData_blocks, List.getElem?_map]
    congr 1
    funext keys
    congr 1
    funext items
    congr 1
    congr 1
    funext x
    obtain ⟨⟨_, block⟩, i⟩ := x
    cases t.blocks[block]? with
    | none => rfl
    | some b => exact hb b i
  unfold pySave
  rw [ha]

/-- **C78**, saving with `use_numpy=True`: this fails if an array requires gradients; otherwise it gives the same file as with
numpy arrays, even if tensors are not on the CPU.

Partial: the default is `use_numpy=False`, and this never works, see `C78_native_save_fails` and
`C78_counterexample`. -/
theorem C78_save_partial (native : Endian) (np : Numpy) (t : TensorMap (TorchTensor device)) :
    (¬ NoGradients t → pySaveTensors native np t = .error .exception) ∧
    (NoGradients t → pySaveTensors native np t =
      pySave (fun a => arrayOfData native a.array.shape a.array.elements) native np (t.mapData TorchTensor.array)) := by
  unfold pySaveTensors
  constructor
  · intro h
    rw [if_neg (fun hc => h ((allToNumpy_iff t).1 hc))]
  · intro h
    rw [if_pos ((allToNumpy_iff t).2 h)]
    exact (pySave_mapData (view := NumpyArray.toNp native) ..).symm.trans rfl

/-- The full property: tensors on the CPU which do not require gradients are saved like numpy arrays. -/
def C78_full_statement : Prop :=
  ∀ (build : Build) (py : PyLiteral) (native : Endian) (hash : HashOrder) (t : TensorMap (TorchTensor .cpu)),
    LawfulPy py → OrderByName hash → TensorValid t → NoGradients t →
    save build py native hash t = save build py native hash (t.mapData TorchTensor.array)

namespace Example

/-- The example with tensors on the given device; `autograd` is what autograd knows about the values of each block. -/
def tensorTorch (device : Device) (autograd : List Autograd) : TensorMap (TorchTensor device) :=
  ⟨tensorNumpy.keys, (tensorNumpy.blocks.zip autograd).map fun (b, a) =>
    { b.mapData (fun array => ⟨array, .none⟩) with values := b.values.mapData fun array => ⟨array, a⟩ }⟩

theorem tensorTorch_valid : TensorValid (tensorTorch .cpu [.none, .leaf, .none]) :=
  TensorMap.valid_of_rebuilds (by decide +kernel)

theorem tensorTorch_none_valid : TensorValid (tensorTorch .cpu [.none, .none, .none]) :=
  TensorMap.valid_of_rebuilds (by decide +kernel)

theorem tensorTorch_none : NoGradients (tensorTorch .cpu [.none, .none, .none]) := by
  unfold NoGradients EveryArray
  decide +kernel

end Example

/-- **C78**, the defect: tensors on the CPU which do not require gradients are refused, with the message that they are not on the CPU. -/
theorem C78_counterexample : ¬ C78_full_statement := by
  intro h
  have h1 := h ⟨true⟩ PyLiteral.fragment .little .insertion _ lawful_fragment Example.order_insertion Example.tensorTorch_none_valid
    Example.tensorTorch_none
  have h2 : ∃ archive, save ⟨true⟩ PyLiteral.fragment .little .insertion
      ((Example.tensorTorch .cpu [.none, .none, .none]).mapData TorchTensor.array) = .ok archive := by
    exact Example.isOk_iff (by decide +kernel)
  obtain ⟨archive, h2⟩ := h2
  rw [h2] at h1
  exact C78_native_save_fails _ _ _ _ _ (by decide +kernel) _ h1

/-- Non-vacuity: a leaf would refuse to be modified, but all operations work; moving keys with a block requiring gradients to another
gives a tensor requiring gradients. -/
example :
    trackedArrays (Example.tensorTorch .cpu [.none, .leaf, .none]) =
      [(false, [("g", false)]), (true, [("g", false)]), (false, [("g", false)])] ∧
    ((Example.tensorTorch .cpu [.none, .leaf, .none]).keysToProperties ⟨true⟩ .insertion Example.moveL true).2 = .ok () ∧
    trackedArrays ((Example.tensorTorch .cpu [.none, .leaf, .none]).keysToProperties ⟨true⟩ .insertion Example.moveL true).1 =
      [(true, [("g", false)]), (false, [("g", false)])] ∧
    ((Example.tensorTorch .cpu [.none, .leaf, .none]).keysToSamples ⟨true⟩ .insertion Example.moveL true).2 = .ok () ∧
    trackedArrays ((Example.tensorTorch .cpu [.none, .leaf, .none]).keysToSamples ⟨true⟩ .insertion Example.moveL true).1 =
      [(true, [("g", false)]), (false, [("g", false)])] ∧
    trackedArrays ((Example.tensorTorch .cpu [.none, .leaf, .none]).keysToProperties ⟨true⟩ .insertion Example.selectL true).1 =
      [(false, [("g", false)]), (false, [("g", false)])] ∧
    (runAll ⟨true⟩ (fun _ => .insertion) [.keysToSamples Example.moveL true, .componentsToProperties ["c"]]
      (Example.tensorTorch (.other "cuda") [.none, .leaf, .none])).2 = .ok () ∧
    Example.moveL.FromBuilder ∧ Example.selectL.FromBuilder := by
  refine ⟨by decide +kernel, by decide +kernel, by decide +kernel, by decide +kernel, by decide +kernel, by decide +kernel,
    by decide +kernel, Example.moveL_fromBuilder, Labels.rebuilds_fromBuilder (by decide +kernel)⟩

/-- Non-vacuity of `C78_save_partial`: both cases exist. -/
example : NoGradients (Example.tensorTorch .cpu [.none, .none, .none]) ∧
    ¬ NoGradients (Example.tensorTorch (.other "cuda") [.none, .leaf, .none]) := by
  refine ⟨Example.tensorTorch_none, ?_⟩
  unfold NoGradients EveryArray
  decide +kernel

end Equistore
