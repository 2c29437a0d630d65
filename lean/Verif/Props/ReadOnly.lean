import Verif.Spec.ReadOnly
import Verif.Lemmas.SameCallbacks
import Verif.Lemmas.Flags
import Verif.Props.Backend
import Verif.Model.Archive

/-!
# Arrays protected against writing (C71)
-/

namespace Equistore
open Spec

variable {A : Type} [ArrayLike A]

/-! ### C71 -/

theorem sameCallbacks_guarded : SameCallbacks (Guarded.array (A := A)) (fun a => a.writable = true) where
  origin := SameViews.origin_id fun _ => rfl
  shape _ := rfl
  reshape _ _ := rfl
  swapAxes _ _ _ := rfl
  create a shape := by
    change ArrayLike.create a.array shape = Res.map Guarded.array (match ArrayLike.create a.array shape with
      | .ok array => .ok ⟨array, true⟩
      | .err e => .err e
      | .panic m => .panic m)
    cases ArrayLike.create a.array shape <;> rfl
  created a shape a' h := by
    change (match ArrayLike.create a.array shape with
      | .ok array => .ok ⟨array, true⟩
      | .err e => .err e
      | .panic m => .panic m) = Res.ok a' at h
    cases hc : ArrayLike.create a.array shape with
    | ok array => rw [hc] at h; cases h; rfl
    | err e => rw [hc] at h; cases h
    | panic m => rw [hc] at h; cases h
  move output input samples start stop h := by
    obtain ⟨array, writable⟩ := output
    subst h
    rfl
  moved output input samples start stop h := by
    obtain ⟨array, writable⟩ := output
    subst h
    rfl

/-- **C71**, operations: whatever the arrays do when they are called, whichever of them are protected against
writing, valid tensor map or not: an operation does exactly the same as without the protection. In
particular, it never fails because of the protection: the library does not ask for the elements of an array
given by the program to be modified. -/
theorem C71_operations (build : Build) (hash : HashOrder) (hh : OrderByName hash) (op : Op)
    (t : TensorMap (Guarded A)) :
    (op.run build hash t).2 = (op.run build hash (t.mapData Guarded.array)).2 ∧
    (op.run build hash t).1.mapData Guarded.array = (op.run build hash (t.mapData Guarded.array)).1 := by
  rw [sameCallbacks_guarded.run hh]
  exact ⟨rfl, rfl⟩

/-- **C71**, any sequence of operations. -/
theorem C71_sequence (build : Build) (hash : Nat → HashOrder) (hh : ∀ n, OrderByName (hash n)) (ops : List Op)
    (t : TensorMap (Guarded A)) :
    (runAll build hash ops t).2 = (runAll build hash ops (t.mapData Guarded.array)).2 ∧
    (runAll build hash ops t).1.mapData Guarded.array = (runAll build hash ops (t.mapData Guarded.array)).1 := by
  rw [sameCallbacks_guarded.runAll hh]
  exact ⟨rfl, rfl⟩

/-- **C71**, blocks: protected arrays are accepted in blocks and as gradients if and only if the same arrays
without protection are. -/
theorem C71_blocks (data : Guarded A) (samples : Labels) (components : List Labels) (properties : Labels)
    (b : TensorBlock (Guarded A)) (parameter : String) :
    TensorBlock.new data.array samples components properties =
      (TensorBlock.new data samples components properties).map (TensorBlock.mapData Guarded.array) ∧
    TensorBlock.addGradient parameter data.array samples components (b.mapData Guarded.array) =
      ((TensorBlock.addGradient parameter data samples components b).1.mapData Guarded.array,
        (TensorBlock.addGradient parameter data samples components b).2) :=
  ⟨sameCallbacks_guarded.newBlock _ _ _ _, sameCallbacks_guarded.addGradient _ _ _ _ _⟩

/-- An array of the tensor map with the given number. -/
def tagged (tensor : Nat) (a : Guarded A) : Tagged A := ⟨a.array, tensor, a.writable⟩

/-- Forget the number of the tensor map. -/
def untagged (a : Tagged A) : Guarded A := ⟨a.array, a.created⟩

theorem sameCallbacks_tagged (tensor : Nat) :
    SameCallbacks (tagged (A := A) tensor) (fun a => a.writable = true) where
  origin := SameViews.origin_id fun _ => rfl
  shape _ := rfl
  reshape _ _ := rfl
  swapAxes _ _ _ := rfl
  create a shape := by
    change (match ArrayLike.create a.array shape with
        | .ok array => .ok ⟨array, tensor, true⟩
        | .err e => .err e
        | .panic m => .panic m) =
      Res.map (tagged tensor) (match ArrayLike.create a.array shape with
        | .ok array => .ok ⟨array, true⟩
        | .err e => .err e
        | .panic m => .panic m)
    cases ArrayLike.create a.array shape <;> rfl
  created a shape a' h := sameCallbacks_guarded.created a shape a' h
  move output input samples start stop h := by
    obtain ⟨array, writable⟩ := output
    subst h
    change (if true = true ∧ tensor = tensor then _ else _) = _
    rw [if_pos ⟨rfl, rfl⟩]
    rfl
  moved output input samples start stop h := sameCallbacks_guarded.moved output input samples start stop h

theorem basic_tagged_untagged {tensor : Nat} {b : BasicBlock (Tagged A)} (h : b.data.tensor = tensor) :
    (b.mapData untagged).mapData (tagged tensor) = b := by
  obtain ⟨⟨array, _, created⟩, _, _, _⟩ := b
  subst h
  rfl

theorem tagged_untagged {tensor : Nat} {t : TensorMap (Tagged A)} (h : AllTagged tensor t) :
    (t.mapData untagged).mapData (tagged tensor) = t := by
  obtain ⟨keys, blocks⟩ := t
  unfold TensorMap.mapData
  simp only [TensorMap.mk.injEq, true_and, List.map_map]
  refine (List.map_congr_left fun b hb => ?_).trans (List.map_id _)
  obtain ⟨h1, h2⟩ := h b hb
  obtain ⟨values, gradients, list⟩ := b
  unfold TensorBlock.mapData
  simp only [Function.comp_apply, TensorBlock.mk.injEq, List.map_map, and_true, id_eq]
  refine ⟨basic_tagged_untagged h1, (List.map_congr_left fun g hg => ?_).trans (List.map_id _)⟩
  obtain ⟨n, g⟩ := g
  simp only [Function.comp_apply, id_eq, Prod.mk.injEq, true_and]
  exact basic_tagged_untagged (h2 _ hg)

theorem allTagged_mapData (tensor : Nat) (t : TensorMap (Guarded A)) :
    AllTagged tensor (t.mapData (tagged tensor)) := by
  intro b hb
  obtain ⟨b, _, rfl⟩ := List.mem_map.1 hb
  refine ⟨rfl, fun g hg => ?_⟩
  obtain ⟨g, _, rfl⟩ := List.mem_map.1 hg
  rfl

theorem untagged_array (t : TensorMap (Tagged A)) :
    (t.mapData untagged).mapData Guarded.array = t.mapData Tagged.array := by
  obtain ⟨keys, blocks⟩ := t
  unfold TensorMap.mapData
  simp only [TensorMap.mk.injEq, true_and, List.map_map]
  refine List.map_congr_left fun b hb => ?_
  unfold TensorBlock.mapData
  simp only [Function.comp_apply, TensorBlock.mk.injEq, List.map_map, and_true]
  exact ⟨rfl, List.map_congr_left fun g hg => rfl⟩

/-- **C71**, the contract of `move_samples_from`: in any sequence of operations on a tensor map, the output
array is always one the library created from an array in the same tensor map as the input. Arrays checking
this behave exactly like arrays which do not check it. -/
theorem C71_documented (build : Build) (hash : Nat → HashOrder) (hh : ∀ n, OrderByName (hash n)) (ops : List Op)
    (tensor : Nat) (t : TensorMap (Tagged A)) (ht : AllTagged tensor t) :
    (runAll build hash ops t).2 = (runAll build hash ops (t.mapData Tagged.array)).2 ∧
    (runAll build hash ops t).1.mapData Tagged.array = (runAll build hash ops (t.mapData Tagged.array)).1 ∧
    AllTagged tensor (runAll build hash ops t).1 := by
  have h1 := (sameCallbacks_tagged (A := A) tensor).runAll (build := build) hh ops (t.mapData untagged)
  rw [tagged_untagged ht] at h1
  have h2 := C71_sequence build hash hh ops (t.mapData untagged)
  rw [untagged_array] at h2
  rw [h1]
  refine ⟨h2.1, ?_, allTagged_mapData _ _⟩
  rw [← h2.2]
  generalize (runAll build hash ops (t.mapData untagged)).1 = u
  obtain ⟨keys, blocks⟩ := u
  unfold TensorMap.mapData
  simp only [TensorMap.mk.injEq, true_and, List.map_map]
  refine List.map_congr_left fun b hb => ?_
  unfold TensorBlock.mapData
  simp only [Function.comp_apply, TensorBlock.mk.injEq, List.map_map, and_true]
  exact ⟨rfl, List.map_congr_left fun g hg => rfl⟩

theorem saveGradients_guarded (build : Build) (py : PyLiteral) (native : Endian) (i : Nat)
    (gs : List (String × BasicBlock (Guarded A))) :
    saveGradients build py native i (gs.map fun g => (g.1, g.2.mapData Guarded.array)) =
      saveGradients build py native i gs := by
  induction gs with
  | nil => rfl
  | cons g gs ih =>
    obtain ⟨p, g⟩ := g
    rw [List.map_cons, saveGradients, saveGradients, ih]
    rfl

theorem saveBlocks_guarded (build : Build) (py : PyLiteral) (native : Endian) (hash : HashOrder)
    (hh : OrderByName hash) (bs : List (TensorBlock (Guarded A))) (i : Nat) :
    saveBlocks build py native hash (bs.map (TensorBlock.mapData Guarded.array)) i =
      saveBlocks build py native hash bs i := by
  induction bs generalizing i with
  | nil => rfl
  | cons b bs ih =>
    rw [List.map_cons, saveBlocks, saveBlocks, ih, TensorBlock.mapData_gradients, hh, saveGradients_guarded]
    rfl

/-- **C71**, files: saving a tensor map with protected arrays gives the same bytes. -/
theorem C71_save (build : Build) (py : PyLiteral) (native : Endian) (hash : HashOrder) (hh : OrderByName hash)
    (t : TensorMap (Guarded A)) :
    save build py native hash t = save build py native hash (t.mapData Guarded.array) := by
  unfold save
  rw [TensorMap.mapData_blocks, saveBlocks_guarded _ _ _ _ hh]
  rfl

theorem freshData_guarded : FreshData (fun a : Guarded A => a.writable = true) where
  create a shape b h := sameCallbacks_guarded.created a shape b h
  move output input samples start stop output' r ho h := by
    have := sameCallbacks_guarded.moved output input samples start stop ho
    rw [h] at this
    exact this

/-- **C71**, the arrays afterwards: after moving keys, all the arrays in the tensor map are new ones, which the
library may modify; none of the arrays of the program is left in it. -/
theorem C71_new_arrays (build : Build) (hash : HashOrder) (keysToMove : Labels) (sort : Bool)
    (t t' : TensorMap (Guarded A))
    (h : t.keysToSamples build hash keysToMove sort = (t', .ok ()) ∨
      t.keysToProperties build hash keysToMove sort = (t', .ok ())) :
    ∀ b ∈ t'.blocks, b.values.data.writable = true ∧ ∀ g ∈ b.gradients, g.2.data.writable = true := by
  rcases h with h | h
  · exact freshData_guarded.keysToSamples h
  · exact freshData_guarded.keysToProperties h

theorem keepsFlag_guarded : KeepsFlag (Guarded.writable (A := A)) := ⟨fun _ _ => rfl, fun _ _ _ => rfl⟩

/-- **C71**, the arrays afterwards: moving components, successfully or not, leaves every array in the tensor
map at its place. Arrays of the program stay protected. -/
theorem C71_same_arrays (hash : HashOrder) (names : List String) (t : TensorMap (Guarded A))
    (ht : TensorValid t) :
    writableFlags (t.componentsToProperties hash names).1 = writableFlags t :=
  keepsFlag_guarded.componentsToProperties hash names t fun b hb => (ht.blocks b hb).names

namespace Example

/-- The example with all arrays protected against writing. -/
def tensorProtected : TensorMap (Guarded NdArray) := tensor.mapData fun a => ⟨a, false⟩
/-- The example with arrays knowing that they belong to tensor map 7. -/
def tensorTagged : TensorMap (Tagged NdArray) := tensor.mapData fun a => ⟨a, 7, false⟩

end Example

/-- Non-vacuity: with protected arrays, the callback `move_samples_from` refuses to write in them; but both
ways to move keys, and moving components, work. -/
example :
    (∀ b ∈ Example.tensorProtected.blocks, b.values.data.writable = false) ∧
    (∀ b ∈ Example.tensorProtected.blocks, ∀ samples start stop,
      (ArrayLike.moveSamplesFrom b.values.data b.values.data samples start stop).2 =
        .panic "assignment destination is read-only") ∧
    (Op.run ⟨true⟩ .insertion Example.tensorProtected (.keysToSamples Example.moveL true)).2 = .ok () ∧
    (Op.run ⟨true⟩ .insertion Example.tensorProtected (.keysToProperties Example.moveL true)).2 = .ok () ∧
    (runAll ⟨true⟩ (fun _ => .insertion) [.keysToSamples Example.moveL true, .componentsToProperties ["c"]]
      Example.tensorProtected).2 = .ok () ∧
    (writableFlags Example.tensorProtected).head? = some (false, [("g", false)]) ∧
    OrderByName .insertion := by
  refine ⟨by decide +kernel, ?_, by decide +kernel, by decide +kernel, by decide +kernel, by decide +kernel,
    Example.order_insertion⟩
  intro b hb samples start stop
  have : b.values.data.writable = false := by
    revert b
    decide +kernel
  obtain ⟨⟨⟨array, writable⟩, _, _, _⟩, _, _⟩ := b
  change writable = false at this
  subst this
  rfl

/-- Non-vacuity of `C71_documented`: a sequence of operations which succeeds, with arrays which would refuse
to be modified. -/
example :
    AllTagged 7 Example.tensorTagged ∧
    (∀ b ∈ Example.tensorTagged.blocks, b.values.data.created = false) ∧
    (runAll ⟨false⟩ (fun _ => .reversed) [.keysToProperties Example.moveL true, .componentsToProperties ["c"]]
      Example.tensorTagged).2 = .ok () :=
  ⟨by unfold AllTagged; decide +kernel, by decide +kernel, by decide +kernel⟩

/-- Non-vacuity of `C71_same_arrays`. -/
example : TensorValid Example.tensorProtected ∧
    (Example.tensorProtected.componentsToProperties .insertion ["c"]).2 = .ok () :=
  ⟨TensorMap.valid_of_rebuilds (by decide +kernel), by decide +kernel⟩

end Equistore
