import Verif.Lemmas.SubArrays
import Verif.Lemmas.SaveData
import Verif.Spec.NumpyTypes

/-! Callbacks of numpy arrays with number types, compared to arrays without types. -/

namespace Equistore
open Spec

namespace NumpyArray

theorem ext' {a b : NumpyArray} (h : a.array = b.array) : a = b := by
  cases a; cases b; cases h; rfl

theorem mapElements_id {f : Elt → Elt} {a : NumpyArray} (h : a.AllElements fun x => f x = x) :
    a.mapElements f = a := by
  refine ext' ?_
  obtain ⟨⟨shape, elements⟩, hc⟩ := a
  simp only [mapElements, NdArray.mk.injEq, true_and]
  exact (List.map_congr_left h).trans (List.map_id _)

theorem mapElements_mapElements (f g : Elt → Elt) (a : NumpyArray) :
    (a.mapElements f).mapElements g = a.mapElements fun x => g (f x) := by
  refine ext' ?_
  simp [mapElements, Function.comp_def]

theorem mapElements_build (c : Elt → Elt) (shape : List Nat) (f : List Nat → Elt) :
    (build shape f).mapElements c = build shape fun idx => c (f idx) := by
  refine ext' ?_
  simp [mapElements, build, NdArray.build, Function.comp_def]

theorem get_mapElements {c : Elt → Elt} (h0 : c 0 = 0) (a : NumpyArray) (idx : List Nat) :
    (a.mapElements c).array.get idx = c (a.array.get idx) := by
  unfold NdArray.get
  change (a.array.elements.map c).getD (offset a.array.shape idx) 0 = _
  rw [List.getD_eq_getElem?_getD, List.getD_eq_getElem?_getD, List.getElem?_map]
  cases a.array.elements[offset a.array.shape idx]? with
  | none => exact h0.symm
  | some x => rfl

theorem shape_mapElements (c : Elt → Elt) (a : NumpyArray) : (a.mapElements c).array.shape = a.array.shape := rfl

theorem reshape_mapElements (c : Elt → Elt) (a : NumpyArray) (shape : List Nat) :
    (a.mapElements c).reshape shape = ((a.reshape shape).1.mapElements c, (a.reshape shape).2) := by
  by_cases h : shapeSize shape = shapeSize a.array.shape
  · have h' : shapeSize shape = shapeSize (a.mapElements c).array.shape := h
    unfold reshape
    rw [dif_pos h, dif_pos h']
    rfl
  · have h' : ¬ shapeSize shape = shapeSize (a.mapElements c).array.shape := h
    unfold reshape
    rw [dif_neg h, dif_neg h']

theorem swapAxes_mapElements {c : Elt → Elt} (h0 : c 0 = 0) (a : NumpyArray) (i j : Nat) :
    (a.mapElements c).swapAxes i j = ((a.swapAxes i j).1.mapElements c, (a.swapAxes i j).2) := by
  unfold swapAxes
  rw [shape_mapElements]
  split
  · simp only [mapElements_build, get_mapElements h0]
  · rfl

theorem move_mapElements {c : Elt → Elt} (h0 : c 0 = 0) (output input : NumpyArray) (samples : List SampleMapping)
    (start stop : Nat) :
    moveSamplesFrom (output.mapElements c) (input.mapElements c) samples start stop =
      ((moveSamplesFrom output input samples start stop).1.mapElements c,
        (moveSamplesFrom output input samples start stop).2) := by
  unfold moveSamplesFrom
  simp only [shape_mapElements, get_mapElements h0]
  cases output.array.shape with
  | nil => rfl
  | cons nOut outRest =>
    cases input.array.shape with
    | nil => rfl
    | cons nIn inRest =>
      simp only
      cases outRest.getLast? with
      | none => rfl
      | some nProperties =>
        cases inRest.getLast? with
        | none => rfl
        | some _ =>
          simp only
          split
          · split
            · simp only [mapElements_build, Prod.mk.injEq, and_true]
              congr 1
              funext idx
              cases lastIndex (idx.headD 0) samples with
              | none => rfl
              | some k =>
                simp only
                split <;> rfl
            · rfl
          · rfl

end NumpyArray

namespace TypedArray
variable {T : NumberTypes}

theorem sameViews : SameViews (fun a : TypedArray T => a.array) :=
  ⟨SameViews.origin_id fun _ => rfl, fun _ => rfl, fun _ _ => rfl, fun _ _ _ => rfl⟩

/-- The type of an array is in the list. -/
def HasType (types : List T.Name) (a : TypedArray T) : Prop := a.dtype ∈ types

/-- The type of an array is in the list, and its numbers are numbers of all types in the list. -/
def InTypes (types : List T.Name) (a : TypedArray T) : Prop :=
  a.dtype ∈ types ∧ ∀ x ∈ a.array.array.elements, ∀ d ∈ types, T.cast d x = x

theorem kept_hasType (types : List T.Name) : KeptByCallbacks (HasType types) where
  reshape _ _ h := h
  swapAxes _ _ _ h := h
  create _ _ _ h e := by cases e; exact h
  move _ _ _ _ _ h _ := h

theorem kept_inTypes (types : List T.Name) : KeptByCallbacks (InTypes types) where
  reshape _ _ h := ⟨h.1, NumpyArray.reshape_all h.2 _⟩
  swapAxes _ _ _ h := ⟨h.1, NumpyArray.swapAxes_all (fun _ _ => T.cast_zero _) h.2 _ _⟩
  create _ _ _ h e := by
    cases e
    exact ⟨h.1, NumpyArray.build_all (P := fun x => ∀ d ∈ types, T.cast d x = x) (fun _ _ _ => T.cast_zero _) _⟩
  move output input _ _ _ h h' := by
    refine ⟨h.1, NumpyArray.move_all (P := fun x => ∀ d ∈ types, T.cast d x = x) (fun _ _ => T.cast_zero _) h.2 ?_ _ _ _⟩
    rw [NumpyArray.mapElements_id fun x hx => h'.2 x hx _ h.1]
    exact h'.2

theorem same_inTypes (types : List T.Name) : SameCallbacksOn (InTypes types) (fun a : TypedArray T => a.array) where
  origin _ _ := rfl
  shape _ _ := rfl
  reshape _ _ _ := rfl
  swapAxes _ _ _ _ := rfl
  create _ _ _ := rfl
  move output input samples start stop h h' := by
    change NumpyArray.moveSamplesFrom output.array input.array samples start stop =
      ((NumpyArray.moveSamplesFrom output.array (input.array.mapElements (T.cast output.dtype)) samples start stop).1,
        (NumpyArray.moveSamplesFrom output.array (input.array.mapElements (T.cast output.dtype)) samples start stop).2)
    rw [NumpyArray.mapElements_id fun x hx => h'.2 x hx _ h.1]

theorem same_mapped {Q : TypedArray T → Prop} {c : Elt → Elt} (h0 : c 0 = 0)
    (hc : ∀ a, Q a → ∀ x, c (T.cast a.dtype x) = c x) :
    SameCallbacksOn Q (fun a : TypedArray T => a.array.mapElements c) where
  origin _ _ := rfl
  shape _ _ := rfl
  reshape a shape _ := NumpyArray.reshape_mapElements _ a.array shape
  swapAxes a i j _ := NumpyArray.swapAxes_mapElements h0 a.array i j
  create a shape _ := by
    change Res.ok _ = Res.ok ((create a shape).array.mapElements _)
    unfold create
    rw [NumpyArray.mapElements_build, h0]
  move output input samples start stop h _ := by
    change NumpyArray.moveSamplesFrom _ _ _ _ _ =
      ((moveSamplesFrom output input samples start stop).1.array.mapElements _,
        (moveSamplesFrom output input samples start stop).2)
    have h1 := NumpyArray.move_mapElements h0 output.array
      (input.array.mapElements (T.cast output.dtype)) samples start stop
    rw [NumpyArray.mapElements_mapElements] at h1
    have h2 : (fun x => c (T.cast output.dtype x)) = c := funext fun x => hc _ h x
    rw [h2] at h1
    exact h1

/-- Arrays without types keep the same relation with rounding. -/
theorem same_map {c : Elt → Elt} (h0 : c 0 = 0) :
    SameCallbacks (fun a : NumpyArray => a.mapElements c) (fun _ => True) := by
  refine ⟨⟨SameViews.origin_id fun _ => rfl, fun _ => rfl, fun a shape => NumpyArray.reshape_mapElements _ a shape,
    fun a i j => NumpyArray.swapAxes_mapElements h0 a i j⟩, fun a shape => ?_, fun _ _ _ _ => trivial,
    fun o i s b e _ => NumpyArray.move_mapElements h0 o i s b e, fun _ _ _ _ _ _ => trivial⟩
  change Res.ok (NumpyArray.build shape fun _ => 0) =
    Res.ok ((NumpyArray.build shape fun _ => 0).mapElements _)
  rw [NumpyArray.mapElements_build, h0]

end TypedArray
end Equistore
