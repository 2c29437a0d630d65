import Verif.Lemmas.SameCallbacks
import Verif.Lemmas.AllData

/-! Operations on tensor maps where all arrays have a property, which is kept by all callbacks. -/

namespace Equistore
open Spec

variable {A B : Type} [ArrayLike A] [ArrayLike B]

/-- All callbacks keep the property `Q` of arrays. -/
structure KeptByCallbacks (Q : A → Prop) : Prop where
  reshape : ∀ a shape, Q a → Q (ArrayLike.reshape a shape).1
  swapAxes : ∀ a i j, Q a → Q (ArrayLike.swapAxes a i j).1
  create : ∀ a shape a', Q a → ArrayLike.create a shape = .ok a' → Q a'
  move : ∀ output input samples start stop, Q output → Q input →
    Q (ArrayLike.moveSamplesFrom output input samples start stop).1

/-- The callbacks of `B` do for `f a` what the callbacks of `A` do for `a`, for arrays with the property `Q`. -/
structure SameCallbacksOn (Q : A → Prop) (f : A → B) : Prop where
  origin : ∀ a, Q a → ArrayLike.origin (f a) = ArrayLike.origin a
  shape : ∀ a, Q a → ArrayLike.shape (f a) = ArrayLike.shape a
  reshape : ∀ a shape, Q a → ArrayLike.reshape (f a) shape =
    (f (ArrayLike.reshape a shape).1, (ArrayLike.reshape a shape).2)
  swapAxes : ∀ a i j, Q a → ArrayLike.swapAxes (f a) i j =
    (f (ArrayLike.swapAxes a i j).1, (ArrayLike.swapAxes a i j).2)
  create : ∀ a shape, Q a → ArrayLike.create (f a) shape = (ArrayLike.create a shape).map f
  move : ∀ output input samples start stop, Q output → Q input →
    ArrayLike.moveSamplesFrom (f output) (f input) samples start stop =
      (f (ArrayLike.moveSamplesFrom output input samples start stop).1,
        (ArrayLike.moveSamplesFrom output input samples start stop).2)

namespace KeptByCallbacks
variable {Q : A → Prop}

/-- A new array with its property. -/
def attach (r : Res A) (h : ∀ a, r = .ok a → Q a) : Res { a // Q a } :=
  match r, h with
  | .ok a, h => .ok ⟨a, h a rfl⟩
  | .err e, _ => .err e
  | .panic m, _ => .panic m

theorem attach_map (r : Res A) (h : ∀ a, r = .ok a → Q a) : (attach r h).map Subtype.val = r := by
  cases r <;> rfl

theorem attach_map' (f : A → B) (r : Res A) (h : ∀ a, r = .ok a → Q a) :
    (attach r h).map (fun a => f a.1) = r.map f := by
  cases r <;> rfl

/-- The callbacks for arrays with the property. -/
@[reducible] def callbacks (h : KeptByCallbacks Q) : ArrayLike { a // Q a } where
  origin a := ArrayLike.origin a.1
  data a := ArrayLike.data a.1
  shape a := ArrayLike.shape a.1
  reshape a shape := (⟨(ArrayLike.reshape a.1 shape).1, h.reshape a.1 shape a.2⟩, (ArrayLike.reshape a.1 shape).2)
  swapAxes a i j := (⟨(ArrayLike.swapAxes a.1 i j).1, h.swapAxes a.1 i j a.2⟩, (ArrayLike.swapAxes a.1 i j).2)
  create a shape := attach (ArrayLike.create a.1 shape) fun a' e => h.create a.1 shape a' a.2 e
  moveSamplesFrom output input samples start stop :=
    (⟨(ArrayLike.moveSamplesFrom output.1 input.1 samples start stop).1,
      h.move output.1 input.1 samples start stop output.2 input.2⟩,
      (ArrayLike.moveSamplesFrom output.1 input.1 samples start stop).2)

theorem same (h : KeptByCallbacks Q) {f : A → B} (hf : SameCallbacksOn Q f) :
    letI := h.callbacks
    SameCallbacks (fun a : { a // Q a } => f a.1) (fun _ => True) := by
  letI := h.callbacks
  refine ⟨⟨SameViews.origin_id fun a => hf.origin a.1 a.2, fun a => hf.shape a.1 a.2, fun a s => hf.reshape a.1 s a.2,
    fun a i j => hf.swapAxes a.1 i j a.2⟩, fun a shape => ?_, fun _ _ _ _ => trivial,
    fun output input samples start stop _ => hf.move output.1 input.1 samples start stop output.2 input.2,
    fun _ _ _ _ _ _ => trivial⟩
  rw [hf.create a.1 shape a.2]
  exact (attach_map' f _ _).symm

theorem sameVal (h : KeptByCallbacks Q) :
    letI := h.callbacks
    SameCallbacks (fun a : { a // Q a } => a.1) (fun _ => True) :=
  h.same (f := fun a => a) ⟨fun _ _ => rfl, fun _ _ => rfl, fun _ _ _ => rfl, fun _ _ _ _ => rfl,
    fun a shape _ => by change ArrayLike.create a shape = _; cases ArrayLike.create a shape <;> rfl,
    fun _ _ _ _ _ _ _ => rfl⟩

end KeptByCallbacks

omit [ArrayLike B] in
theorem allData_mapData {C : Type} {Q : B → Prop} {f : C → B} (h : ∀ c, Q (f c)) (t : TensorMap C) :
    (t.mapData f).AllData Q := by
  intro b hb
  obtain ⟨b, _, rfl⟩ := List.mem_map.1 hb
  refine ⟨h _, fun g hg => ?_⟩
  obtain ⟨g, _, rfl⟩ := List.mem_map.1 hg
  exact h _

omit [ArrayLike B] in
theorem mapData_congr {C : Type} {f g : C → B} {t : TensorMap C}
    (h : ∀ b ∈ t.blocks, f b.values.data = g b.values.data ∧ ∀ p ∈ b.gradients, f p.2.data = g p.2.data) :
    t.mapData f = t.mapData g := by
  unfold TensorMap.mapData
  simp only [TensorMap.mk.injEq, true_and]
  refine List.map_congr_left fun b hb => ?_
  obtain ⟨h1, h2⟩ := h b hb
  unfold TensorBlock.mapData
  simp only [TensorBlock.mk.injEq, and_true]
  exact ⟨by rw [h1], List.map_congr_left fun p hp => by rw [h2 p hp]⟩

omit [ArrayLike B] in
theorem mapData_mapData' {C D : Type} (f : D → C) (g : C → B) (t : TensorMap D) :
    (t.mapData f).mapData g = t.mapData fun a => g (f a) := by
  unfold TensorMap.mapData
  simp only [TensorMap.mk.injEq, true_and, List.map_map]
  refine List.map_congr_left fun b _ => ?_
  unfold TensorBlock.mapData
  simp only [Function.comp_apply, TensorBlock.mk.injEq, and_true, List.map_map]
  exact ⟨rfl, List.map_congr_left fun _ _ => rfl⟩

theorem mapData_id {t : TensorMap A} : t.mapData (fun a => a) = t := by
  obtain ⟨keys, blocks⟩ := t
  unfold TensorMap.mapData
  simp only [TensorMap.mk.injEq, true_and]
  refine (List.map_congr_left fun b _ => ?_).trans (List.map_id _)
  obtain ⟨values, gradients, list⟩ := b
  unfold TensorBlock.mapData
  simp only [TensorBlock.mk.injEq, and_true, id_eq]
  exact ⟨rfl, (List.map_congr_left fun _ _ => rfl).trans (List.map_id _)⟩

/-- Give the property to all arrays of a tensor map. -/
theorem exists_attached {Q : A → Prop} {t : TensorMap A} (h : t.AllData Q) :
    ∃ u : TensorMap { a // Q a }, u.mapData Subtype.val = t := by
  classical
  by_cases hn : Nonempty { a // Q a }
  · obtain ⟨x⟩ := hn
    refine ⟨t.mapData fun a => if ha : Q a then ⟨a, ha⟩ else x, ?_⟩
    rw [mapData_mapData']
    refine (mapData_congr (g := fun a => a) fun b hb => ?_).trans mapData_id
    obtain ⟨h1, h2⟩ := h b hb
    refine ⟨by simp [h1], fun p hp => by simp [h2 p hp]⟩
  · obtain ⟨keys, blocks⟩ := t
    cases blocks with
    | nil => exact ⟨⟨keys, []⟩, rfl⟩
    | cons b blocks => exact absurd ⟨⟨_, (h b List.mem_cons_self).1⟩⟩ hn

namespace KeptByCallbacks
variable {Q : A → Prop}

/-- Operations keep the property, and do the same for `f` of all arrays. -/
theorem runAll (h : KeptByCallbacks Q) {f : A → B} (hf : SameCallbacksOn Q f) {build : Build} {hash : Nat → HashOrder}
    (hh : ∀ n, OrderByName (hash n)) (ops : List Op) {t : TensorMap A} (ht : t.AllData Q) :
    Spec.runAll build hash ops (t.mapData f) =
        ((Spec.runAll build hash ops t).1.mapData f, (Spec.runAll build hash ops t).2) ∧
      (Spec.runAll build hash ops t).1.AllData Q := by
  letI := h.callbacks
  obtain ⟨u, rfl⟩ := exists_attached ht
  have h1 := h.sameVal.runAll (build := build) hh ops u
  have h2 := (h.same hf).runAll (build := build) hh ops u
  change Spec.runAll build hash ops (u.mapData Subtype.val) = _ at h1
  rw [mapData_mapData', h1, h2, mapData_mapData']
  exact ⟨rfl, allData_mapData (fun c => c.2) _⟩

theorem run (h : KeptByCallbacks Q) {f : A → B} (hf : SameCallbacksOn Q f) {build : Build} {hash : HashOrder}
    (hh : OrderByName hash) (op : Op) {t : TensorMap A} (ht : t.AllData Q) :
    op.run build hash (t.mapData f) = ((op.run build hash t).1.mapData f, (op.run build hash t).2) ∧
      (op.run build hash t).1.AllData Q := by
  letI := h.callbacks
  obtain ⟨u, rfl⟩ := exists_attached ht
  have h1 := h.sameVal.run (build := build) hh op u
  have h2 := (h.same hf).run (build := build) hh op u
  change op.run build hash (u.mapData Subtype.val) = _ at h1
  rw [mapData_mapData', h1, h2, mapData_mapData']
  exact ⟨rfl, allData_mapData (fun c => c.2) _⟩

end KeptByCallbacks
end Equistore
