import Verif.Spec.Layout
import Verif.Lemmas.Strided
import Verif.Lemmas.AllData
import Verif.Lemmas.BackendInstances

/-! `ndarray` arrays with strides in blocks and tensor maps. -/

namespace Equistore
open Spec

/-- An `ndarray::ArrayD<f64>`: its strides give a different place in memory to each element. -/
@[ext] structure StridedArray where
  array : Strided
  complete : array.Ok

namespace StridedArray

/-- The callbacks of `ndarray` arrays with strides. -/
instance : ArrayLike StridedArray where
  origin a := ArrayLike.origin a.array
  data a := ArrayLike.data a.array
  shape a := ArrayLike.shape a.array
  reshape a shape := (⟨(a.array.reshape shape).1, (Strided.reshape_spec a.complete shape).1⟩, (a.array.reshape shape).2)
  swapAxes a i j := (⟨(a.array.swapAxes i j).1, Strided.swapAxes_ok a.complete i j⟩, (a.array.swapAxes i j).2)
  create a shape := .ok ⟨a.array.create shape, Strided.create_ok _ _⟩
  moveSamplesFrom output input samples start stop :=
    (⟨(output.array.moveSamplesFrom input.array samples start stop).1,
      (Strided.moveSamplesFrom_spec output.complete samples start stop).1⟩,
      (output.array.moveSamplesFrom input.array samples start stop).2)

/-- Shape and elements of the array. -/
def view (a : StridedArray) : NdArray := a.array.toNdArray

/-- An array in row-major order. -/
def ofNdArray (a : NdArray) : StridedArray :=
  if h : a.elements.length = shapeSize a.shape then ⟨Strided.standard a.shape a.elements, Strided.standard_ok h⟩
  else ⟨Strided.standard [0] [], Strided.standard_ok rfl⟩

theorem view_ofNdArray {a : NdArray} (h : ArrayOk a) : (ofNdArray a).view = a := by
  unfold ofNdArray view
  unfold ArrayOk at h
  rw [dif_pos h]
  exact Strided.standard_toNdArray h

/-- The elements are in row-major order. -/
def Standard (a : StridedArray) : Prop := Strided.isStandard a.array.shape a.array.strides = true

theorem standard_iff (a : StridedArray) : a.Standard ↔ InRowMajorOrder a.array := by
  constructor
  · intro h
    refine ⟨a.array.memory, ?_, a.complete.memory, ?_⟩
    · change a.array.data = _
      unfold Strided.data
      unfold Standard at h
      rw [if_pos h]
    · intro idx hi
      have hlt := offset_lt hi
      rw [← a.complete.memory] at hlt
      unfold Strided.get
      rw [(Strided.isStandard_iff a.complete.strides).1 h idx hi, List.getD_eq_getElem?_getD,
        List.getElem?_eq_getElem hlt]
      rfl
  · rintro ⟨memory, h1, _⟩
    change a.array.data = _ at h1
    unfold Strided.data at h1
    split at h1
    · assumption
    · cases h1

end StridedArray

open StridedArray in
theorem implements_strided : Implements StridedArray.view where
  origin := ⟨_, fun _ => rfl⟩
  elements a := Strided.toNdArray_ok _
  shape a := rfl
  create a shape := by
    refine ⟨_, rfl, rfl, fun idx hi => ?_⟩
    change (a.array.create shape).toNdArray.get idx = 0
    rw [Strided.create_toNdArray]
    exact NdArray.create_get _ hi
  reshape a shape h := by
    obtain ⟨a', e1, e2, e3⟩ := implements_rust.reshape ⟨a.view, Strided.toNdArray_ok _⟩ shape h
    have h1 := (Strided.reshape_spec a.complete shape).2
    have h2 : a.view.reshape shape = (a'.array, .ok ()) :=
      Prod.ext (congrArg (fun x => x.1.array) e1) (by have h' := congrArg Prod.snd e1; exact h')
    have h3 : ((a.array.reshape shape).1.toNdArray, (a.array.reshape shape).2) = (a'.array, .ok ()) := h1.trans h2
    rw [Prod.mk.injEq] at h3
    refine ⟨⟨(a.array.reshape shape).1, (Strided.reshape_spec a.complete shape).1⟩, Prod.ext rfl h3.2, ?_, ?_⟩
    · exact (congrArg NdArray.shape h3.1).trans e2
    · exact (congrArg NdArray.elements h3.1).trans e3
  swapAxes a i j h := by
    obtain ⟨a', e1, e2, e3⟩ := implements_rust.swapAxes ⟨a.view, Strided.toNdArray_ok _⟩ i j h
    have h1 := Strided.swapAxes_toNdArray a.complete i j
    have h2 : a.view.swapAxes i j = (a'.array, .ok ()) :=
      Prod.ext (congrArg (fun x => x.1.array) e1) (by have h' := congrArg Prod.snd e1; exact h')
    have h3 : ((a.array.swapAxes i j).1.toNdArray, (a.array.swapAxes i j).2) = (a'.array, .ok ()) := h1.trans h2
    rw [Prod.mk.injEq] at h3
    refine ⟨⟨(a.array.swapAxes i j).1, Strided.swapAxes_ok a.complete i j⟩, Prod.ext rfl h3.2, ?_, ?_⟩
    · exact (congrArg NdArray.shape h3.1).trans e2
    · intro idx hi
      exact (congrArg (fun x => NdArray.get x idx) h3.1).trans (e3 idx hi)
  move output input samples start stop h := by
    obtain ⟨a', e1, e2, e3⟩ := implements_rust.move ⟨output.view, Strided.toNdArray_ok _⟩
      ⟨input.view, Strided.toNdArray_ok _⟩ samples start stop h
    obtain ⟨h0, _, _, h1⟩ := Strided.moveSamplesFrom_spec (input := input.array) output.complete samples start stop
    have h2 : NdArray.moveSamplesFrom output.view input.view samples start stop = (a'.array, .ok ()) :=
      Prod.ext (congrArg (fun x => x.1.array) e1) (by have h' := congrArg Prod.snd e1; exact h')
    have h3 := h1.trans h2
    rw [Prod.mk.injEq] at h3
    refine ⟨⟨_, h0⟩, Prod.ext rfl h3.2, ?_, ?_⟩
    · exact (congrArg NdArray.shape h3.1).trans e2
    · intro i between j hidx
      obtain ⟨h4, h5⟩ := e3 i between j hidx
      have h6 := congrArg (fun x => NdArray.get x (i :: between ++ [j])) h3.1
      exact ⟨fun m hm ho h7 h8 => h6.trans (h4 m hm ho h7 h8), fun h7 => h6.trans (h5 h7)⟩

theorem lawful_strided : LawfulArray StridedArray where
  reshape_shape a a' shape h := by
    have h1 := congrArg (fun x => x.1.array) h
    have h2 := congrArg Prod.snd h
    change (a.array.reshape shape).1 = a'.array at h1
    change (a.array.reshape shape).2 = .ok () at h2
    change (.ok a'.array.shape : Res (List Nat)) = .ok shape
    rw [← h1]
    unfold Strided.reshape at h2 ⊢
    split at h2
    · rename_i hs
      obtain ⟨b, h3, _, _, h4, _⟩ := Strided.toShape_spec a.complete hs
      rw [if_pos hs, h3]
      exact congrArg _ h4
    · cases h2
  reshape_origin _ _ _ _ := rfl
  swap_origin _ _ _ _ _ := rfl

theorem fresh_standard : FreshData StridedArray.Standard where
  create a shape b h := by
    cases h
    exact Strided.isStandard_default shape
  move output input samples start stop output' r hs h := by
    obtain ⟨_, h1, h2, _⟩ := Strided.moveSamplesFrom_spec (input := input.array) output.complete samples start stop
    have h3 := congrArg (fun x => x.1.array) h
    change (output.array.moveSamplesFrom input.array samples start stop).1 = output'.array at h3
    unfold StridedArray.Standard
    rw [← h3, h1, h2]
    exact hs

/-- Moving one component in values or in a gradient. -/
theorem basic_standard {names : List String} {b b' : BasicBlock StridedArray} (hv : BasicValid b)
    (hk : KeepsOrder names b) (hs : b.data.Standard)
    (h : BasicBlock.componentsToProperties names b = (b', .ok ())) : b'.data.Standard := by
  obtain ⟨pre, c, post, hm⟩ := BasicBlock.componentsToProperties_ok h
  obtain ⟨shape, h1, h2⟩ := hv.shape
  obtain ⟨shape', n, d, h3, h4, h5, h6, h7⟩ := hm.data
  rw [h1, Res.ok.injEq] at h3
  subst h3
  rw [hm.split] at h2
  obtain ⟨n₀, s₁, nc, s₂, np, hsplit⟩ := ShapeSplit.exists h2
  have hshape : b.data.array.shape = shape := Res.ok.inj h1
  have e1 := hsplit.before.length_eq
  have e2 := hsplit.after.length_eq
  rw [hsplit.newShape] at h7
  have hlen : shape.length - 1 - 1 = (n₀ :: s₁).length + s₂.length := by
    rw [hsplit.shape_eq]
    simp only [List.length_append, List.length_cons, List.length_nil]
    omega
  -- the arrays without proofs
  have hd : d.array = (b.data.array.swapAxes (pre.length + 1) (shape.length - 1 - 1)).1 :=
    (congrArg (fun x => x.1.array) h6).symm
  have hb : (d.array.reshape (n₀ :: (s₁ ++ s₂) ++ [n])).1 = b'.data.array := congrArg (fun x => x.1.array) h7
  have hok : (d.array.reshape (n₀ :: (s₁ ++ s₂) ++ [n])).2 = .ok () := congrArg Prod.snd h7
  have hax : pre.length + 1 < b.data.array.shape.length ∧ shape.length - 1 - 1 < b.data.array.shape.length := by
    rw [hshape, hsplit.shape_eq, ← e1]
    simp only [List.length_append, List.length_cons, List.length_nil]
    omega
  unfold Strided.swapAxes at hd
  rw [if_pos hax] at hd
  unfold Strided.reshape at hb hok
  split at hok
  · rename_i hsize
    rw [if_pos hsize] at hb
    obtain ⟨x, hx, hxok, hxn, hxs, hxst, hxc⟩ := Strided.toShape_spec d.complete hsize
    rw [hx] at hb
    change x = b'.data.array at hb
    unfold StridedArray.Standard
    rw [← hb]
    by_cases hpost : s₂ = []
    · -- the last component: the axes do not move
      subst hpost
      refine hxst ?_
      rw [hd]
      have : shape.length - 1 - 1 = pre.length + 1 := by
        rw [hlen, ← e1]; simp
      rw [this, swapList_self, swapList_self]
      exact hs
    · obtain ⟨m, y, rfl⟩ : ∃ m y, s₂ = m ++ [y] :=
        ⟨s₂.dropLast, s₂.getLast hpost, by rw [List.dropLast_append_getLast]⟩
      have hpne : post ≠ [] := by
        rintro rfl
        simp at e2
      obtain ⟨k1, k2⟩ := (hk pre c post hm.split hm.names).resolve_left hpne
      have hnc : nc ≠ 1 := fun he => k1 (he ▸ hsplit.component)
      have hnp : np ≠ 1 := fun he => k2 (he ▸ hsplit.properties)
      -- the number of new properties
      have hn : n = nc * np := by
        have hw := BasicValid.wf hv
        have hcw := hw.components c (by rw [hm.split]; simp)
        have hP := (componentPropertyLabels_iff hcw hw.properties).1 hm.properties
        have ec := hsplit.component
        rw [Labels.Holds.count_eq hcw, Res.ok.injEq] at ec
        have ep := hsplit.properties
        rw [Labels.Holds.count_eq hw.properties, Res.ok.injEq] at ep
        rw [Labels.Holds.count_eq hP, Res.ok.injEq, componentRows_length] at h5
        rw [← h5, ec, ep]
      have e3 : pre.length + 1 = (n₀ :: s₁).length := by simp [e1]
      have e4 : shape.length - 1 - 1 = (n₀ :: s₁).length + 1 + m.length := by
        rw [hlen]; simp; omega
      rw [e3, e4] at hd
      subst hn
      refine Strided.moved_standard b.data.complete hs (pre := n₀ :: s₁) (m := m) (y := y) (nc := nc) (np := np) ?_
        hnc hnp hd (front := n₀ :: (s₁ ++ (m ++ [y]))) ?_ hx
      · rw [hshape, hsplit.shape_eq]; simp
      · rw [List.cons_append, shapeSize_cons, shapeSize_cons, shapeSize_append, shapeSize_append, shapeSize_append,
          shapeSize_cons, shapeSize_cons, shapeSize_nil, Nat.mul_one, Nat.mul_comm y]
  · cases hok

end Equistore
