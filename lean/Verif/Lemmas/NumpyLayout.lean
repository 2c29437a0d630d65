import Verif.Spec.NumpyView
import Verif.Lemmas.NumpyView
import Verif.Lemmas.SaveData
import Verif.Lemmas.Layout

/-! Numpy arrays with strides in blocks and tensor maps. -/

namespace Equistore
open Spec

namespace NumpyView

theorem sameElements_iff {a b : NumpyView} : SameElements a b ↔ a.toNumpy = b.toNumpy := by
  constructor
  · rintro ⟨h1, h2⟩
    refine numpy_ext (NdArray.ext_get a.toNumpy.complete b.toNumpy.complete h1 fun idx hi => ?_)
    rw [toNumpy_get hi, toNumpy_get (by rw [← h1]; exact hi)]
    exact h2 idx hi
  · intro h
    have h1 : a.shape = b.shape := congrArg (fun x => x.array.shape) h
    refine ⟨h1, fun idx hi => ?_⟩
    have := congrArg (fun x => x.array.get idx) h
    rwa [toNumpy_get hi, toNumpy_get (by rw [← h1]; exact hi)] at this

theorem equalBasic_iff {b c : BasicBlock NumpyView} :
    NumpyEqualBasic b c ↔ b.mapData toNumpy = c.mapData toNumpy := by
  obtain ⟨d, s, cs, p⟩ := b
  obtain ⟨d', s', cs', p'⟩ := c
  unfold NumpyEqualBasic BasicBlock.mapData BasicBlock.withData
  simp only [sameElements_iff, BasicBlock.mk.injEq]

theorem forall₂_map_iff {α β : Type} {R : α → α → Prop} {f : α → β} (h : ∀ a b, R a b ↔ f a = f b) (l m : List α) :
    List.Forall₂ R l m ↔ l.map f = m.map f := by
  induction l generalizing m with
  | nil => cases m <;> simp
  | cons a l ih =>
    cases m with
    | nil => simp
    | cons b m => simp [h, ih]

theorem equalBlock_iff {b c : TensorBlock NumpyView} :
    NumpyEqualBlock b c ↔ b.mapData toNumpy = c.mapData toNumpy := by
  obtain ⟨v, gs, ps⟩ := b
  obtain ⟨v', gs', ps'⟩ := c
  unfold NumpyEqualBlock TensorBlock.mapData
  simp only [equalBasic_iff, TensorBlock.mk.injEq]
  rw [forall₂_map_iff (f := fun g => (g.1, g.2.mapData toNumpy)) (fun g h => by rw [Prod.mk.injEq])]
  tauto

theorem equal_iff {t u : TensorMap NumpyView} : NumpyEqual t u ↔ t.mapData toNumpy = u.mapData toNumpy := by
  obtain ⟨k, bs⟩ := t
  obtain ⟨k', bs'⟩ := u
  unfold NumpyEqual TensorMap.mapData
  simp only [TensorMap.mk.injEq]
  rw [forall₂_map_iff (f := TensorBlock.mapData toNumpy) fun b c => equalBlock_iff]

/-- The array is contiguous. -/
def Contiguous (a : NumpyView) : Prop := isContiguous a.axes = true

theorem readable_iff (a : NumpyView) : NumpyReadable a ↔ a.Contiguous := by
  constructor
  · rintro ⟨memory, h1, _⟩
    change a.data = _ at h1
    unfold data at h1
    unfold Contiguous
    split at h1
    · assumption
    · cases h1
  · intro h
    refine ⟨_, data_contiguous h, a.toNumpy.complete, fun idx hi => ?_⟩
    have hlt := offset_lt hi
    have hlt' : offset a.shape idx < a.toNumpy.array.elements.length := by rw [a.toNumpy.complete]; exact hlt
    rw [← toNumpy_get hi]
    unfold NdArray.get
    rw [List.getD_eq_getElem?_getD]
    change _ = some (a.toNumpy.array.elements[offset a.shape idx]?.getD 0)
    rw [List.getElem?_eq_getElem hlt']
    rfl

theorem allReadable_iff {t : TensorMap NumpyView} : AllNumpyReadable t ↔ t.AllData Contiguous := by
  unfold AllNumpyReadable TensorMap.AllData TensorBlock.AllData
  simp only [readable_iff]

theorem lawful : LawfulArray NumpyView where
  reshape_shape a a' shape h := by
    change a.reshape shape = _ at h
    change (.ok a'.shape : Res (List Nat)) = .ok shape
    by_cases hs : shapeSize shape = shapeSize a.shape
    · rcases reshape_cases hs with h1 | ⟨axes, h1, h2, _⟩
      · obtain rfl : a.copy shape = a' := congrArg Prod.fst (h1.symm.trans h)
        exact congrArg _ (fresh_shape _ _)
      · obtain rfl : ({ a with axes } : NumpyView) = a' := congrArg Prod.fst (h1.symm.trans h)
        exact congrArg _ h2
    · unfold reshape at h
      rw [if_neg (fun h1 => hs (by rw [h1])), if_pos hs] at h
      cases h
  reshape_origin _ _ _ _ := rfl
  swap_origin _ _ _ _ _ := rfl

theorem fresh_contiguous : FreshData IsFresh where
  create a shape b h := sameCallbacks.created a shape b h
  move output input samples start stop output' r hs h := by
    have := sameCallbacks.moved output input samples start stop hs
    rw [h] at this
    exact this

/-- Moving one component in values or in a gradient. -/
theorem basic_contiguous {names : List String} {b b' : BasicBlock NumpyView} (hv : BasicValid b)
    (hk : KeepsOrder names b) (hs : b.data.Contiguous)
    (h : BasicBlock.componentsToProperties names b = (b', .ok ())) : b'.data.Contiguous := by
  obtain ⟨pre, c, post, hm⟩ := BasicBlock.componentsToProperties_ok h
  obtain ⟨shape, h1, h2⟩ := hv.shape
  obtain ⟨shape', n, d, h3, h4, h5, h6, h7⟩ := hm.data
  rw [h1, Res.ok.injEq] at h3
  subst h3
  rw [hm.split] at h2
  obtain ⟨n₀, s₁, nc, s₂, np, hsplit⟩ := ShapeSplit.exists h2
  have hshape : b.data.shape = shape := Res.ok.inj h1
  have e1 := hsplit.before.length_eq
  have e2 := hsplit.after.length_eq
  rw [hsplit.newShape] at h7
  have hlen : shape.length - 1 - 1 = (n₀ :: s₁).length + s₂.length := by
    rw [hsplit.shape_eq]
    simp only [List.length_append, List.length_cons, List.length_nil]
    omega
  have hax : pre.length + 1 < b.data.axes.length ∧ shape.length - 1 - 1 < b.data.axes.length := by
    rw [← shape_length, hshape, hsplit.shape_eq, ← e1]
    simp only [List.length_append, List.length_cons, List.length_nil]
    omega
  change b.data.swapAxes _ _ = _ at h6
  change d.reshape _ = _ at h7
  unfold swapAxes at h6
  rw [if_pos hax, Prod.mk.injEq] at h6
  have hd := h6.1
  by_cases hpost : s₂ = []
  · -- the last component: the axes do not move
    subst hpost
    have : shape.length - 1 - 1 = pre.length + 1 := by
      rw [hlen, ← e1]; simp
    rw [this, swapList_self] at hd
    refine reshape_contiguous ?_ h7
    rw [← hd]
    exact hs
  · obtain ⟨m, y, rfl⟩ : ∃ m y, s₂ = m ++ [y] :=
      ⟨s₂.dropLast, s₂.getLast hpost, by rw [List.dropLast_append_getLast]⟩
    have hpne : post ≠ [] := by
      rintro rfl
      simp at e2
    obtain ⟨k1, k2⟩ := (hk pre c post hm.split hm.names).resolve_left hpne
    have hnc : nc ≠ 1 := fun he => k1 (he ▸ hsplit.component)
    have hnp : np ≠ 1 := fun he => k2 (he ▸ hsplit.properties)
    -- the number of new properties
    have hn : n = nc * np := by
      have hw := BasicValid.wf hv
      have hcw := hw.components c (by rw [hm.split]; simp)
      have hP := (componentPropertyLabels_iff hcw hw.properties).1 hm.properties
      have ec := hsplit.component
      rw [Labels.Holds.count_eq hcw, Res.ok.injEq] at ec
      have ep := hsplit.properties
      rw [Labels.Holds.count_eq hw.properties, Res.ok.injEq] at ep
      rw [Labels.Holds.count_eq hP, Res.ok.injEq, componentRows_length] at h5
      rw [← h5, ec, ep]
    have e3 : pre.length + 1 = (n₀ :: s₁).length := by simp [e1]
    have e4 : shape.length - 1 - 1 = (n₀ :: s₁).length + 1 + m.length := by
      rw [hlen]; simp; omega
    rw [e3, e4] at hd
    subst hn
    rw [← hd] at h7
    refine moved_contiguous hs (pre := n₀ :: s₁) (m := m) (y := y) (nc := nc) (np := np) ?_
      hnc hnp (front := n₀ :: (s₁ ++ (m ++ [y]))) ?_ h7
    · rw [hshape, hsplit.shape_eq]; simp
    · rw [List.cons_append, shapeSize_cons, shapeSize_cons, shapeSize_append, shapeSize_append, shapeSize_append,
        shapeSize_cons, shapeSize_cons, shapeSize_nil, Nat.mul_one, Nat.mul_comm y]

end NumpyView
end Equistore
