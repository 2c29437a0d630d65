import Verif.Lemmas.MovedOutcome
import Verif.Props.Backend
import Verif.Props.Reachable

/-!
# Moving keys twice, for any kind of array
-/

namespace Equistore
open Spec NdArray

theorem sum_le_of_sublist {a b : List Nat} (h : a.Sublist b) : a.sum ≤ b.sum := by
  induction h with
  | slnil => simp
  | cons x _ ih => simp only [List.sum_cons]; omega
  | cons_cons x _ ih => simp only [List.sum_cons]; omega

theorem sum_filter_or {α : Type} {l : List α} {p q : α → Bool} {f : α → Nat} (h : ∀ a ∈ l, ¬ (p a ∧ q a)) :
    ((l.filter fun a => p a || q a).map f).sum = ((l.filter p).map f).sum + ((l.filter q).map f).sum := by
  induction l with
  | nil => rfl
  | cons a l ih =>
    have ih := ih fun a ha => h a (List.mem_cons_of_mem _ ha)
    have ha := h a List.mem_cons_self
    by_cases hp : p a
    · have hq : q a = false := by simpa [hp] using ha
      simp only [List.filter_cons, hp, hq, Bool.true_or, if_true, List.map_cons, List.sum_cons, ih, Bool.false_eq_true,
        if_false]
      omega
    · by_cases hq : q a
      · simp only [List.filter_cons, hp, hq, Bool.or_true, if_true, List.map_cons, List.sum_cons, ih,
          Bool.false_eq_true, if_false]
        omega
      · simp only [List.filter_cons, hp, hq, Bool.or_false, ih, Bool.false_eq_true, if_false]

theorem sum_groups {α κ : Type} [DecidableEq κ] {l : List α} {r : α → κ} {f : α → Nat} {ks : List κ} (hk : ks.Nodup) :
    (ks.map fun k => ((l.filter fun a => decide (r a = k)).map f).sum).sum =
      ((l.filter fun a => decide (r a ∈ ks)).map f).sum := by
  induction ks with
  | nil => simp
  | cons k ks ih =>
    rw [List.nodup_cons] at hk
    rw [List.map_cons, List.sum_cons, ih hk.2, ← sum_filter_or]
    · simp only [List.mem_cons, Bool.decide_or]
    · intro a _
      simp only [decide_eq_true_eq]
      rintro ⟨rfl, h⟩
      exact hk.1 h

section
variable {A : Type} [ArrayLike A] {build : Build} {hash : HashOrder} {sort : Bool} {t t₁ : TensorMap A} {M₁ : Labels}
  {m₁ m₂ m : List String}

theorem samplesFit_first (hr : ∀ key, remainingKey (remainingNames t.keys.names m₁) m₂ (remainingKey t.keys.names m₁ key) =
      remainingKey t.keys.names m key)
    (h : SamplesFit t m) : SamplesFit t m₁ := by
  intro pairs hp key'
  refine Nat.le_trans (sum_le_of_sublist (List.Sublist.map _ ?_)) (h pairs hp (remainingKey (remainingNames t.keys.names m₁) m₂ key'))
  refine List.monotone_filter_right _ fun kb hkb => ?_
  rw [decide_eq_true_iff] at hkb ⊢
  rw [← hr, hkb]

theorem samplesFit_second (ht : TensorValid t) (hm : M₁.FromBuilder)
    (hr : ∀ key, remainingKey (remainingNames t.keys.names M₁.names) m₂ (remainingKey t.keys.names M₁.names key) =
      remainingKey t.keys.names m key)
    (h : t.keysToSamples build hash M₁ sort = (t₁, .ok ())) (hf : SamplesFit t m) :
    SamplesFit t₁ m₂ := by
  have hv := keysToSamples_valid ht hm h
  have hk := C16_keys_to_samples_keys build hash M₁ sort t t₁ ht hm h
  intro pairs hp key₂
  have h18 := C18_sample_count build hash M₁ sort t t₁ ht hm h _ pairs ht.iter_eq hp
  rw [hv.iter_eq, Res.ok.injEq] at hp
  subst hp
  have hcount : ∀ kb ∈ t₁.keys.rows.zip t₁.blocks, (entriesOf kb.2.values.samples).length =
      ((group t.keys.names M₁.names (t.keys.rows.zip t.blocks) kb.1).map
        fun kb => (entriesOf kb.2.values.samples).length).sum := by
    intro kb hkb
    have hw := (BasicValid.wf (hv.blocks _ (List.of_mem_zip (a := kb.1) (b := kb.2) hkb).2).values).samples
    have := (h18 kb.1 kb.2 hkb).2
    rw [hw.count_eq, Res.ok.injEq] at this
    rw [entriesOf_eq hw, this]
  have e1 : (group t₁.keys.names m₂ (t₁.keys.rows.zip t₁.blocks) key₂).map
      (fun kb => (entriesOf kb.2.values.samples).length) =
      ((group t₁.keys.names m₂ (t₁.keys.rows.zip t₁.blocks) key₂).map Prod.fst).map fun k =>
        (((t.keys.rows.zip t.blocks).filter fun kb => decide (remainingKey t.keys.names M₁.names kb.1 = k)).map
          fun kb => (entriesOf kb.2.values.samples).length).sum := by
    rw [List.map_map]
    exact List.map_congr_left fun kb hkb => hcount kb (List.mem_filter.1 hkb).1
  have hnd : ((group t₁.keys.names m₂ (t₁.keys.rows.zip t₁.blocks) key₂).map Prod.fst).Nodup := by
    have h1 : ((t₁.keys.rows.zip t₁.blocks).map Prod.fst).Nodup := by
      rw [List.map_fst_zip (by have := hv.length_eq; omega)]
      exact Labels.Holds.nodup hv.keys_wf
    exact (List.Sublist.map _ List.filter_sublist).nodup h1
  rw [e1, sum_groups hnd]
  refine Nat.le_trans (sum_le_of_sublist (List.Sublist.map _ ?_)) (hf _ ht.iter_eq key₂)
  refine List.monotone_filter_right _ fun kb hkb => ?_
  rw [decide_eq_true_iff]
  obtain ⟨kb₁, h3, h4⟩ := List.mem_map.1 (by simpa only [decide_eq_true_eq] using hkb)
  have h5 := ((mem_group (key := kb₁.1) (b := kb₁.2)).1 h3).2
  rw [← hr, ← h4, ← hk.1, h5]

end

/-- The description does not depend on the order in which gradients are listed. -/
theorem Spec.MovedToSamples.congr {m : List String} {sort : Bool} {t u u' : TensorMap NdArray}
    (h : MovedToSamples m sort t u) (hs : SameTensor u' u) (hv : TensorValid u') : MovedToSamples m sort t u' := by
  have hmem : ∀ kb' ∈ u'.keys.rows.zip u'.blocks, ∃ b, (kb'.1, b) ∈ u.keys.rows.zip u.blocks ∧ SameBlock kb'.2 b := by
    have hb := hs.blocks
    rw [hs.keys]
    generalize u.keys.rows = ks
    generalize u'.blocks = l' at hb
    generalize u.blocks = l at hb
    intro kb' hkb'
    induction hb generalizing ks with
    | nil => simp at hkb'
    | @cons b' b l' l h1 _ ih =>
      cases ks with
      | nil => simp at hkb'
      | cons k ks =>
        rw [List.zip_cons_cons, List.mem_cons] at hkb'
        rcases hkb' with rfl | hkb'
        · exact ⟨b, by simp, h1⟩
        · obtain ⟨b, h2, h3⟩ := ih ks hkb'
          exact ⟨b, by rw [List.zip_cons_cons]; exact List.mem_cons_of_mem _ h2, h3⟩
  have hsame : ∀ b' ∈ u'.blocks, ∃ b ∈ u.blocks, SameBlock b' b := by
    intro b' hb'
    obtain ⟨key, hk⟩ := zip_block hv hb'
    obtain ⟨b, h1, h2⟩ := hmem _ hk
    exact ⟨b, (List.of_mem_zip h1).2, h2⟩
  refine ⟨hv, ?_, by rw [hs.keys]; exact h.keyNames, by rw [hs.keys]; exact h.keys, ?_, ?_, ?_⟩
  · intro b' hb'
    obtain ⟨b, h1, h2⟩ := hsame b' hb'
    have := h.arrays b h1
    rw [← h2.values] at this
    exact ⟨this.1, fun p g hg => this.2 p g (by rw [← h2.gradients]; exact hg)⟩
  · intro pairs pairs' hp hp' kb' hkb'
    rw [hv.iter_eq, Res.ok.injEq] at hp'
    subst hp'
    obtain ⟨b, h1, h2⟩ := hmem kb' hkb'
    have hB := h.blocks pairs _ hp h.valid.iter_eq _ h1
    obtain ⟨c1, c2, c3, c4, c5, c6, c7, c8, c9, c10⟩ := hB
    simp only [← h2.values, ← h2.gradients] at c1 c2 c3 c4 c5 c6 c7 c8 c9 c10
    exact ⟨c1, c2, c3, c4, c5, c6, c7, c8, c9, c10⟩
  · intro hsort b' hb'
    obtain ⟨b, h1, h2⟩ := hsame b' hb'
    rw [h2.values]
    exact h.sorted hsort b h1
  · intro hsort pairs pairs' hp hp' kb' hkb'
    rw [hv.iter_eq, Res.ok.injEq] at hp'
    subst hp'
    obtain ⟨b, h1, h2⟩ := hmem kb' hkb'
    rw [h2.values]
    exact h.unsorted hsort pairs _ hp h.valid.iter_eq _ h1

theorem SameTensor.refl' {A : Type} [ArrayLike A] (t : TensorMap A) : SameTensor t t :=
  ⟨rfl, by rw [List.forall₂_same]; exact fun b _ => ⟨rfl, fun _ => rfl, .refl _⟩⟩

theorem SameTensor.symm' {A : Type} [ArrayLike A] {t t' : TensorMap A} (h : SameTensor t t') : SameTensor t' t :=
  ⟨h.keys.symm, h.blocks.flip.imp fun _ _ h => ⟨h.values.symm, fun p => (h.gradients p).symm, h.list.symm⟩⟩

theorem SameTensor.mapData {A B : Type} [ArrayLike A] [ArrayLike B] (f : A → B) {t t' : TensorMap A}
    (h : SameTensor t t') : SameTensor (t.mapData f) (t'.mapData f) := by
  refine ⟨h.keys, ?_⟩
  have hb := h.blocks
  simp only [TensorMap.mapData_blocks]
  generalize t.blocks = l at hb
  generalize t'.blocks = l' at hb
  induction hb with
  | nil => exact .nil
  | cons h1 _ ih =>
    refine .cons ⟨?_, fun p => ?_, h1.list⟩ ih
    · rw [TensorBlock.mapData_values, TensorBlock.mapData_values, h1.values]
    · rw [TensorBlock.mapData_gradient, TensorBlock.mapData_gradient, h1.gradients]

theorem componentsAgree_mapData {A B : Type} [ArrayLike A] [ArrayLike B] {f : A → B} {t : TensorMap A}
    {m : List String} (ht : TensorValid t) (htv : TensorValid (t.mapData f)) (hc : GradientComponentsAgree t m) :
    GradientComponentsAgree (t.mapData f) m := by
  intro pairs hp key' q a ha b hb g g' hg hg'
  rw [htv.iter_eq, Res.ok.injEq] at hp
  subst hp
  rw [TensorMap.mapData_keys, TensorMap.mapData_blocks, zip_mapData, group_map] at ha hb
  obtain ⟨a₀, ha₀, rfl⟩ := List.mem_map.1 ha
  obtain ⟨b₀, hb₀, rfl⟩ := List.mem_map.1 hb
  simp only [mapPair] at hg hg'
  rw [TensorBlock.mapData_gradient, Option.map_eq_some_iff] at hg hg'
  obtain ⟨g₀, hg₀, rfl⟩ := hg
  obtain ⟨g₁, hg₁, rfl⟩ := hg'
  exact hc _ ht.iter_eq key' q a₀ ha₀ b₀ hb₀ g₀ g₁ hg₀ hg₁

theorem componentsAgree_ofMapData {A B : Type} [ArrayLike A] [ArrayLike B] {f : A → B} {t : TensorMap A}
    {m : List String} (ht : TensorValid t) (htv : TensorValid (t.mapData f))
    (hc : GradientComponentsAgree (t.mapData f) m) : GradientComponentsAgree t m := by
  intro pairs hp key' q a ha b hb g g' hg hg'
  rw [ht.iter_eq, Res.ok.injEq] at hp
  subst hp
  have hmem : ∀ kb ∈ group t.keys.names m (t.keys.rows.zip t.blocks) key', mapPair f kb ∈
      group (t.mapData f).keys.names m ((t.mapData f).keys.rows.zip (t.mapData f).blocks) key' := by
    intro kb hkb
    rw [TensorMap.mapData_keys, TensorMap.mapData_blocks, zip_mapData, group_map]
    exact List.mem_map_of_mem hkb
  have := hc _ htv.iter_eq key' q _ (hmem a ha) _ (hmem b hb) (g.mapData f) (g'.mapData f)
    (by simp [mapPair, hg]) (by simp [mapPair, hg'])
  exact this

section
variable {A : Type} [ArrayLike A] {view : A → NdArray}

theorem orderByName_insertion : OrderByName .insertion := fun _ _ => rfl

/-- `keys_to_samples` for any kind of array, described by what is visible. -/
theorem keysToSamples_view (h : Implements view) {build : Build} {hash : HashOrder} {M : Labels} {sort : Bool}
    {t t' : TensorMap A} (ht : TensorValid t) (hm : M.FromBuilder)
    (hcomp : build.debug = true ∨ GradientComponentsAgree t M.names)
    (hk : t.keysToSamples build hash M sort = (t', .ok ())) :
    MovedToSamples M.names sort (t.mapData view) (t'.mapData view) := by
  have hv := keysToSamples_valid ht hm hk
  have htv := (TensorValid.map_iff h).2 ht
  obtain ⟨h1, h2⟩ := C29_any_order build hash .insertion (.keysToSamples M sort) hm t t ht ht (SameTensor.refl' t)
  have hok : (Op.run build hash t (.keysToSamples M sort)).2 = .ok () := by
    show (t.keysToSamples build hash M sort).2 = _
    rw [hk]
  have hok' := h1.1 hok
  have hs := h2 hok
  have hmap := Op.run_map h (build := build) orderByName_insertion (op := .keysToSamples M sort) hm ht (hcomp.imp_right GradientComponentsAgree.sizes)
  rw [hok'] at hmap
  have hcomp' : build.debug = true ∨ GradientComponentsAgree (t.mapData view) M.names := by
    exact hcomp.imp_right fun hc => componentsAgree_mapData ht htv hc
  have hmoved := keysToSamples_moved htv hm hmap hcomp'
  refine hmoved.congr ?_ ((TensorValid.map_iff h).2 hv)
  have := SameTensor.mapData view hs
  have he : (Op.run build hash t (.keysToSamples M sort)).1 = t' := by
    show (t.keysToSamples build hash M sort).1 = _
    rw [hk]
  rw [he] at this
  exact this

end

end Equistore
