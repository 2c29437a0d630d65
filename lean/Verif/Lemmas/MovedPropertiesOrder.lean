import Verif.Lemmas.MovedPropertiesOutcome

/-!
# Tensor maps after `keys_to_properties`, with the order of properties and samples
-/

namespace Equistore
open Spec NdArray

/-- The result of `keys_to_properties` without entries, in order. -/
theorem keysToProperties_movedInOrder {build : Build} {hash : HashOrder} {keysToMove : Labels} {sort : Bool}
    {t t' : TensorMap NdArray} (ht : TensorValid t) (hm : keysToMove.FromBuilder)
    (hcount : keysToMove.count = .ok 0)
    (h : t.keysToProperties build hash keysToMove sort = (t', .ok ()))
    (hcomp : build.debug = true ∨ GradientComponentsAgree t keysToMove.names) :
    MovedToPropertiesInOrder keysToMove.names sort t t' := by
  obtain ⟨hw, hk⟩ := (keysToProperties_ok_iff ht hm).1 h
  have hno : entriesOf keysToMove = [] := by
    rw [hw.count_eq, Res.ok.injEq] at hcount
    rw [entriesOf_eq hw]
    exact List.length_eq_zero_iff.1 hcount
  refine ⟨keysToProperties_moved ht hm hcount h hcomp, ?_, ?_, ?_⟩
  · intro b hb
    obtain ⟨key', hkb⟩ := hk.block_key hb
    have hg := group_ok ht (Labels.Holds.names_ok hw).2 hk.names key'
    refine ⟨(mergeBlocksAlongProperties_values hg (userKeys_ok hw) (hk.merged hkb)).1, fun p g hp =>
      (mergeBlocksAlongProperties_gradients hg (userKeys_ok hw) (hk.merged hkb) hp ?_).1⟩
    refine hcomp.imp_right fun hc a ha c hc' g g₂ h1 h2 => ?_
    obtain ⟨a₁, ha₁, rfl⟩ := List.mem_map.1 ha
    obtain ⟨c₁, hc₁, rfl⟩ := List.mem_map.1 hc'
    exact hc _ ht.iter_eq key' p a₁ ha₁ c₁ hc₁ g g₂ h1 h2
  · intro pairs pairs' hp hp' kb' hkb'
    exact (C25_property_labels build hash keysToMove sort t t' ht hm h pairs pairs' hp hp' kb'.1 kb'.2 hkb').2.1 hno
  · intro hs pairs pairs' hp hp' kb' hkb'
    exact (C19_keys_to_properties_samples build hash keysToMove sort t t' ht hm h pairs pairs' hp hp' kb'.1 kb'.2
      hkb').2.2.2 hs

theorem SameUpToProperties.eq {b b' : BasicBlock NdArray} (h : SameUpToProperties b b') (hb : BasicValid b)
    (hb' : BasicValid b') (ha : ArrayOk b.data) (ha' : ArrayOk b'.data)
    (hp : entriesOf b'.properties = entriesOf b.properties) : b = b' := by
  have hw := BasicValid.wf hb
  have hw' := BasicValid.wf hb'
  refine hasValue_ext hb hb' ha ha' h.samples.symm h.components.symm ?_ fun s cs p x hx => (h.values s cs p x).2 hx
  refine Labels.WF.ext hw.properties hw'.properties h.propertyNames.symm ?_
  rw [← entriesOf_eq hw.properties, ← entriesOf_eq hw'.properties, hp]

theorem SameBlockUpToProperties.same {b b' : TensorBlock NdArray} (h : SameBlockUpToProperties b b')
    (hb : BlockValid b) (hb' : BlockValid b')
    (ha : ArrayOk b.values.data ∧ ∀ p g, b.gradient p = some g → ArrayOk g.data)
    (ha' : ArrayOk b'.values.data ∧ ∀ p g, b'.gradient p = some g → ArrayOk g.data)
    (hp : entriesOf b'.values.properties = entriesOf b.values.properties) : SameBlock b b' := by
  refine ⟨SameUpToProperties.eq h.values hb.values hb'.values ha.1 ha'.1 hp, fun q => ?_, h.list.symm⟩
  have := h.gradients q
  revert this
  cases hg : b.gradient q with
  | none => cases hg' : b'.gradient q with
    | none => exact fun _ => rfl
    | some g' => nofun
  | some g => cases hg' : b'.gradient q with
    | none => nofun
    | some g' =>
      rintro (h | _)
      have hgv := hb.gradient_valid hg
      have hgv' := hb'.gradient_valid hg'
      rename_i h
      rw [SameUpToProperties.eq h hgv.basic hgv'.basic (ha.2 q g hg) (ha'.2 q g' hg')
        (by rw [hgv.properties, hgv'.properties, hp])]

/-- The description determines the result. -/
theorem Spec.MovedToPropertiesInOrder.same {moved : List String} {sort : Bool} {t t' t'' : TensorMap NdArray}
    (ht : TensorValid t) (h : MovedToPropertiesInOrder moved sort t t')
    (h' : MovedToPropertiesInOrder moved sort t t'') : SameTensor t' t'' := by
  obtain ⟨h1, h2⟩ := h.toMovedToProperties.same' ht h'.toMovedToProperties fun kb' hk kb'' hk' he => by
    cases sort with
    | true =>
      have hB := h.blocks _ _ ht.iter_eq h.valid.iter_eq _ hk
      have hB' := h'.blocks _ _ ht.iter_eq h'.valid.iter_eq _ hk'
      rw [he] at hB'
      exact sorted_ext (h'.sorted rfl _ (List.of_mem_zip (a := kb''.1) (b := kb''.2) hk').2)
        (h.sorted rfl _ (List.of_mem_zip (a := kb'.1) (b := kb'.2) hk).2) fun x => by rw [hB.samples, hB'.samples]
    | false =>
      have hB := h.unsorted rfl _ _ ht.iter_eq h.valid.iter_eq _ hk
      have hB' := h'.unsorted rfl _ _ ht.iter_eq h'.valid.iter_eq _ hk'
      rw [he] at hB'
      exact FirstAppearances.unique hB' hB
  refine ⟨h1.symm, forall₂_zip_right h.valid.length_eq h'.valid.length_eq ?_⟩
  rw [List.forall₂_iff_get] at h2 ⊢
  refine ⟨h2.1, fun i hi hi' => ?_⟩
  obtain ⟨he, hs⟩ := h2.2 i hi hi'
  simp only [List.get_eq_getElem] at he hs ⊢
  have hm := List.getElem_mem hi
  have hm' := List.getElem_mem hi'
  have hz := List.of_mem_zip (a := (t'.keys.rows.zip t'.blocks)[i].1) (b := (t'.keys.rows.zip t'.blocks)[i].2) hm
  have hz' := List.of_mem_zip (a := (t''.keys.rows.zip t''.blocks)[i].1) (b := (t''.keys.rows.zip t''.blocks)[i].2) hm'
  refine SameBlockUpToProperties.same hs (h.valid.blocks _ hz.2) (h'.valid.blocks _ hz'.2) (h.arrays _ hz.2)
    (h'.arrays _ hz'.2) ?_
  rw [h.propertyOrder _ _ ht.iter_eq h.valid.iter_eq _ hm, h'.propertyOrder _ _ ht.iter_eq h'.valid.iter_eq _ hm', he]

/-- The description does not depend on the order in which gradients are listed. -/
theorem Spec.MovedToPropertiesInOrder.congr {m : List String} {sort : Bool} {t u u' : TensorMap NdArray}
    (h : MovedToPropertiesInOrder m sort t u) (hs : SameTensor u' u) (hv : TensorValid u') :
    MovedToPropertiesInOrder m sort t u' := by
  have hmem : ∀ kb' ∈ u'.keys.rows.zip u'.blocks, ∃ b, (kb'.1, b) ∈ u.keys.rows.zip u.blocks ∧ SameBlock kb'.2 b := by
    have hb := hs.blocks
    rw [hs.keys]
    generalize u.keys.rows = ks
    generalize u'.blocks = l' at hb
    generalize u.blocks = l at hb
    intro kb' hkb'
    induction hb generalizing ks with
    | nil => simp at hkb'
    | @cons b' b l' l h1 _ ih =>
      cases ks with
      | nil => simp at hkb'
      | cons k ks =>
        rw [List.zip_cons_cons, List.mem_cons] at hkb'
        rcases hkb' with rfl | hkb'
        · exact ⟨b, by simp, h1⟩
        · obtain ⟨b, h2, h3⟩ := ih ks hkb'
          exact ⟨b, by rw [List.zip_cons_cons]; exact List.mem_cons_of_mem _ h2, h3⟩
  refine ⟨h.toMovedToProperties.congr hs hv, ?_, ?_, ?_⟩
  · intro b' hb'
    obtain ⟨key, hk⟩ := zip_block hv hb'
    obtain ⟨b, h1, h2⟩ := hmem _ hk
    have := h.arrays b (List.of_mem_zip h1).2
    rw [h2.values]
    simp only [h2.gradients]
    exact this
  · intro pairs pairs' hp hp' kb' hkb'
    rw [hv.iter_eq, Res.ok.injEq] at hp'
    subst hp'
    obtain ⟨b, h1, h2⟩ := hmem kb' hkb'
    rw [h2.values]
    exact h.propertyOrder pairs _ hp h.valid.iter_eq _ h1
  · intro hsort pairs pairs' hp hp' kb' hkb'
    rw [hv.iter_eq, Res.ok.injEq] at hp'
    subst hp'
    obtain ⟨b, h1, h2⟩ := hmem kb' hkb'
    rw [h2.values]
    exact h.unsorted hsort pairs _ hp h.valid.iter_eq _ h1

section
variable {A : Type} [ArrayLike A] {view : A → NdArray}

/-- `keys_to_properties` without entries for any kind of array, described by what is visible, in order. -/
theorem keysToProperties_viewInOrder (h : Implements view) {build : Build} {hash : HashOrder} {M : Labels} {sort : Bool}
    {t t' : TensorMap A} (ht : TensorValid t) (hm : M.FromBuilder) (hcount : M.count = .ok 0)
    (hcomp : build.debug = true ∨ GradientComponentsAgree t M.names)
    (hk : t.keysToProperties build hash M sort = (t', .ok ())) :
    MovedToPropertiesInOrder M.names sort (t.mapData view) (t'.mapData view) := by
  have hv := keysToProperties_valid ht hm hk
  have htv := (TensorValid.map_iff h).2 ht
  obtain ⟨h1, h2⟩ := C29_any_order build hash .insertion (.keysToProperties M sort) hm t t ht ht (SameTensor.refl' t)
  have hok : (Op.run build hash t (.keysToProperties M sort)).2 = .ok () := by
    show (t.keysToProperties build hash M sort).2 = _
    rw [hk]
  have hok' := h1.1 hok
  have hs := h2 hok
  have hmap := Op.run_map h (build := build) orderByName_insertion (op := .keysToProperties M sort) hm ht (hcomp.imp_right GradientComponentsAgree.sizes)
  rw [hok'] at hmap
  have hcomp' : build.debug = true ∨ GradientComponentsAgree (t.mapData view) M.names := by
    exact hcomp.imp_right fun hc => componentsAgree_mapData ht htv hc
  have hmoved := keysToProperties_movedInOrder htv hm hcount hmap hcomp'
  refine hmoved.congr ?_ ((TensorValid.map_iff h).2 hv)
  have := SameTensor.mapData view hs
  have he : (Op.run build hash t (.keysToProperties M sort)).1 = t' := by
    show (t.keysToProperties build hash M sort).1 = _
    rw [hk]
  rw [he] at this
  exact this

end

end Equistore
