import Verif.Spec.MovedProperties
import Verif.Lemmas.MovedFits
import Verif.Props.KeysToProperties

/-!
# Tensor maps after `keys_to_properties`
-/

namespace Equistore
open Spec NdArray

/-! ### Values and labels -/

theorem hasValue_exists {b : BasicBlock NdArray} (hb : BasicValid b) {s p : List LabelValue}
    {cs : List (List LabelValue)} (hs : s ∈ entriesOf b.samples) (hc : HasEntries b.components cs)
    (hp : p ∈ entriesOf b.properties) : ∃ x, HasValue b s cs p x := by
  have hw := BasicValid.wf hb
  rw [entriesOf_eq hw.samples] at hs
  rw [entriesOf_eq hw.properties] at hp
  obtain ⟨i, hi, rfl⟩ := List.getElem_of_mem hs
  obtain ⟨j, hj, rfl⟩ := List.getElem_of_mem hp
  obtain ⟨k, hk⟩ := hc
  exact ⟨_, (hasValue_iff hw).2 ⟨i, k, j, List.getElem?_eq_getElem hi, hk, List.getElem?_eq_getElem hj, rfl⟩⟩

theorem hasValue_components {b : BasicBlock NdArray} {s p : List LabelValue}
    {cs : List (List LabelValue)} {x : Elt} (h : HasValue b s cs p x) : HasEntries b.components cs := by
  obtain ⟨_, k, _, _, h1, h2, _⟩ := h
  exact ⟨k, h1, h2⟩

theorem hasValue_property {b : BasicBlock NdArray} (hb : BasicValid b) {s p : List LabelValue}
    {cs : List (List LabelValue)} {x : Elt} (h : HasValue b s cs p x) : p ∈ entriesOf b.properties := by
  have hw := BasicValid.wf hb
  obtain ⟨i, k, j, _, _, h1, _⟩ := (hasValue_iff hw).1 h
  rw [entriesOf_eq hw.properties]
  exact List.mem_of_getElem? h1

/-- The result of `keys_to_properties`, without entries. -/
theorem keysToProperties_moved {build : Build} {hash : HashOrder} {keysToMove : Labels} {sort : Bool}
    {t t' : TensorMap NdArray} (ht : TensorValid t) (hm : keysToMove.FromBuilder)
    (hcount : keysToMove.count = .ok 0)
    (h : t.keysToProperties build hash keysToMove sort = (t', .ok ()))
    (hcomp : build.debug = true ∨ GradientComponentsAgree t keysToMove.names) :
    MovedToProperties keysToMove.names sort t t' := by
  have hv := keysToProperties_valid ht hm h
  obtain ⟨hw, hk⟩ := (keysToProperties_ok_iff ht hm).1 h
  have hno : entriesOf keysToMove = [] := by
    rw [hw.count_eq, Res.ok.injEq] at hcount
    rw [entriesOf_eq hw]
    exact List.length_eq_zero_iff.1 hcount
  have hno' : keysToMove.rows = [] := by rw [← entriesOf_eq hw]; exact hno
  have hC16 := C16_keys_to_properties_keys build hash keysToMove sort t t' ht hm h
  refine ⟨hv, hC16.1, hC16.2.1, ?_, ?_⟩
  · intro pairs pairs' hp hp' kb' hkb'
    obtain ⟨key', b'⟩ := kb'
    have h19 := C19_keys_to_properties_samples build hash keysToMove sort t t' ht hm h pairs pairs' hp hp' key' b' hkb'
    have h24 := C24_keys_to_properties_values build hash keysToMove sort t t' ht hm h pairs pairs' hp hp' key' b' hkb'
    have h25 := C25_property_labels build hash keysToMove sort t t' ht hm h pairs pairs' hp hp' key' b' hkb'
    have h27 := C27_keys_to_properties_gradient_samples build hash keysToMove sort t t' ht hm h pairs pairs' hp hp' key'
      b' hkb'
    have h27v := C27_keys_to_properties_gradients_partial build hash keysToMove sort t t' ht hm h pairs pairs' hp hp'
      key' b' hkb'
    rw [ht.iter_eq, Res.ok.injEq] at hp
    rw [hk.iter_eq, Res.ok.injEq] at hp'
    subst hp hp'
    have hg := group_ok ht (Labels.Holds.names_ok hw).2 hk.names key'
    obtain ⟨f, mappings, ranges, hM, hS, hP⟩ := mergeBlocksAlongProperties_merged hg (userKeys_ok hw) (hk.merged hkb')
    have hext : ∀ key : List LabelValue, extendSample false key = id := fun key => by
      funext s; simp [extendSample]
    have hall : ∀ {q g'}, b'.gradient q = some g' → _ := fun {q g'} hq => hM.gradient_labels hg (q := q) (g' := g') hq
    have hgm : ∀ kb ∈ group t.keys.names keysToMove.names (t.keys.rows.zip t.blocks) key',
        kb ∈ t.keys.rows.zip t.blocks ∧ remainingKey t.keys.names keysToMove.names kb.1 = key' := fun kb hkb =>
      (mem_group (key := kb.1) (b := kb.2)).1 hkb
    refine ⟨h25.1, fun p' => ?_, h19.1, fun s => ?_, fun kb hkb => ?_, ?_, ?_, ?_, ?_, ?_, ?_, ?_, ?_, ?_⟩
    · rw [h25.2.1 hno, List.mem_flatMap]
      refine exists_congr fun kb => and_congr_right fun _ => ?_
      rw [List.mem_map]
      exact exists_congr fun s => and_congr_right fun _ => eq_comm
    · rw [h19.2.1, List.mem_flatMap]
    · have := hS.compatible (toMerge t.keys.names keysToMove.names kb) (List.mem_map_of_mem hkb)
      exact hM.components.trans this.1.symm
    · intro kb hkb s cs p x hx
      exact (h24 s cs _ x).2 (.inl ⟨kb.1, kb.2, (hgm kb hkb).1, (hgm kb hkb).2, .inl hno, p, rfl, hx⟩)
    · intro s cs p' x hx hz
      rcases (h24 s cs _ x).1 hx with ⟨key, b, h1, h2, _, p, h3, h4⟩ | h1
      · have hb := (hg.valid _ (List.mem_map_of_mem (mem_group.2 ⟨h1, h2⟩))).values
        exact absurd h3 (hz (key, b) (mem_group.2 ⟨h1, h2⟩) (hasValue_sample hb h4) p (hasValue_property hb h4))
      · exact h1.1
    · intro kb hkb q
      exact (h27 q).1 kb.1 kb.2 (hgm kb hkb).1 (hgm kb hkb).2
    · intro kb hkb q g g' hq hq'
      obtain ⟨fg, hfg, hl⟩ := hall hq'
      have hmem := List.mem_map_of_mem (f := toMerge t.keys.names keysToMove.names) hkb
      refine ⟨?_, ?_⟩
      · rw [hl.names]
        exact ((hg.consistent _ hM.first_mem _ hmem).gradients q fg g hfg hq).1
      · rw [hl.components]
        rcases hcomp with hd | hc
        · obtain ⟨fg', hfg', hgm'⟩ := hM.gradient_some hg hq'
          have : fg' = fg := Option.some.inj (hfg'.symm.trans hfg)
          subst this
          obtain ⟨_, _, _, _, _, _, hmove⟩ := hgm'.data
          obtain ⟨_, hc⟩ := moveAllGradientProperties_ok hmove
          have hr := propertyRange_spec hg (userKeys_ok hw) hP (fun hu kb hkb => (hS.compatible kb hkb).2 hu) hS.ranges_eq
          obtain ⟨m, hm'⟩ := zip_mem_of hM.mapping.length_eq hmem
          obtain ⟨rng, hr'⟩ := zip_mem_of (r := ranges)
            (by rw [List.length_zip, ← hM.mapping.length_eq, ← hr.2.length_eq]; simp) hm'
          have hne : rng ≠ none := by
            obtain ⟨i, hi, he⟩ := List.getElem_of_mem hr'
            rw [List.getElem_zip, List.getElem_zip, Prod.mk.injEq, Prod.mk.injEq] at he
            rw [List.length_zip, List.length_zip] at hi
            have := (List.forall₂_iff_get.1 hr.2).2 i (by omega) (by omega)
            simp only [List.get_eq_getElem, he.2] at this
            exact this.2 (listed_userKeys.2 (.inl hno'))
          obtain ⟨g₂, hg₂, he⟩ := hc _ hr' hne
          have : g₂ = g := Option.some.inj (hg₂.symm.trans hq)
          subst this
          exact (he hd).symm
        · obtain ⟨kf, hkf, hkf'⟩ := List.mem_map.1 hM.first_mem
          refine hc _ ht.iter_eq key' q kf hkf kb hkb fg g ?_ hq
          rw [← hkf'] at hfg
          exact hfg
    · intro q g' hq
      exact ((h27 q).2 g' hq).2.1
    · intro kb hkb q g hq r hr
      have hmem := List.mem_map_of_mem (f := toMerge t.keys.names keysToMove.names) hkb
      have hgv := (hg.valid _ hmem).gradient_valid hq
      have hsome : (b'.gradient q).isSome = true := by
        rw [(h27 q).1 kb.1 kb.2 (hgm kb hkb).1 (hgm kb hkb).2, hq]; rfl
      obtain ⟨g', hg'⟩ := Option.isSome_iff_exists.1 hsome
      obtain ⟨fg, hfg, hl⟩ := hall hg'
      obtain ⟨g₂, hg₂, hren⟩ := hl.all _ hmem
      have : g₂ = g := Option.some.inj (hg₂.symm.trans hq)
      subst this
      obtain ⟨r', hr'⟩ := hren r (by rw [← entriesOf_eq hgv.wf.samples]; exact hr)
      exact ⟨r', by rw [hext] at hr'; exact hr'⟩
    · intro q g' hq r'
      rw [((h27 q).2 g' hq).2.2]
      constructor
      · rintro ⟨key, b, h1, h2, h3⟩
        exact ⟨(key, b), mem_group.2 ⟨h1, h2⟩, h3⟩
      · rintro ⟨kb, h1, h2⟩
        exact ⟨kb.1, kb.2, (hgm kb h1).1, (hgm kb h1).2, h2⟩
    · intro q g' hq kb hkb g hg' r r' cs p x hr hx
      exact (h27v q g' hq (hcomp.imp_right fun hc => hc _ ht.iter_eq key' q) r' cs _ x).2
        (.inl ⟨kb.1, kb.2, (hgm kb hkb).1, (hgm kb hkb).2, .inl hno, g, hg', r, p, hr, rfl, hx⟩)
    · intro q g' hq r' cs p' x hx hz
      rcases (h27v q g' hq (hcomp.imp_right fun hc => hc _ ht.iter_eq key' q) r' cs _ x).1 hx with
        ⟨key, b, h1, h2, _, g, h3, r, p, h4, h5, h6⟩ | h1
      · have hgv := (hg.valid _ (List.mem_map_of_mem (mem_group.2 ⟨h1, h2⟩))).gradient_valid h3
        have hp := hasValue_property hgv.basic h6
        rw [hgv.properties] at hp
        exact absurd h5 (hz (key, b) (mem_group.2 ⟨h1, h2⟩) g h3 r (hasValue_sample hgv.basic h6) h4 p hp)
      · exact h1.1
  · intro hs b' hb'
    obtain ⟨key', hkb⟩ := hk.block_key hb'
    exact (C19_keys_to_properties_samples build hash keysToMove sort t t' ht hm h _ _ ht.iter_eq hk.iter_eq key' b'
      hkb).2.2.1 hs

/-! ### The description determines the tensor map -/

theorem sameUpToProperties_of {b b' : BasicBlock NdArray} (hb : BasicValid b) (hb' : BasicValid b')
    (hs : b'.samples = b.samples) (hc : b'.components = b.components)
    (hn : b'.properties.names = b.properties.names)
    (hp : ∀ p, p ∈ entriesOf b'.properties ↔ p ∈ entriesOf b.properties)
    (hv : ∀ s cs p x x', HasValue b s cs p x → HasValue b' s cs p x' → x' = x) : SameUpToProperties b b' := by
  have hw := BasicValid.wf hb
  have hw' := BasicValid.wf hb'
  refine ⟨hs, hc, hn, ?_, fun s cs p x => ⟨fun h => ?_, fun h => ?_⟩⟩
  · rw [List.perm_ext_iff_of_nodup]
    · exact hp
    · rw [entriesOf_eq hw'.properties]; exact Labels.Holds.nodup hw'.properties
    · rw [entriesOf_eq hw.properties]; exact Labels.Holds.nodup hw.properties
  · obtain ⟨y, hy⟩ := hasValue_exists hb (by rw [← hs]; exact hasValue_sample hb' h)
      (by rw [← hc]; exact hasValue_components h) ((hp p).1 (hasValue_property hb' h))
    rw [hv s cs p y x hy h]; exact hy
  · obtain ⟨y, hy⟩ := hasValue_exists hb' (by rw [hs]; exact hasValue_sample hb h)
      (by rw [hc]; exact hasValue_components h) ((hp p).2 (hasValue_property hb h))
    rw [← hv s cs p x y h hy]; exact hy

theorem Spec.BlockMovedToProperties.same {names moved : List String}
    {pairs : List (List LabelValue × TensorBlock NdArray)}
    {key' : List LabelValue} {b b' : TensorBlock NdArray} (h : BlockMovedToProperties names moved pairs key' b)
    (h' : BlockMovedToProperties names moved pairs key' b') (hne : ∃ kb, kb ∈ group names moved pairs key')
    (hval : ∀ kb ∈ pairs, BlockValid kb.2)
    (hb : BlockValid b) (hb' : BlockValid b')
    (hs : entriesOf b'.values.samples = entriesOf b.values.samples) : SameBlockUpToProperties b b' := by
  obtain ⟨kb, hkb⟩ := hne
  have hw := BasicValid.wf hb.values
  have hw' := BasicValid.wf hb'.values
  have hval : ∀ kb ∈ group names moved pairs key', BlockValid kb.2 := fun kb h => hval kb (List.mem_filter.1 h).1
  have hS : b'.values.samples = b.values.samples := by
    refine Labels.WF.ext hw'.samples hw.samples ?_ ?_
    · rw [h.sampleNames kb hkb, h'.sampleNames kb hkb]
    · rw [← entriesOf_eq hw.samples, ← entriesOf_eq hw'.samples]
      exact hs
  have hP : ∀ p, p ∈ entriesOf b'.values.properties ↔ p ∈ entriesOf b.values.properties := fun p => by
    rw [h.properties, h'.properties]
  have hN : b'.values.properties.names = b.values.properties.names := by
    rw [h.propertyNames kb hkb, h'.propertyNames kb hkb]
  have hsome : ∀ q, (b.gradient q).isSome = (b'.gradient q).isSome := fun q => by
    rw [h.parameters kb hkb, h'.parameters kb hkb]
  refine ⟨?_, fun q => ?_, ?_⟩
  · refine sameUpToProperties_of hb.values hb'.values hS (by rw [h.components kb hkb, h'.components kb hkb]) hN hP ?_
    intro s cs p' x x' hx hx'
    by_cases hex : ∃ ka ∈ group names moved pairs key', s ∈ entriesOf ka.2.values.samples ∧
        ∃ p ∈ entriesOf ka.2.values.properties, p' = movedKey names moved ka.1 ++ p
    · obtain ⟨ka, hka, h1, p, h2, rfl⟩ := hex
      obtain ⟨y, hy⟩ := hasValue_exists (hval ka hka).values h1
        (by rw [← h.components ka hka]; exact hasValue_components hx) h2
      rw [hasValue_unique hb.values hx (h.values ka hka _ _ _ _ hy),
        hasValue_unique hb'.values hx' (h'.values ka hka _ _ _ _ hy)]
    · have hno : ∀ ka ∈ group names moved pairs key', s ∈ entriesOf ka.2.values.samples →
          ∀ p ∈ entriesOf ka.2.values.properties, p' ≠ movedKey names moved ka.1 ++ p :=
        fun ka hka h1 p h2 h3 => hex ⟨ka, hka, h1, p, h2, h3⟩
      rw [h.zeros _ _ _ _ hx hno, h'.zeros _ _ _ _ hx' hno]
  · have hsq := hsome q
    cases hg : b.gradient q with
    | none =>
      rw [hg] at hsq
      cases hg' : b'.gradient q with
      | none => exact .none
      | some g' => rw [hg'] at hsq; cases hsq
    | some g =>
      rw [hg] at hsq
      cases hg' : b'.gradient q with
      | none => rw [hg'] at hsq; cases hsq
      | some g' =>
        refine .some ?_
        have hgv := hb.gradient_valid hg
        have hgv' := hb'.gradient_valid hg'
        have hk : (kb.2.gradient q).isSome = true := by rw [← h.parameters kb hkb, hg]; rfl
        obtain ⟨gk, hgk⟩ := Option.isSome_iff_exists.1 hk
        have hl := h.gradientLabels kb hkb q gk g hgk hg
        have hl' := h'.gradientLabels kb hkb q gk g' hgk hg'
        refine sameUpToProperties_of hgv.basic hgv'.basic ?_ (by rw [hl.2, hl'.2]) ?_ ?_ ?_
        · refine Labels.WF.ext hgv'.wf.samples hgv.wf.samples (by rw [hl.1, hl'.1]) ?_
          rw [← entriesOf_eq hgv.wf.samples, ← entriesOf_eq hgv'.wf.samples]
          refine sorted_ext (h'.gradientSorted q g' hg') (h.gradientSorted q g hg) fun x => ?_
          rw [h.gradientSamples q g hg, h'.gradientSamples q g' hg', hS]
        · rw [hgv.properties, hgv'.properties, hN]
        · rw [hgv.properties, hgv'.properties]; exact hP
        · intro r' cs p' x x' hx hx'
          by_cases hex : ∃ ka ∈ group names moved pairs key', ∃ ga, ka.2.gradient q = some ga ∧
              ∃ r ∈ entriesOf ga.samples, SampleRenumbered ka.2.values.samples b.values.samples id r r' ∧
              ∃ p ∈ entriesOf ka.2.values.properties, p' = movedKey names moved ka.1 ++ p
          · obtain ⟨ka, hka, ga, hga, r, h1, h2, p, h3, rfl⟩ := hex
            have hgav := (hval ka hka).gradient_valid hga
            obtain ⟨y, hy⟩ := hasValue_exists hgav.basic h1
              (by rw [← (h.gradientLabels ka hka q ga g hga hg).2]; exact hasValue_components hx)
              (by rw [hgav.properties]; exact h3)
            rw [hasValue_unique hgv.basic hx (h.gradientValues q g hg ka hka ga hga _ _ _ _ _ h2 hy),
              hasValue_unique hgv'.basic hx' (h'.gradientValues q g' hg' ka hka ga hga _ _ _ _ _ (by rw [hS]; exact h2) hy)]
          · have hno : ∀ ka ∈ group names moved pairs key', ∀ ga, ka.2.gradient q = some ga →
                ∀ r ∈ entriesOf ga.samples, SampleRenumbered ka.2.values.samples b.values.samples id r r' →
                ∀ p ∈ entriesOf ka.2.values.properties, p' ≠ movedKey names moved ka.1 ++ p :=
              fun ka hka ga hga r h1 h2 p h3 h4 => hex ⟨ka, hka, ga, hga, r, h1, h2, p, h3, h4⟩
            rw [h.gradientZeros q g hg _ _ _ _ hx hno, h'.gradientZeros q g' hg' _ _ _ _ hx' (by rw [hS]; exact hno)]
  · rw [hb.list, hb'.list, List.perm_ext_iff_of_nodup hb'.names hb.names]
    intro q
    rw [← gradient_isSome, ← gradient_isSome, hsome q]

/-- Two descriptions with the same samples determine the same tensor map. -/
theorem Spec.MovedToProperties.same' {moved : List String} {sort sort' : Bool} {t t' t'' : TensorMap NdArray}
    (ht : TensorValid t) (h : MovedToProperties moved sort t t') (h' : MovedToProperties moved sort' t t'')
    (hs : ∀ kb' ∈ t'.keys.rows.zip t'.blocks, ∀ kb'' ∈ t''.keys.rows.zip t''.blocks, kb''.1 = kb'.1 →
      entriesOf kb''.2.values.samples = entriesOf kb'.2.values.samples) :
    t''.keys = t'.keys ∧ List.Forall₂ (fun kb' kb'' => kb''.1 = kb'.1 ∧ SameBlockUpToProperties kb'.2 kb''.2)
      (t'.keys.rows.zip t'.blocks) (t''.keys.rows.zip t''.blocks) := by
  have hk : t''.keys = t'.keys := by
    refine Labels.WF.ext h'.valid.keys_wf h.valid.keys_wf ?_ ?_
    · rw [h.keyNames, h'.keyNames]
    · rw [← entriesOf_eq h.valid.keys_wf, ← entriesOf_eq h'.valid.keys_wf]
      exact FirstAppearances.unique h'.keys h.keys
  refine ⟨hk, ?_⟩
  have hl := h.valid.length_eq
  have hl' := h'.valid.length_eq
  rw [hk] at hl'
  rw [List.forall₂_iff_get]
  refine ⟨by simp only [List.length_zip, hk]; omega, fun i h1 h2 => ?_⟩
  simp only [List.get_eq_getElem]
  have hm := List.getElem_mem h1
  have hm' := List.getElem_mem h2
  have hkey : (t''.keys.rows.zip t''.blocks)[i].1 = (t'.keys.rows.zip t'.blocks)[i].1 := by
    rw [List.getElem_zip, List.getElem_zip]; simp only [hk]
  refine ⟨hkey, ?_⟩
  have hB := h.blocks _ _ ht.iter_eq h.valid.iter_eq _ hm
  have hB' := h'.blocks _ _ ht.iter_eq h'.valid.iter_eq _ hm'
  rw [hkey] at hB'
  have hz := List.of_mem_zip (a := (t'.keys.rows.zip t'.blocks)[i].1) (b := (t'.keys.rows.zip t'.blocks)[i].2) hm
  have hz' := List.of_mem_zip (a := (t''.keys.rows.zip t''.blocks)[i].1) (b := (t''.keys.rows.zip t''.blocks)[i].2) hm'
  refine hB.same hB' ?_
    (fun kb hkb => ht.blocks _ (List.of_mem_zip (a := kb.1) (b := kb.2) hkb).2)
    (h.valid.blocks _ hz.2) (h'.valid.blocks _ hz'.2) (hs _ hm _ hm' hkey)
  obtain ⟨key, h3, h4⟩ := List.mem_map.1 ((h.keys.same _).1 (by rw [entriesOf_eq h.valid.keys_wf]; exact hz.1))
  rw [entriesOf_eq ht.keys_wf] at h3
  obtain ⟨b, hb⟩ := zip_mem_of ht.length_eq h3
  exact ⟨(key, b), mem_group.2 ⟨hb, h4⟩⟩

theorem forall₂_zip_right {α β γ : Type} {R : β → γ → Prop} {ks : List α} {l : List β} {ks' : List α} {l' : List γ}
    (hl : ks.length = l.length) (hl' : ks'.length = l'.length)
    (h : List.Forall₂ (fun a b => R a.2 b.2) (ks.zip l) (ks'.zip l')) : List.Forall₂ R l l' := by
  have e1 : (ks.zip l).map Prod.snd = l := List.map_snd_zip (by omega)
  have e2 : (ks'.zip l').map Prod.snd = l' := List.map_snd_zip (by omega)
  rw [← e1, ← e2, List.forall₂_map_left_iff, List.forall₂_map_right_iff]
  exact h

/-- The description of a result with sorted samples determines it. -/
theorem Spec.MovedToProperties.same {moved : List String} {t t' t'' : TensorMap NdArray} (ht : TensorValid t)
    (h : MovedToProperties moved true t t') (h' : MovedToProperties moved true t t'') :
    SameTensorUpToProperties t' t'' := by
  obtain ⟨h1, h2⟩ := h.same' ht h' fun kb' hk kb'' hk' he => by
    have hB := h.blocks _ _ ht.iter_eq h.valid.iter_eq _ hk
    have hB' := h'.blocks _ _ ht.iter_eq h'.valid.iter_eq _ hk'
    rw [he] at hB'
    exact sorted_ext (h'.sorted rfl _ (List.of_mem_zip (a := kb''.1) (b := kb''.2) hk').2)
      (h.sorted rfl _ (List.of_mem_zip (a := kb'.1) (b := kb'.2) hk).2) fun x => by rw [hB.samples, hB'.samples]
  exact ⟨h1, forall₂_zip_right h.valid.length_eq h'.valid.length_eq (h2.imp fun _ _ h => h.2)⟩

end Equistore
