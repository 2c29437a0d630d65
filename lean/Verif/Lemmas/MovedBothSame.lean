import Verif.Lemmas.MovedBoth

/-!
# The description of a tensor map after moving keys to samples and properties determines it
-/

namespace Equistore
open Spec NdArray

theorem Spec.BlockMovedToBoth.same {names S P : List String} {pairs : List (List LabelValue × TensorBlock NdArray)}
    {key' : List LabelValue} {b b' : TensorBlock NdArray} (h : BlockMovedToBoth names S P pairs key' b)
    (h' : BlockMovedToBoth names S P pairs key' b') (hne : ∃ kb, kb ∈ group names (S ++ P) pairs key')
    (hval : ∀ kb ∈ pairs, BlockValid kb.2) (hb : BlockValid b) (hb' : BlockValid b')
    (hs : entriesOf b'.values.samples = entriesOf b.values.samples) : SameBlockUpToProperties b b' := by
  obtain ⟨kb, hkb⟩ := hne
  have hw := BasicValid.wf hb.values
  have hw' := BasicValid.wf hb'.values
  have hval : ∀ kb ∈ group names (S ++ P) pairs key', BlockValid kb.2 := fun kb h => hval kb (List.mem_filter.1 h).1
  have hS : b'.values.samples = b.values.samples := by
    refine Labels.WF.ext hw'.samples hw.samples ?_ ?_
    · rw [h.sampleNames kb hkb, h'.sampleNames kb hkb]
    · rw [← entriesOf_eq hw.samples, ← entriesOf_eq hw'.samples]
      exact hs
  have hP : ∀ p, p ∈ entriesOf b'.values.properties ↔ p ∈ entriesOf b.values.properties := fun p => by
    rw [h.properties, h'.properties]
  have hN : b'.values.properties.names = b.values.properties.names := by
    rw [h.propertyNames kb hkb, h'.propertyNames kb hkb]
  have hsome : ∀ q, (b.gradient q).isSome = (b'.gradient q).isSome := fun q => by
    rw [h.parameters kb hkb, h'.parameters kb hkb]
  refine ⟨?_, fun q => ?_, ?_⟩
  · refine sameUpToProperties_of hb.values hb'.values hS (by rw [h.components kb hkb, h'.components kb hkb]) hN hP ?_
    intro s' cs p' x x' hx hx'
    by_cases hex : ∃ ka ∈ group names (S ++ P) pairs key', ∃ s ∈ entriesOf ka.2.values.samples,
        s' = s ++ movedKey names S ka.1 ∧ ∃ p ∈ entriesOf ka.2.values.properties, p' = movedKey names P ka.1 ++ p
    · obtain ⟨ka, hka, s, h1, rfl, p, h2, rfl⟩ := hex
      obtain ⟨y, hy⟩ := hasValue_exists (hval ka hka).values h1
        (by rw [← h.components ka hka]; exact hasValue_components hx) h2
      rw [hasValue_unique hb.values hx (h.values ka hka _ _ _ _ hy),
        hasValue_unique hb'.values hx' (h'.values ka hka _ _ _ _ hy)]
    · have hno : ∀ ka ∈ group names (S ++ P) pairs key', ∀ s ∈ entriesOf ka.2.values.samples,
          s' = s ++ movedKey names S ka.1 → ∀ p ∈ entriesOf ka.2.values.properties, p' ≠ movedKey names P ka.1 ++ p :=
        fun ka hka s h1 h0 p h2 h3 => hex ⟨ka, hka, s, h1, h0, p, h2, h3⟩
      rw [h.zeros _ _ _ _ hx hno, h'.zeros _ _ _ _ hx' hno]
  · have hsq := hsome q
    cases hg : b.gradient q with
    | none =>
      rw [hg] at hsq
      cases hg' : b'.gradient q with
      | none => exact .none
      | some g' => rw [hg'] at hsq; cases hsq
    | some g =>
      rw [hg] at hsq
      cases hg' : b'.gradient q with
      | none => rw [hg'] at hsq; cases hsq
      | some g' =>
        refine .some ?_
        have hgv := hb.gradient_valid hg
        have hgv' := hb'.gradient_valid hg'
        have hk : (kb.2.gradient q).isSome = true := by rw [← h.parameters kb hkb, hg]; rfl
        obtain ⟨gk, hgk⟩ := Option.isSome_iff_exists.1 hk
        have hl := h.gradientLabels kb hkb q gk g hgk hg
        have hl' := h'.gradientLabels kb hkb q gk g' hgk hg'
        refine sameUpToProperties_of hgv.basic hgv'.basic ?_ (by rw [hl.2, hl'.2]) ?_ ?_ ?_
        · refine Labels.WF.ext hgv'.wf.samples hgv.wf.samples (by rw [hl.1, hl'.1]) ?_
          rw [← entriesOf_eq hgv.wf.samples, ← entriesOf_eq hgv'.wf.samples]
          refine sorted_ext (h'.gradientSorted q g' hg') (h.gradientSorted q g hg) fun x => ?_
          rw [h.gradientSamples q g hg, h'.gradientSamples q g' hg', hS]
        · rw [hgv.properties, hgv'.properties, hN]
        · rw [hgv.properties, hgv'.properties]; exact hP
        · intro r' cs p' x x' hx hx'
          by_cases hex : ∃ ka ∈ group names (S ++ P) pairs key', ∃ ga, ka.2.gradient q = some ga ∧
              ∃ r ∈ entriesOf ga.samples, SampleRenumbered ka.2.values.samples b.values.samples
                (· ++ movedKey names S ka.1) r r' ∧
              ∃ p ∈ entriesOf ka.2.values.properties, p' = movedKey names P ka.1 ++ p
          · obtain ⟨ka, hka, ga, hga, r, h1, h2, p, h3, rfl⟩ := hex
            have hgav := (hval ka hka).gradient_valid hga
            obtain ⟨y, hy⟩ := hasValue_exists hgav.basic h1
              (by rw [← (h.gradientLabels ka hka q ga g hga hg).2]; exact hasValue_components hx)
              (by rw [hgav.properties]; exact h3)
            rw [hasValue_unique hgv.basic hx (h.gradientValues q g hg ka hka ga hga _ _ _ _ _ h2 hy),
              hasValue_unique hgv'.basic hx' (h'.gradientValues q g' hg' ka hka ga hga _ _ _ _ _ (by rw [hS]; exact h2) hy)]
          · have hno : ∀ ka ∈ group names (S ++ P) pairs key', ∀ ga, ka.2.gradient q = some ga →
                ∀ r ∈ entriesOf ga.samples, SampleRenumbered ka.2.values.samples b.values.samples
                  (· ++ movedKey names S ka.1) r r' →
                ∀ p ∈ entriesOf ka.2.values.properties, p' ≠ movedKey names P ka.1 ++ p :=
              fun ka hka ga hga r h1 h2 p h3 h4 => hex ⟨ka, hka, ga, hga, r, h1, h2, p, h3, h4⟩
            rw [h.gradientZeros q g hg _ _ _ _ hx hno, h'.gradientZeros q g' hg' _ _ _ _ hx' (by rw [hS]; exact hno)]
  · rw [hb.list, hb'.list, List.perm_ext_iff_of_nodup hb'.names hb.names]
    intro q
    rw [← gradient_isSome, ← gradient_isSome, hsome q]

/-- The description determines the result. -/
theorem Spec.MovedToBoth.same {S P : List String} {t t' t'' : TensorMap NdArray}
    (ht : TensorValid t) (h : MovedToBoth S P t t') (h' : MovedToBoth S P t t'') : SameTensor t' t'' := by
  have hk : t''.keys = t'.keys := by
    refine Labels.WF.ext h'.valid.keys_wf h.valid.keys_wf ?_ ?_
    · rw [h.keyNames, h'.keyNames]
    · rw [← entriesOf_eq h.valid.keys_wf, ← entriesOf_eq h'.valid.keys_wf]
      exact FirstAppearances.unique h'.keys h.keys
  refine ⟨hk.symm, forall₂_zip_right h.valid.length_eq h'.valid.length_eq ?_⟩
  have hl := h.valid.length_eq
  have hl' := h'.valid.length_eq
  rw [hk] at hl'
  rw [List.forall₂_iff_get]
  refine ⟨by simp only [List.length_zip, hk]; omega, fun i h1 h2 => ?_⟩
  simp only [List.get_eq_getElem]
  have hm := List.getElem_mem h1
  have hm' := List.getElem_mem h2
  have hkey : (t''.keys.rows.zip t''.blocks)[i].1 = (t'.keys.rows.zip t'.blocks)[i].1 := by
    rw [List.getElem_zip, List.getElem_zip]; simp only [hk]
  have hB := h.blocks _ _ ht.iter_eq h.valid.iter_eq _ hm
  have hB' := h'.blocks _ _ ht.iter_eq h'.valid.iter_eq _ hm'
  have hO := h.propertyOrder _ _ ht.iter_eq h.valid.iter_eq _ hm
  have hO' := h'.propertyOrder _ _ ht.iter_eq h'.valid.iter_eq _ hm'
  rw [hkey] at hB' hO'
  have hz := List.of_mem_zip (a := (t'.keys.rows.zip t'.blocks)[i].1) (b := (t'.keys.rows.zip t'.blocks)[i].2) hm
  have hz' := List.of_mem_zip (a := (t''.keys.rows.zip t''.blocks)[i].1) (b := (t''.keys.rows.zip t''.blocks)[i].2) hm'
  refine SameBlockUpToProperties.same (hB.same hB' ?_ (zip_blocksValid ht) (h.valid.blocks _ hz.2)
    (h'.valid.blocks _ hz'.2) ?_) (h.valid.blocks _ hz.2) (h'.valid.blocks _ hz'.2) (h.arrays _ hz.2)
    (h'.arrays _ hz'.2) (FirstAppearances.unique hO' hO)
  · obtain ⟨key, h3, h4⟩ := List.mem_map.1 ((h.keys.same _).1 (by rw [entriesOf_eq h.valid.keys_wf]; exact hz.1))
    rw [entriesOf_eq ht.keys_wf] at h3
    obtain ⟨b, hb⟩ := zip_mem_of ht.length_eq h3
    exact ⟨(key, b), mem_group.2 ⟨hb, h4⟩⟩
  · exact sorted_ext (h'.sorted _ hz'.2) (h.sorted _ hz.2) fun x => by rw [hB.samples, hB'.samples]

/-! ### When moving succeeds -/

theorem restrict_pair_inj {p q : String → Bool} {names : List String} {key key' : List LabelValue}
    (hk : key.length = names.length) (hk' : key'.length = names.length) (hpq : ∀ n ∈ names, p n = true ∨ q n = true)
    (h1 : restrict p names key = restrict p names key') (h2 : restrict q names key = restrict q names key') :
    key = key' := by
  induction names generalizing key key' with
  | nil =>
    rw [List.length_eq_zero_iff.1 hk, List.length_eq_zero_iff.1 hk']
  | cons n names ih =>
    obtain ⟨v, key, rfl⟩ := List.exists_cons_of_length_eq_add_one hk
    obtain ⟨v', key', rfl⟩ := List.exists_cons_of_length_eq_add_one hk'
    have hv : ∀ f : String → Bool, f n = true → restrict f (n :: names) (v :: key) = restrict f (n :: names) (v' :: key') →
        v = v' := by
      intro f hf h
      simp only [restrict, List.zip_cons_cons, List.filter_cons, hf, if_true, List.map_cons, List.cons.injEq] at h
      exact h.1
    have hrest : ∀ f : String → Bool, restrict f (n :: names) (v :: key) = restrict f (n :: names) (v' :: key') →
        restrict f names key = restrict f names key' := by
      intro f h
      by_cases hf : f n = true
      · simp only [restrict, List.zip_cons_cons, List.filter_cons, hf, if_true, List.map_cons, List.cons.injEq] at h
        exact h.2
      · simpa only [restrict, List.zip_cons_cons, List.filter_cons, hf, Bool.false_eq_true, if_false] using h
    rw [ih (by simpa using hk) (by simpa using hk') (fun m hm => hpq m (List.mem_cons_of_mem _ hm)) (hrest p h1)
      (hrest q h2)]
    rcases hpq n List.mem_cons_self with h | h
    · rw [hv p h h1]
    · rw [hv q h h2]

/-- A key is determined by what is moved and what remains. -/
theorem key_ext {names m : List String} {key key' : List LabelValue} (hk : key.length = names.length)
    (hk' : key'.length = names.length) (h1 : remainingKey names m key = remainingKey names m key')
    (h2 : movedKey names m key = movedKey names m key') : key = key' := by
  by_cases hf : names.filter (fun n => !m.contains n) = []
  · refine restrict_pair_inj hk hk' (fun n hn => .inl ?_) h2 h2
    by_contra hc
    have := List.filter_eq_nil_iff.1 hf n hn
    simp only [List.contains_eq_mem, decide_eq_true_eq] at hc
    exact this (by simpa using hc)
  · simp only [remainingKey, if_neg hf] at h1
    refine restrict_pair_inj hk hk' (fun n hn => ?_) h1 h2
    cases hc : m.contains n <;> simp

end Equistore
