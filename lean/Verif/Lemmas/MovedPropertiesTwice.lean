import Verif.Lemmas.MovedProperties

/-!
# Moving keys to properties twice

The names moved in the second step, `m₂`, are the first ones.
-/

namespace Equistore
open Spec NdArray

section
variable {names m₁ m₂ : List String}

theorem filter_ne_nil_back (hn : names.Nodup) (hs : (m₂ ++ m₁).Sublist names) (h2 : m₂ ≠ []) :
    names.filter (fun n => !m₁.contains n) ≠ [] := by
  obtain ⟨n, hn2⟩ := List.exists_mem_of_ne_nil _ h2
  have hd := (List.nodup_append.1 (hs.nodup hn)).2.2
  refine List.ne_nil_of_mem (a := n) (List.mem_filter.2 ⟨hs.subset (List.mem_append_left _ hn2), ?_⟩)
  simp only [Bool.not_eq_true', List.contains_eq_mem, decide_eq_false_iff_not]
  exact fun h1 => hd n hn2 n h1 rfl

theorem remainingNames_swap : remainingNames names (m₁ ++ m₂) = remainingNames names (m₂ ++ m₁) := by
  simp only [remainingNames, notBoth, Bool.and_comm]

theorem remainingKey_swap (key : List LabelValue) :
    remainingKey names (m₁ ++ m₂) key = remainingKey names (m₂ ++ m₁) key := by
  simp only [remainingKey, notBoth, Bool.and_comm]

theorem remainingNames_back (hn : names.Nodup) (hs : (m₂ ++ m₁).Sublist names) (h2 : m₂ ≠ []) :
    remainingNames (remainingNames names m₁) m₂ = remainingNames names (m₂ ++ m₁) := by
  rw [remainingNames_of (filter_ne_nil_back hn hs h2), remainingNames_swap]

theorem remainingKey_back (hn : names.Nodup) (hs : (m₂ ++ m₁).Sublist names) (h2 : m₂ ≠ [])
    (key : List LabelValue) :
    remainingKey (remainingNames names m₁) m₂ (remainingKey names m₁ key) =
      remainingKey names (m₂ ++ m₁) key := by
  rw [remainingKey_of (filter_ne_nil_back hn hs h2), remainingKey_swap]

theorem movedKey_back (hn : names.Nodup) (hs : (m₂ ++ m₁).Sublist names) (h2 : m₂ ≠ [])
    {key : List LabelValue} (hk : key.length = names.length) :
    movedKey names (m₂ ++ m₁) key =
      movedKey (remainingNames names m₁) m₂ (remainingKey names m₁ key) ++ movedKey names m₁ key := by
  have hd := (List.nodup_append.1 (hs.nodup hn)).2.2
  rw [movedKey_of (filter_ne_nil_back hn hs h2) fun n h2 h1 => hd n h2 n h1 rfl,
    movedKey_eq_valuesFor hn hs hk, movedKey_eq_valuesFor hn ((List.sublist_append_left _ _).trans hs) hk,
    movedKey_eq_valuesFor hn ((List.sublist_append_right _ _).trans hs) hk]
  exact List.filterMap_append

end

/-- Moving names in two steps is the same as moving all of them at once. -/
theorem Spec.MovedToProperties.trans {m₁ m₂ : List String} {sort₁ sort₂ : Bool} {t t₁ t₂ : TensorMap NdArray}
    (ht : TensorValid t) (hs : (m₂ ++ m₁).Sublist t.keys.names) (h2 : m₂ ≠ [])
    (h : MovedToProperties m₁ sort₁ t t₁) (h' : MovedToProperties m₂ sort₂ t₁ t₂) :
    MovedToProperties (m₂ ++ m₁) sort₂ t t₂ := by
  have hn := (Labels.Holds.names_ok ht.keys_wf).2
  have hrk : ∀ key, remainingKey t₁.keys.names m₂ (remainingKey t.keys.names m₁ key) =
      remainingKey t.keys.names (m₂ ++ m₁) key := fun key => by
    rw [h.keyNames]; exact remainingKey_back hn hs h2 key
  have hmk : ∀ key, key.length = t.keys.names.length → movedKey t.keys.names (m₂ ++ m₁) key =
      movedKey t₁.keys.names m₂ (remainingKey t.keys.names m₁ key) ++ movedKey t.keys.names m₁ key :=
    fun key hk => by rw [h.keyNames]; exact movedKey_back hn hs h2 hk
  refine ⟨h'.valid, ?_, ?_, ?_, h'.sorted⟩
  · rw [h'.keyNames, h.keyNames, remainingNames_back hn hs h2]
  · have := firstAppearances_twice h.keys h'.keys
    rw [List.map_map] at this
    have hc : remainingKey t₁.keys.names m₂ ∘ remainingKey t.keys.names m₁ =
      remainingKey t.keys.names (m₂ ++ m₁) := funext hrk
    rw [hc] at this
    exact this
  · intro pairs pairs₂ hp hp₂ kb₂ hkb₂
    obtain ⟨key₂, b₂⟩ := kb₂
    have hB₂ := h'.blocks _ _ h.valid.iter_eq hp₂ _ hkb₂
    have hb₂v : BlockValid b₂ := by
      rw [h'.valid.iter_eq, Res.ok.injEq] at hp₂
      subst hp₂
      exact h'.valid.blocks _ (List.of_mem_zip hkb₂).2
    have hB₁ := fun kb₁ => h.blocks _ _ hp h.valid.iter_eq kb₁
    rw [ht.iter_eq, Res.ok.injEq] at hp
    subst hp
    generalize hP : t.keys.rows.zip t.blocks = pairs at *
    generalize hP₁ : t₁.keys.rows.zip t₁.blocks = pairs₁ at *
    have hlen : ∀ kb ∈ pairs, kb.1.length = t.keys.names.length := fun kb hkb => by
      subst hP
      exact Labels.Holds.row_length ht.keys_wf _ (List.of_mem_zip (a := kb.1) (b := kb.2) hkb).1
    have hval : ∀ kb ∈ pairs, BlockValid kb.2 := fun kb hkb => by
      subst hP
      exact ht.blocks _ (List.of_mem_zip (a := kb.1) (b := kb.2) hkb).2
    have hval₁ : ∀ kb ∈ pairs₁, BlockValid kb.2 := fun kb hkb => by
      subst hP₁
      exact h.valid.blocks _ (List.of_mem_zip (a := kb.1) (b := kb.2) hkb).2
    -- the blocks merged in the end are the ones merged with the intermediate blocks
    have hdown : ∀ kb₁ ∈ group t₁.keys.names m₂ pairs₁ key₂, ∀ kb ∈ group t.keys.names m₁ pairs kb₁.1,
        kb ∈ group t.keys.names (m₂ ++ m₁) pairs key₂ := by
      intro kb₁ hkb₁ kb hkb
      have e1 := (mem_group (key := kb₁.1) (b := kb₁.2)).1 hkb₁
      have e2 := (mem_group (key := kb.1) (b := kb.2)).1 hkb
      refine (mem_group (key := kb.1) (b := kb.2)).2 ⟨e2.1, ?_⟩
      rw [← hrk, e2.2, e1.2]
    have hup : ∀ kb ∈ group t.keys.names (m₂ ++ m₁) pairs key₂, ∃ kb₁ ∈ group t₁.keys.names m₂ pairs₁ key₂,
        kb ∈ group t.keys.names m₁ pairs kb₁.1 := by
      intro kb hkb
      have e1 := (mem_group (key := kb.1) (b := kb.2)).1 hkb
      have hk₁ : remainingKey t.keys.names m₁ kb.1 ∈ t₁.keys.rows := by
        rw [← entriesOf_eq h.valid.keys_wf, h.keys.same, entriesOf_eq ht.keys_wf]
        refine List.mem_map_of_mem ?_
        have := e1.1
        rw [← hP] at this
        exact (List.of_mem_zip (a := kb.1) (b := kb.2) this).1
      obtain ⟨b₁, hb₁⟩ := zip_mem_of h.valid.length_eq hk₁
      rw [hP₁] at hb₁
      refine ⟨(_, b₁), mem_group.2 ⟨hb₁, ?_⟩, (mem_group (key := kb.1) (b := kb.2)).2 ⟨e1.1, rfl⟩⟩
      rw [hrk]; exact e1.2
    have hmem₁ : ∀ kb₁ ∈ group t₁.keys.names m₂ pairs₁ key₂, kb₁ ∈ pairs₁ := fun kb₁ h => (List.mem_filter.1 h).1
    have hmem : ∀ kb ∈ group t.keys.names (m₂ ++ m₁) pairs key₂, kb ∈ pairs := fun kb h => (List.mem_filter.1 h).1
    have hB₁ := fun kb₁ (hkb₁ : kb₁ ∈ group t₁.keys.names m₂ pairs₁ key₂) => hB₁ kb₁ (hmem₁ kb₁ hkb₁)
    have hmv : ∀ kb₁ ∈ group t₁.keys.names m₂ pairs₁ key₂, ∀ kb ∈ group t.keys.names m₁ pairs kb₁.1, ∀ p,
        movedKey t.keys.names (m₂ ++ m₁) kb.1 ++ p =
          movedKey t₁.keys.names m₂ kb₁.1 ++ (movedKey t.keys.names m₁ kb.1 ++ p) := by
      intro kb₁ hkb₁ kb hkb p
      have e2 := (mem_group (key := kb.1) (b := kb.2)).1 hkb
      rw [hmk _ (hlen kb e2.1), e2.2, List.append_assoc]
    have hex : ∀ P : List LabelValue × TensorBlock NdArray → Prop,
        (∃ kb ∈ group t.keys.names (m₂ ++ m₁) pairs key₂, P kb) ↔
        ∃ kb₁ ∈ group t₁.keys.names m₂ pairs₁ key₂, ∃ kb ∈ group t.keys.names m₁ pairs kb₁.1, P kb := by
      intro P
      constructor
      · rintro ⟨kb, h1, h2⟩
        obtain ⟨kb₁, h3, h4⟩ := hup kb h1
        exact ⟨kb₁, h3, kb, h4, h2⟩
      · rintro ⟨kb₁, h3, kb, h4, h2⟩
        exact ⟨kb, hdown kb₁ h3 kb h4, h2⟩
    have hwf : ∀ kb₁ ∈ group t₁.keys.names m₂ pairs₁ key₂, kb₁.2.values.samples.WF := fun kb₁ h =>
      (BasicValid.wf (hval₁ _ (hmem₁ kb₁ h)).values).samples
    have hwf₀ : ∀ kb₁ ∈ group t₁.keys.names m₂ pairs₁ key₂, ∀ kb ∈ group t.keys.names m₁ pairs kb₁.1,
        kb.2.values.samples.WF := fun kb₁ h₁ kb h =>
      (BasicValid.wf (hval _ (hmem kb (hdown kb₁ h₁ kb h))).values).samples
    have hgw : ∀ kb₁ ∈ group t₁.keys.names m₂ pairs₁ key₂, ∀ kb ∈ group t.keys.names m₁ pairs kb₁.1,
        ∀ q g, kb.2.gradient q = some g → ∃ g₁, kb₁.2.gradient q = some g₁ := by
      intro kb₁ h₁ kb hkb q g hg
      have := (hB₁ kb₁ h₁).parameters kb hkb q
      rw [hg] at this
      exact Option.isSome_iff_exists.1 this
    have hid : ∀ {S S₁ S₂ : Labels} {r r₁ r₂}, S₁.WF → SampleRenumbered S S₁ id r r₁ →
        SampleRenumbered S₁ S₂ id r₁ r₂ → SampleRenumbered S S₂ id r r₂ := fun hw h1 h2 => renumbered_trans hw h1 h2
    have hsplit : ∀ {S S₁ S₂ : Labels} {r r₁ r₂}, S.WF → SampleRenumbered S S₁ id r r₁ →
        SampleRenumbered S S₂ id r r₂ → SampleRenumbered S₁ S₂ id r₁ r₂ :=
      fun hw h1 h2 => renumbered_split (f := id) (g := id) hw h1 h2
    refine ⟨?_, ?_, ?_, ?_, ?_, ?_, ?_, ?_, ?_, ?_, ?_, ?_, ?_, ?_⟩
    · intro kb hkb
      obtain ⟨kb₁, h3, h4⟩ := hup kb hkb
      rw [hB₂.propertyNames kb₁ h3, (hB₁ kb₁ h3).propertyNames kb h4, List.append_assoc]
    · intro p₂
      rw [hB₂.properties, hex]
      refine exists_congr fun kb₁ => and_congr_right fun h3 => ?_
      constructor
      · rintro ⟨p₁, hp₁, rfl⟩
        obtain ⟨kb, h4, p, h5, rfl⟩ := ((hB₁ kb₁ h3).properties p₁).1 hp₁
        exact ⟨kb, h4, p, h5, (hmv kb₁ h3 kb h4 p).symm⟩
      · rintro ⟨kb, h4, p, h5, rfl⟩
        exact ⟨_, ((hB₁ kb₁ h3).properties _).2 ⟨kb, h4, p, h5, rfl⟩, hmv kb₁ h3 kb h4 p⟩
    · intro kb hkb
      obtain ⟨kb₁, h3, h4⟩ := hup kb hkb
      rw [hB₂.sampleNames kb₁ h3, (hB₁ kb₁ h3).sampleNames kb h4]
    · intro s
      rw [hB₂.samples, hex]
      exact exists_congr fun kb₁ => and_congr_right fun h3 => by rw [(hB₁ kb₁ h3).samples]
    · intro kb hkb
      obtain ⟨kb₁, h3, h4⟩ := hup kb hkb
      exact (hB₂.components kb₁ h3).trans ((hB₁ kb₁ h3).components kb h4)
    · intro kb hkb s cs p x hx
      obtain ⟨kb₁, h3, h4⟩ := hup kb hkb
      rw [hmv kb₁ h3 kb h4]
      exact hB₂.values kb₁ h3 _ _ _ _ ((hB₁ kb₁ h3).values kb h4 _ _ _ _ hx)
    · intro s cs p₂ x hx hz
      by_cases he : ∃ kb₁ ∈ group t₁.keys.names m₂ pairs₁ key₂, s ∈ entriesOf kb₁.2.values.samples ∧
          ∃ p ∈ entriesOf kb₁.2.values.properties, p₂ = movedKey t₁.keys.names m₂ kb₁.1 ++ p
      · obtain ⟨kb₁, h3, h4, p₁, h5, rfl⟩ := he
        obtain ⟨y, hy⟩ := hasValue_exists (hval₁ kb₁ (hmem₁ kb₁ h3)).values h4
          (by rw [← hB₂.components kb₁ h3]; exact hasValue_components hx) h5
        rw [hasValue_unique hb₂v.values hx (hB₂.values kb₁ h3 _ _ _ _ hy)]
        refine (hB₁ kb₁ h3).zeros _ _ _ _ hy fun kb h6 h7 p h8 h9 => ?_
        refine hz kb (hdown kb₁ h3 kb h6) h7 p h8 ?_
        rw [hmv kb₁ h3 kb h6, h9]
      · exact hB₂.zeros _ _ _ _ hx fun kb₁ h3 h4 p h5 h6 => he ⟨kb₁, h3, h4, p, h5, h6⟩
    · intro kb hkb q
      obtain ⟨kb₁, h3, h4⟩ := hup kb hkb
      rw [hB₂.parameters kb₁ h3, (hB₁ kb₁ h3).parameters kb h4]
    · intro kb hkb q g g₂ hg hg₂
      obtain ⟨kb₁, h3, h4⟩ := hup kb hkb
      obtain ⟨g₁, hg₁⟩ := hgw kb₁ h3 kb h4 q g hg
      have e1 := hB₂.gradientLabels kb₁ h3 q g₁ g₂ hg₁ hg₂
      have e2 := (hB₁ kb₁ h3).gradientLabels kb h4 q g g₁ hg hg₁
      exact ⟨e1.1.trans e2.1, e1.2.trans e2.2⟩
    · exact hB₂.gradientSorted
    · intro kb hkb q g hg r hr
      obtain ⟨kb₁, h3, h4⟩ := hup kb hkb
      obtain ⟨g₁, hg₁⟩ := hgw kb₁ h3 kb h4 q g hg
      obtain ⟨r₁, hr₁⟩ := (hB₁ kb₁ h3).gradientKept kb h4 q g hg r hr
      have hr₁m := ((hB₁ kb₁ h3).gradientSamples q g₁ hg₁ r₁).2 ⟨kb, h4, g, hg, r, hr, hr₁⟩
      obtain ⟨r₂, hr₂⟩ := hB₂.gradientKept kb₁ h3 q g₁ hg₁ r₁ hr₁m
      exact ⟨r₂, hid (hwf kb₁ h3) hr₁ hr₂⟩
    · intro q g₂ hg₂ r₂
      rw [hB₂.gradientSamples q g₂ hg₂, hex]
      refine exists_congr fun kb₁ => and_congr_right fun h3 => ?_
      constructor
      · rintro ⟨g₁, hg₁, r₁, hr₁m, hr₁⟩
        obtain ⟨kb, h4, g, hg, r, hr, hr'⟩ := ((hB₁ kb₁ h3).gradientSamples q g₁ hg₁ r₁).1 hr₁m
        exact ⟨kb, h4, g, hg, r, hr, hid (hwf kb₁ h3) hr' hr₁⟩
      · rintro ⟨kb, h4, g, hg, r, hr, hr'⟩
        obtain ⟨g₁, hg₁⟩ := hgw kb₁ h3 kb h4 q g hg
        obtain ⟨r₁, hr₁⟩ := (hB₁ kb₁ h3).gradientKept kb h4 q g hg r hr
        exact ⟨g₁, hg₁, r₁, ((hB₁ kb₁ h3).gradientSamples q g₁ hg₁ r₁).2 ⟨kb, h4, g, hg, r, hr, hr₁⟩,
          hsplit (hwf₀ kb₁ h3 kb h4) hr₁ hr'⟩
    · intro q g₂ hg₂ kb hkb g hg r r₂ cs p x hr hx
      obtain ⟨kb₁, h3, h4⟩ := hup kb hkb
      obtain ⟨g₁, hg₁⟩ := hgw kb₁ h3 kb h4 q g hg
      have hgv := (hval _ (hmem kb hkb)).gradient_valid hg
      obtain ⟨r₁, hr₁⟩ := (hB₁ kb₁ h3).gradientKept kb h4 q g hg r (hasValue_sample hgv.basic hx)
      rw [hmv kb₁ h3 kb h4]
      exact hB₂.gradientValues q g₂ hg₂ kb₁ h3 g₁ hg₁ r₁ r₂ _ _ _ (hsplit (hwf₀ kb₁ h3 kb h4) hr₁ hr)
        ((hB₁ kb₁ h3).gradientValues q g₁ hg₁ kb h4 g hg r r₁ _ _ _ hr₁ hx)
    · intro q g₂ hg₂ r₂ cs p₂ x hx hz
      by_cases he : ∃ kb₁ ∈ group t₁.keys.names m₂ pairs₁ key₂, ∃ g₁, kb₁.2.gradient q = some g₁ ∧
          ∃ r₁ ∈ entriesOf g₁.samples, SampleRenumbered kb₁.2.values.samples b₂.values.samples id r₁ r₂ ∧
          ∃ p ∈ entriesOf kb₁.2.values.properties, p₂ = movedKey t₁.keys.names m₂ kb₁.1 ++ p
      · obtain ⟨kb₁, h3, g₁, hg₁, r₁, h4, hr₁, p₁, h5, rfl⟩ := he
        have hgv₁ := (hval₁ kb₁ (hmem₁ kb₁ h3)).gradient_valid hg₁
        obtain ⟨y, hy⟩ := hasValue_exists hgv₁.basic h4
          (by rw [← (hB₂.gradientLabels kb₁ h3 q g₁ g₂ hg₁ hg₂).2]; exact hasValue_components hx)
          (by rw [hgv₁.properties]; exact h5)
        rw [hasValue_unique (hb₂v.gradient_valid hg₂).basic hx
          (hB₂.gradientValues q g₂ hg₂ kb₁ h3 g₁ hg₁ r₁ r₂ _ _ _ hr₁ hy)]
        refine (hB₁ kb₁ h3).gradientZeros q g₁ hg₁ _ _ _ _ hy fun kb h6 g hg r h7 hr p h8 h9 => ?_
        refine hz kb (hdown kb₁ h3 kb h6) g hg r h7 (hid (hwf kb₁ h3) hr hr₁) p h8 ?_
        rw [hmv kb₁ h3 kb h6, h9]
      · exact hB₂.gradientZeros q g₂ hg₂ _ _ _ _ hx fun kb₁ h3 g₁ hg₁ r₁ h4 hr₁ p h5 h6 =>
          he ⟨kb₁, h3, g₁, hg₁, r₁, h4, hr₁, p, h5, h6⟩

end Equistore
