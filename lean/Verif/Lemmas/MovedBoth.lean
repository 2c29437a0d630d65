import Verif.Lemmas.MovedPropertiesOrder
import Verif.Lemmas.FirstAppearances
import Verif.Spec.MovedBoth

/-!
# Moving keys to samples and other keys to properties
-/

namespace Equistore
open Spec NdArray

/-- The blocks merged in two steps are the ones merged at once. -/
structure Steps (names names₁ m₁ m₂ m : List String) (pairs pairs₁ : List (List LabelValue × TensorBlock NdArray))
    (key₂ : List LabelValue) : Prop where
  down : ∀ kb₁ ∈ group names₁ m₂ pairs₁ key₂, ∀ kb ∈ group names m₁ pairs kb₁.1, kb ∈ group names m pairs key₂
  below : ∀ kb₁ ∈ group names₁ m₂ pairs₁ key₂, ∃ kb, kb ∈ group names m₁ pairs kb₁.1
  up : ∀ kb ∈ group names m pairs key₂, ∃ kb₁ ∈ group names₁ m₂ pairs₁ key₂, kb ∈ group names m₁ pairs kb₁.1
  mem₁ : ∀ kb₁ ∈ group names₁ m₂ pairs₁ key₂, kb₁ ∈ pairs₁
  mem : ∀ kb ∈ group names m pairs key₂, kb ∈ pairs
  moved : ∀ kb₁ ∈ group names₁ m₂ pairs₁ key₂, ∀ kb ∈ group names m₁ pairs kb₁.1,
    movedKey names₁ m₂ kb₁.1 = movedKey names m₂ kb.1

theorem steps {t t₁ : TensorMap NdArray} {m₁ m₂ m : List String} (ht : TensorValid t) (ht₁ : TensorValid t₁)
    (hrk : ∀ key, remainingKey t₁.keys.names m₂ (remainingKey t.keys.names m₁ key) = remainingKey t.keys.names m key)
    (hmk : ∀ key, movedKey t₁.keys.names m₂ (remainingKey t.keys.names m₁ key) = movedKey t.keys.names m₂ key)
    (hk : FirstAppearances ((entriesOf t.keys).map (remainingKey t.keys.names m₁)) (entriesOf t₁.keys))
    (key₂ : List LabelValue) :
    Steps t.keys.names t₁.keys.names m₁ m₂ m (t.keys.rows.zip t.blocks) (t₁.keys.rows.zip t₁.blocks) key₂ := by
  refine ⟨?_, ?_, ?_, fun kb₁ h => (List.mem_filter.1 h).1, fun kb₁ h => (List.mem_filter.1 h).1, ?_⟩
  · intro kb₁ hkb₁ kb hkb
    have e1 := (mem_group (key := kb₁.1) (b := kb₁.2)).1 hkb₁
    have e2 := (mem_group (key := kb.1) (b := kb.2)).1 hkb
    refine (mem_group (key := kb.1) (b := kb.2)).2 ⟨e2.1, ?_⟩
    rw [← hrk, e2.2, e1.2]
  · intro kb₁ hkb₁
    have e1 := (mem_group (key := kb₁.1) (b := kb₁.2)).1 hkb₁
    obtain ⟨key, h3, h4⟩ := List.mem_map.1 ((hk.same kb₁.1).1 (by
      rw [entriesOf_eq ht₁.keys_wf]; exact (List.of_mem_zip (a := kb₁.1) (b := kb₁.2) e1.1).1))
    rw [entriesOf_eq ht.keys_wf] at h3
    obtain ⟨b, hb⟩ := zip_mem_of ht.length_eq h3
    exact ⟨(key, b), mem_group.2 ⟨hb, h4⟩⟩
  · intro kb hkb
    have e1 := (mem_group (key := kb.1) (b := kb.2)).1 hkb
    have hk₁ : remainingKey t.keys.names m₁ kb.1 ∈ t₁.keys.rows := by
      rw [← entriesOf_eq ht₁.keys_wf, hk.same, entriesOf_eq ht.keys_wf]
      exact List.mem_map_of_mem (List.of_mem_zip (a := kb.1) (b := kb.2) e1.1).1
    obtain ⟨b₁, hb₁⟩ := zip_mem_of ht₁.length_eq hk₁
    refine ⟨(_, b₁), mem_group.2 ⟨hb₁, ?_⟩, (mem_group (key := kb.1) (b := kb.2)).2 ⟨e1.1, rfl⟩⟩
    rw [hrk]; exact e1.2
  · intro kb₁ hkb₁ kb hkb
    rw [← ((mem_group (key := kb.1) (b := kb.2)).1 hkb).2, hmk]

theorem Steps.exists {names names₁ m₁ m₂ m : List String} {pairs pairs₁ : List (List LabelValue × TensorBlock NdArray)}
    {key₂ : List LabelValue} (h : Steps names names₁ m₁ m₂ m pairs pairs₁ key₂)
    (P : List LabelValue × TensorBlock NdArray → Prop) :
    (∃ kb ∈ group names m pairs key₂, P kb) ↔
      ∃ kb₁ ∈ group names₁ m₂ pairs₁ key₂, ∃ kb ∈ group names m₁ pairs kb₁.1, P kb := by
  constructor
  · rintro ⟨kb, h1, h2⟩
    obtain ⟨kb₁, h3, h4⟩ := h.up kb h1
    exact ⟨kb₁, h3, kb, h4, h2⟩
  · rintro ⟨kb₁, h3, kb, h4, h2⟩
    exact ⟨kb, h.down kb₁ h3 kb h4, h2⟩

theorem zip_blocksValid {t : TensorMap NdArray} (ht : TensorValid t) : ∀ kb ∈ t.keys.rows.zip t.blocks,
    BlockValid kb.2 := fun kb hkb => ht.blocks _ (List.of_mem_zip (a := kb.1) (b := kb.2) hkb).2

/-- Blocks merged along samples, then along properties. -/
theorem BlockMovedToBoth.samplesFirst {names names₁ S P : List String}
    {pairs pairs₁ : List (List LabelValue × TensorBlock NdArray)} {key₂ : List LabelValue} {b₂ : TensorBlock NdArray}
    (st : Steps names names₁ S P (S ++ P) pairs pairs₁ key₂) (hval : ∀ kb ∈ pairs, BlockValid kb.2)
    (hval₁ : ∀ kb ∈ pairs₁, BlockValid kb.2)
    (hB₁ : ∀ kb₁ ∈ pairs₁, BlockMoved names S pairs kb₁.1 kb₁.2)
    (hB₂ : BlockMovedToProperties names₁ P pairs₁ key₂ b₂) : BlockMovedToBoth names S P pairs key₂ b₂ := by
  have hB₁ := fun kb₁ (hkb₁ : kb₁ ∈ group names₁ P pairs₁ key₂) => hB₁ kb₁ (st.mem₁ kb₁ hkb₁)
  have hwf : ∀ kb₁ ∈ group names₁ P pairs₁ key₂, kb₁.2.values.samples.WF := fun kb₁ h =>
    (BasicValid.wf (hval₁ _ (st.mem₁ kb₁ h)).values).samples
  have hwf₀ : ∀ kb₁ ∈ group names₁ P pairs₁ key₂, ∀ kb ∈ group names S pairs kb₁.1,
      kb.2.values.samples.WF := fun kb₁ h₁ kb h =>
    (BasicValid.wf (hval _ (st.mem kb (st.down kb₁ h₁ kb h))).values).samples
  have hgw : ∀ kb₁ ∈ group names₁ P pairs₁ key₂, ∀ kb ∈ group names S pairs kb₁.1,
      ∀ q g, kb.2.gradient q = some g → ∃ g₁, kb₁.2.gradient q = some g₁ := by
    intro kb₁ h₁ kb hkb q g hg
    have := (hB₁ kb₁ h₁).parameters kb hkb q
    rw [hg] at this
    exact Option.isSome_iff_exists.1 this
  have htr : ∀ {S S₁ S₂ : Labels} {f : List LabelValue → List LabelValue} {r r₁ r₂}, S₁.WF → SampleRenumbered S S₁ f r r₁ →
      SampleRenumbered S₁ S₂ id r₁ r₂ → SampleRenumbered S S₂ f r r₂ := fun hw h1 h2 => renumbered_trans (g := id) hw h1 h2
  have hsplit : ∀ {S S₁ S₂ : Labels} {f : List LabelValue → List LabelValue} {r r₁ r₂}, S.WF →
      SampleRenumbered S S₁ f r r₁ → SampleRenumbered S S₂ f r r₂ → SampleRenumbered S₁ S₂ id r₁ r₂ :=
    fun hw h1 h2 => renumbered_split (g := id) hw h1 h2
  refine ⟨?_, ?_, ?_, ?_, ?_, ?_, ?_, ?_, ?_, ?_, ?_, ?_, ?_, ?_⟩
  · intro kb hkb
    obtain ⟨kb₁, h3, h4⟩ := st.up kb hkb
    rw [hB₂.sampleNames kb₁ h3, (hB₁ kb₁ h3).sampleNames kb h4]
  · intro s
    rw [hB₂.samples, st.exists]
    exact exists_congr fun kb₁ => and_congr_right fun h3 => by rw [(hB₁ kb₁ h3).samples]
  · intro kb hkb
    obtain ⟨kb₁, h3, h4⟩ := st.up kb hkb
    rw [hB₂.propertyNames kb₁ h3, ((hB₁ kb₁ h3).labels kb h4).2]
  · intro p₂
    rw [hB₂.properties]
    constructor
    · rintro ⟨kb₁, h3, p, hp, rfl⟩
      -- a property of a merged block is a property of the blocks
      obtain ⟨kb, h4⟩ := st.below kb₁ h3
      refine ⟨kb, st.down kb₁ h3 kb h4, p, ?_, by rw [st.moved kb₁ h3 kb h4]⟩
      rw [← ((hB₁ kb₁ h3).labels kb h4).2]; exact hp
    · rintro ⟨kb, hkb, p, hp, rfl⟩
      obtain ⟨kb₁, h3, h4⟩ := st.up kb hkb
      refine ⟨kb₁, h3, p, ?_, by rw [st.moved kb₁ h3 kb h4]⟩
      rw [((hB₁ kb₁ h3).labels kb h4).2]; exact hp
  · intro kb hkb
    obtain ⟨kb₁, h3, h4⟩ := st.up kb hkb
    exact (hB₂.components kb₁ h3).trans ((hB₁ kb₁ h3).labels kb h4).1
  · intro kb hkb s cs p x hx
    obtain ⟨kb₁, h3, h4⟩ := st.up kb hkb
    rw [← st.moved kb₁ h3 kb h4]
    exact hB₂.values kb₁ h3 _ _ _ _ (((hB₁ kb₁ h3).values _ _ _ _).2 ⟨kb, h4, s, rfl, hx⟩)
  · intro s' cs p₂ x hx hz
    refine hB₂.zeros _ _ _ _ hx fun kb₁ h3 h4 p h5 h6 => ?_
    obtain ⟨kb, h7, s, h8, h9⟩ := ((hB₁ kb₁ h3).samples s').1 h4
    refine hz kb (st.down kb₁ h3 kb h7) s h8 h9 p ?_ (by rw [h6, st.moved kb₁ h3 kb h7])
    rw [← ((hB₁ kb₁ h3).labels kb h7).2]; exact h5
  · intro kb hkb q
    obtain ⟨kb₁, h3, h4⟩ := st.up kb hkb
    rw [hB₂.parameters kb₁ h3, (hB₁ kb₁ h3).parameters kb h4]
  · intro kb hkb q g g₂ hg hg₂
    obtain ⟨kb₁, h3, h4⟩ := st.up kb hkb
    obtain ⟨g₁, hg₁⟩ := hgw kb₁ h3 kb h4 q g hg
    have e1 := hB₂.gradientLabels kb₁ h3 q g₁ g₂ hg₁ hg₂
    have e2 := (hB₁ kb₁ h3).gradientLabels kb h4 q g g₁ hg hg₁
    exact ⟨e1.1.trans e2.1, e1.2.trans e2.2⟩
  · exact hB₂.gradientSorted
  · intro kb hkb q g hg r hr
    obtain ⟨kb₁, h3, h4⟩ := st.up kb hkb
    obtain ⟨g₁, hg₁⟩ := hgw kb₁ h3 kb h4 q g hg
    obtain ⟨r₁, hr₁⟩ := (hB₁ kb₁ h3).gradientKept kb h4 q g hg r hr
    have hr₁m := ((hB₁ kb₁ h3).gradientSamples q g₁ hg₁ r₁).2 ⟨kb, h4, g, hg, r, hr, hr₁⟩
    obtain ⟨r₂, hr₂⟩ := hB₂.gradientKept kb₁ h3 q g₁ hg₁ r₁ hr₁m
    exact ⟨r₂, htr (hwf kb₁ h3) hr₁ hr₂⟩
  · intro q g₂ hg₂ r₂
    rw [hB₂.gradientSamples q g₂ hg₂, st.exists]
    refine exists_congr fun kb₁ => and_congr_right fun h3 => ?_
    constructor
    · rintro ⟨g₁, hg₁, r₁, hr₁m, hr₁⟩
      obtain ⟨kb, h4, g, hg, r, hr, hr'⟩ := ((hB₁ kb₁ h3).gradientSamples q g₁ hg₁ r₁).1 hr₁m
      exact ⟨kb, h4, g, hg, r, hr, htr (hwf kb₁ h3) hr' hr₁⟩
    · rintro ⟨kb, h4, g, hg, r, hr, hr'⟩
      obtain ⟨g₁, hg₁⟩ := hgw kb₁ h3 kb h4 q g hg
      obtain ⟨r₁, hr₁⟩ := (hB₁ kb₁ h3).gradientKept kb h4 q g hg r hr
      exact ⟨g₁, hg₁, r₁, ((hB₁ kb₁ h3).gradientSamples q g₁ hg₁ r₁).2 ⟨kb, h4, g, hg, r, hr, hr₁⟩,
        hsplit (hwf₀ kb₁ h3 kb h4) hr₁ hr'⟩
  · intro q g₂ hg₂ kb hkb g hg r r₂ cs p x hr hx
    obtain ⟨kb₁, h3, h4⟩ := st.up kb hkb
    obtain ⟨g₁, hg₁⟩ := hgw kb₁ h3 kb h4 q g hg
    have hgv := (hval _ (st.mem kb hkb)).gradient_valid hg
    obtain ⟨r₁, hr₁⟩ := (hB₁ kb₁ h3).gradientKept kb h4 q g hg r (hasValue_sample hgv.basic hx)
    rw [← st.moved kb₁ h3 kb h4]
    exact hB₂.gradientValues q g₂ hg₂ kb₁ h3 g₁ hg₁ r₁ r₂ _ _ _ (hsplit (hwf₀ kb₁ h3 kb h4) hr₁ hr)
      (((hB₁ kb₁ h3).gradientValues q g₁ hg₁ r₁ _ _ _).2 ⟨kb, h4, g, hg, r, hr₁, hx⟩)
  · intro q g₂ hg₂ r₂ cs p₂ x hx hz
    refine hB₂.gradientZeros q g₂ hg₂ _ _ _ _ hx fun kb₁ h3 g₁ hg₁ r₁ h4 hr₁ p h5 h6 => ?_
    obtain ⟨kb, h7, g, hg, r, h8, h9⟩ := ((hB₁ kb₁ h3).gradientSamples q g₁ hg₁ r₁).1 h4
    refine hz kb (st.down kb₁ h3 kb h7) g hg r h8 (htr (hwf kb₁ h3) h9 hr₁) p ?_ (by rw [h6, st.moved kb₁ h3 kb h7])
    rw [← ((hB₁ kb₁ h3).labels kb h7).2]; exact h5

/-- Blocks merged along properties, then along samples. -/
theorem BlockMovedToBoth.propertiesFirst {names names₁ S P : List String}
    {pairs pairs₁ : List (List LabelValue × TensorBlock NdArray)} {key₂ : List LabelValue} {b₂ : TensorBlock NdArray}
    (st : Steps names names₁ P S (S ++ P) pairs pairs₁ key₂) (hval : ∀ kb ∈ pairs, BlockValid kb.2)
    (hval₁ : ∀ kb ∈ pairs₁, BlockValid kb.2)
    (hB₁ : ∀ kb₁ ∈ pairs₁, BlockMovedToProperties names P pairs kb₁.1 kb₁.2)
    (hB₂ : BlockMoved names₁ S pairs₁ key₂ b₂) (hsome : ∃ kb₁, kb₁ ∈ group names₁ S pairs₁ key₂) :
    BlockMovedToBoth names S P pairs key₂ b₂ := by
  have hB₁ := fun kb₁ (hkb₁ : kb₁ ∈ group names₁ S pairs₁ key₂) => hB₁ kb₁ (st.mem₁ kb₁ hkb₁)
  have hwf : ∀ kb₁ ∈ group names₁ S pairs₁ key₂, kb₁.2.values.samples.WF := fun kb₁ h =>
    (BasicValid.wf (hval₁ _ (st.mem₁ kb₁ h)).values).samples
  have hwf₀ : ∀ kb₁ ∈ group names₁ S pairs₁ key₂, ∀ kb ∈ group names P pairs kb₁.1,
      kb.2.values.samples.WF := fun kb₁ h₁ kb h =>
    (BasicValid.wf (hval _ (st.mem kb (st.down kb₁ h₁ kb h))).values).samples
  have hgw : ∀ kb₁ ∈ group names₁ S pairs₁ key₂, ∀ kb ∈ group names P pairs kb₁.1,
      ∀ q g, kb.2.gradient q = some g → ∃ g₁, kb₁.2.gradient q = some g₁ := by
    intro kb₁ h₁ kb hkb q g hg
    have := (hB₁ kb₁ h₁).parameters kb hkb q
    rw [hg] at this
    exact Option.isSome_iff_exists.1 this
  have htr : ∀ {S S₁ S₂ : Labels} {f : List LabelValue → List LabelValue} {r r₁ r₂}, S₁.WF → SampleRenumbered S S₁ id r r₁ →
      SampleRenumbered S₁ S₂ f r₁ r₂ → SampleRenumbered S S₂ f r r₂ := fun hw h1 h2 => renumbered_trans (f := id) hw h1 h2
  have hsplit : ∀ {S S₁ S₂ : Labels} {f : List LabelValue → List LabelValue} {r r₁ r₂}, S.WF →
      SampleRenumbered S S₁ id r r₁ → SampleRenumbered S S₂ f r r₂ → SampleRenumbered S₁ S₂ f r₁ r₂ :=
    fun hw h1 h2 => renumbered_split (f := id) hw h1 h2
  refine ⟨?_, ?_, ?_, ?_, ?_, ?_, ?_, ?_, ?_, ?_, ?_, ?_, ?_, ?_⟩
  · intro kb hkb
    obtain ⟨kb₁, h3, h4⟩ := st.up kb hkb
    rw [hB₂.sampleNames kb₁ h3, (hB₁ kb₁ h3).sampleNames kb h4]
  · intro s₂
    rw [hB₂.samples, st.exists]
    refine exists_congr fun kb₁ => and_congr_right fun h3 => ?_
    constructor
    · rintro ⟨s, hs, rfl⟩
      obtain ⟨kb, h4, h5⟩ := ((hB₁ kb₁ h3).samples s).1 hs
      exact ⟨kb, h4, s, h5, by rw [st.moved kb₁ h3 kb h4]⟩
    · rintro ⟨kb, h4, s, h5, rfl⟩
      exact ⟨s, ((hB₁ kb₁ h3).samples s).2 ⟨kb, h4, h5⟩, by rw [st.moved kb₁ h3 kb h4]⟩
  · intro kb hkb
    obtain ⟨kb₁, h3, h4⟩ := st.up kb hkb
    rw [(hB₂.labels kb₁ h3).2, (hB₁ kb₁ h3).propertyNames kb h4]
  · intro p₂
    constructor
    · intro hp
      obtain ⟨kb₁, h3⟩ := hsome
      rw [(hB₂.labels kb₁ h3).2] at hp
      obtain ⟨kb, h4, p, h5, rfl⟩ := ((hB₁ kb₁ h3).properties p₂).1 hp
      exact ⟨kb, st.down kb₁ h3 kb h4, p, h5, rfl⟩
    · rintro ⟨kb, hkb, p, hp, rfl⟩
      obtain ⟨kb₁, h3, h4⟩ := st.up kb hkb
      rw [(hB₂.labels kb₁ h3).2]
      exact ((hB₁ kb₁ h3).properties _).2 ⟨kb, h4, p, hp, rfl⟩
  · intro kb hkb
    obtain ⟨kb₁, h3, h4⟩ := st.up kb hkb
    exact (hB₂.labels kb₁ h3).1.trans ((hB₁ kb₁ h3).components kb h4)
  · intro kb hkb s cs p x hx
    obtain ⟨kb₁, h3, h4⟩ := st.up kb hkb
    rw [← st.moved kb₁ h3 kb h4]
    exact (hB₂.values _ _ _ _).2 ⟨kb₁, h3, s, rfl, (hB₁ kb₁ h3).values kb h4 _ _ _ _ hx⟩
  · intro s' cs p₂ x hx hz
    obtain ⟨kb₁, h3, s, rfl, hx₁⟩ := (hB₂.values _ _ _ _).1 hx
    refine (hB₁ kb₁ h3).zeros _ _ _ _ hx₁ fun kb h4 h5 p h6 h7 => ?_
    exact hz kb (st.down kb₁ h3 kb h4) s h5 (by rw [st.moved kb₁ h3 kb h4]) p h6 h7
  · intro kb hkb q
    obtain ⟨kb₁, h3, h4⟩ := st.up kb hkb
    rw [hB₂.parameters kb₁ h3, (hB₁ kb₁ h3).parameters kb h4]
  · intro kb hkb q g g₂ hg hg₂
    obtain ⟨kb₁, h3, h4⟩ := st.up kb hkb
    obtain ⟨g₁, hg₁⟩ := hgw kb₁ h3 kb h4 q g hg
    have e1 := hB₂.gradientLabels kb₁ h3 q g₁ g₂ hg₁ hg₂
    have e2 := (hB₁ kb₁ h3).gradientLabels kb h4 q g g₁ hg hg₁
    exact ⟨e1.1.trans e2.1, e1.2.trans e2.2⟩
  · exact hB₂.gradientSorted
  · intro kb hkb q g hg r hr
    obtain ⟨kb₁, h3, h4⟩ := st.up kb hkb
    obtain ⟨g₁, hg₁⟩ := hgw kb₁ h3 kb h4 q g hg
    obtain ⟨r₁, hr₁⟩ := (hB₁ kb₁ h3).gradientKept kb h4 q g hg r hr
    have hr₁m := ((hB₁ kb₁ h3).gradientSamples q g₁ hg₁ r₁).2 ⟨kb, h4, g, hg, r, hr, hr₁⟩
    obtain ⟨r₂, hr₂⟩ := hB₂.gradientKept kb₁ h3 q g₁ hg₁ r₁ hr₁m
    rw [← st.moved kb₁ h3 kb h4]
    exact ⟨r₂, htr (hwf kb₁ h3) hr₁ hr₂⟩
  · intro q g₂ hg₂ r₂
    rw [hB₂.gradientSamples q g₂ hg₂, st.exists]
    refine exists_congr fun kb₁ => and_congr_right fun h3 => ?_
    constructor
    · rintro ⟨g₁, hg₁, r₁, hr₁m, hr₁⟩
      obtain ⟨kb, h4, g, hg, r, hr, hr'⟩ := ((hB₁ kb₁ h3).gradientSamples q g₁ hg₁ r₁).1 hr₁m
      refine ⟨kb, h4, g, hg, r, hr, ?_⟩
      rw [← st.moved kb₁ h3 kb h4]
      exact htr (hwf kb₁ h3) hr' hr₁
    · rintro ⟨kb, h4, g, hg, r, hr, hr'⟩
      obtain ⟨g₁, hg₁⟩ := hgw kb₁ h3 kb h4 q g hg
      obtain ⟨r₁, hr₁⟩ := (hB₁ kb₁ h3).gradientKept kb h4 q g hg r hr
      rw [← st.moved kb₁ h3 kb h4] at hr'
      exact ⟨g₁, hg₁, r₁, ((hB₁ kb₁ h3).gradientSamples q g₁ hg₁ r₁).2 ⟨kb, h4, g, hg, r, hr, hr₁⟩,
        hsplit (hwf₀ kb₁ h3 kb h4) hr₁ hr'⟩
  · intro q g₂ hg₂ kb hkb g hg r r₂ cs p x hr hx
    obtain ⟨kb₁, h3, h4⟩ := st.up kb hkb
    obtain ⟨g₁, hg₁⟩ := hgw kb₁ h3 kb h4 q g hg
    have hgv := (hval _ (st.mem kb hkb)).gradient_valid hg
    obtain ⟨r₁, hr₁⟩ := (hB₁ kb₁ h3).gradientKept kb h4 q g hg r (hasValue_sample hgv.basic hx)
    rw [← st.moved kb₁ h3 kb h4] at hr
    exact (hB₂.gradientValues q g₂ hg₂ r₂ _ _ _).2 ⟨kb₁, h3, g₁, hg₁, r₁, hsplit (hwf₀ kb₁ h3 kb h4) hr₁ hr,
      (hB₁ kb₁ h3).gradientValues q g₁ hg₁ kb h4 g hg r r₁ _ _ _ hr₁ hx⟩
  · intro q g₂ hg₂ r₂ cs p₂ x hx hz
    obtain ⟨kb₁, h3, g₁, hg₁, r₁, hr₁, hx₁⟩ := (hB₂.gradientValues q g₂ hg₂ r₂ _ _ _).1 hx
    refine (hB₁ kb₁ h3).gradientZeros q g₁ hg₁ _ _ _ _ hx₁ fun kb h4 g hg r h5 h6 p h7 h8 => ?_
    refine hz kb (st.down kb₁ h3 kb h4) g hg r h5 ?_ p h7 h8
    rw [← st.moved kb₁ h3 kb h4]
    exact htr (hwf kb₁ h3) h6 hr₁

/-! ### Tensor maps -/

theorem zip_keys {t : TensorMap NdArray} (ht : TensorValid t) :
    (t.keys.rows.zip t.blocks).map Prod.fst = t.keys.rows :=
  List.map_fst_zip (by have := ht.length_eq; omega)

/-- Moving keys to samples, then to properties. -/
theorem Spec.MovedToBoth.samplesFirst {S P : List String} {sort₁ : Bool} {t t₁ t₂ : TensorMap NdArray}
    (ht : TensorValid t) (hf : t.keys.names.filter (fun n => !S.contains n) ≠ []) (hd : ∀ n ∈ P, n ∉ S)
    (h : MovedToSamples S sort₁ t t₁) (h' : MovedToPropertiesInOrder P true t₁ t₂) : MovedToBoth S P t t₂ := by
  have hrk : ∀ key, remainingKey t₁.keys.names P (remainingKey t.keys.names S key) =
      remainingKey t.keys.names (S ++ P) key := fun key => by
    rw [h.keyNames]; exact remainingKey_of hf key
  have hmk : ∀ key, movedKey t₁.keys.names P (remainingKey t.keys.names S key) =
      movedKey t.keys.names P key := fun key => by
    rw [h.keyNames]; exact movedKey_of hf hd key
  refine ⟨h'.valid, h'.arrays, ?_, ?_, ?_, h'.sorted rfl, ?_⟩
  · rw [h'.keyNames, h.keyNames, remainingNames_of hf]
  · have := firstAppearances_twice h.keys h'.keys
    rw [List.map_map] at this
    have hc : remainingKey t₁.keys.names P ∘ remainingKey t.keys.names S =
      remainingKey t.keys.names (S ++ P) := funext hrk
    rw [hc] at this
    exact this
  · intro pairs pairs₂ hp hp₂ kb₂ hkb₂
    have hB₂ := h'.blocks _ _ h.valid.iter_eq hp₂ _ hkb₂
    have hB₁ := fun kb₁ => h.blocks _ _ hp h.valid.iter_eq kb₁
    rw [ht.iter_eq, Res.ok.injEq] at hp
    subst hp
    exact BlockMovedToBoth.samplesFirst (steps ht h.valid hrk hmk h.keys kb₂.1) (zip_blocksValid ht)
      (zip_blocksValid h.valid) hB₁ hB₂
  · intro pairs pairs₂ hp hp₂ kb₂ hkb₂
    have hO := h'.propertyOrder _ _ h.valid.iter_eq hp₂ _ hkb₂
    have hB₁ := fun kb₁ => h.blocks _ _ hp h.valid.iter_eq kb₁
    have hnd : (entriesOf kb₂.2.values.properties).Nodup := by
      rw [h'.valid.iter_eq, Res.ok.injEq] at hp₂
      subst hp₂
      have hw := (BasicValid.wf (zip_blocksValid h'.valid _ hkb₂).values).properties
      rw [entriesOf_eq hw]; exact Labels.Holds.nodup hw
    rw [ht.iter_eq, Res.ok.injEq] at hp
    subst hp
    have st := steps ht h.valid hrk hmk h.keys kb₂.1
    generalize hP : t.keys.rows.zip t.blocks = pairs at *
    generalize hP₁ : t₁.keys.rows.zip t₁.blocks = pairs₁ at *
    -- the properties contributed by the blocks with some key
    let f : List LabelValue → List (List LabelValue) := fun k =>
      match pairs.find? fun kb => remainingKey t.keys.names S kb.1 = k with
      | some kb => (entriesOf kb.2.values.properties).map (movedKey t.keys.names P kb.1 ++ ·)
      | none => []
    have hfk : ∀ kb₁ ∈ group t₁.keys.names P pairs₁ kb₂.1, f kb₁.1 =
        (entriesOf kb₁.2.values.properties).map (movedKey t₁.keys.names P kb₁.1 ++ ·) := by
      intro kb₁ hkb₁
      show (match pairs.find? _ with | some kb => _ | none => _) = _
      cases hfind : pairs.find? fun kb => remainingKey t.keys.names S kb.1 = kb₁.1 with
      | none =>
        obtain ⟨kb, hkb⟩ := st.below kb₁ hkb₁
        have e1 := (mem_group (key := kb.1) (b := kb.2)).1 hkb
        have := List.find?_eq_none.1 hfind kb e1.1
        exact absurd e1.2 (by simpa using this)
      | some kb =>
        have hkb : kb ∈ group t.keys.names S pairs kb₁.1 := (mem_group (key := kb.1) (b := kb.2)).2
          ⟨List.mem_of_find?_eq_some hfind, by simpa using List.find?_some hfind⟩
        simp only
        rw [st.moved kb₁ hkb₁ kb hkb, ((hB₁ kb₁ (st.mem₁ kb₁ hkb₁)).labels kb hkb).2]
    have hfk₀ : ∀ kb ∈ group t.keys.names (S ++ P) pairs kb₂.1, f (remainingKey t.keys.names S kb.1) =
        (entriesOf kb.2.values.properties).map (movedKey t.keys.names P kb.1 ++ ·) := by
      intro kb hkb
      obtain ⟨kb₁, h3, h4⟩ := st.up kb hkb
      rw [((mem_group (key := kb.1) (b := kb.2)).1 h4).2, hfk kb₁ h3, st.moved kb₁ h3 kb h4,
        ((hB₁ kb₁ (st.mem₁ kb₁ h3)).labels kb h4).2]
    have e1 : (group t.keys.names (S ++ P) pairs kb₂.1).flatMap (fun kb =>
        (entriesOf kb.2.values.properties).map (movedKey t.keys.names P kb.1 ++ ·)) =
        ((group t.keys.names (S ++ P) pairs kb₂.1).map fun kb => remainingKey t.keys.names S kb.1).flatMap f := by
      rw [List.flatMap_map]
      exact (List.flatMap_congr hfk₀).symm
    have e2 : entriesOf kb₂.2.values.properties =
        ((group t₁.keys.names P pairs₁ kb₂.1).map Prod.fst).flatMap f := by
      rw [hO, List.flatMap_map]
      exact (List.flatMap_congr hfk).symm
    rw [e2] at hnd
    rw [e1, e2]
    refine Spec.FirstAppearances.flatMap ?_ hnd
    have := Spec.FirstAppearances.filter h.keys fun k => decide (remainingKey t₁.keys.names P k = kb₂.1)
    rw [entriesOf_eq ht.keys_wf, entriesOf_eq h.valid.keys_wf, ← zip_keys ht, ← zip_keys h.valid, hP, hP₁, List.map_map,
      List.filter_map, List.filter_map] at this
    have hg : pairs.filter ((fun k => decide (remainingKey t₁.keys.names P k = kb₂.1)) ∘
        (remainingKey t.keys.names S ∘ Prod.fst)) = group t.keys.names (S ++ P) pairs kb₂.1 :=
      List.filter_congr fun kb _ => by simp only [Function.comp, hrk]
    rw [hg] at this
    exact this

/-- Moving keys to properties, then to samples. -/
theorem Spec.MovedToBoth.propertiesFirst {S P : List String} {sort₁ : Bool} {t t₁ t₂ : TensorMap NdArray}
    (ht : TensorValid t) (hf : t.keys.names.filter (fun n => !P.contains n) ≠ []) (hd : ∀ n ∈ S, n ∉ P)
    (h : MovedToPropertiesInOrder P sort₁ t t₁) (h' : MovedToSamples S true t₁ t₂) : MovedToBoth S P t t₂ := by
  have hrk : ∀ key, remainingKey t₁.keys.names S (remainingKey t.keys.names P key) =
      remainingKey t.keys.names (S ++ P) key := fun key => by
    rw [h.keyNames, remainingKey_of hf key, remainingKey_swap]
  have hmk : ∀ key, movedKey t₁.keys.names S (remainingKey t.keys.names P key) =
      movedKey t.keys.names S key := fun key => by
    rw [h.keyNames]; exact movedKey_of hf hd key
  have hsome : ∀ kb₂ ∈ t₂.keys.rows.zip t₂.blocks, ∃ kb₁,
      kb₁ ∈ group t₁.keys.names S (t₁.keys.rows.zip t₁.blocks) kb₂.1 := by
    intro kb₂ hkb₂
    obtain ⟨-, kb₁, h1, h2⟩ := h'.below h.valid hkb₂
    exact ⟨kb₁, (mem_group (key := kb₁.1) (b := kb₁.2)).2 ⟨h1, h2⟩⟩
  refine ⟨h'.valid, h'.arrays, ?_, ?_, ?_, h'.sorted rfl, ?_⟩
  · rw [h'.keyNames, h.keyNames, remainingNames_of hf, remainingNames_swap]
  · have := firstAppearances_twice h.keys h'.keys
    rw [List.map_map] at this
    have hc : remainingKey t₁.keys.names S ∘ remainingKey t.keys.names P =
      remainingKey t.keys.names (S ++ P) := funext hrk
    rw [hc] at this
    exact this
  · intro pairs pairs₂ hp hp₂ kb₂ hkb₂
    have hB₂ := h'.blocks _ _ h.valid.iter_eq hp₂ _ hkb₂
    have hB₁ := fun kb₁ => h.blocks _ _ hp h.valid.iter_eq kb₁
    rw [ht.iter_eq, Res.ok.injEq] at hp
    subst hp
    rw [h'.valid.iter_eq, Res.ok.injEq] at hp₂
    subst hp₂
    exact BlockMovedToBoth.propertiesFirst (steps ht h.valid hrk hmk h.keys kb₂.1) (zip_blocksValid ht)
      (zip_blocksValid h.valid) hB₁ hB₂ (hsome kb₂ hkb₂)
  · intro pairs pairs₂ hp hp₂ kb₂ hkb₂
    have hO := fun kb₁ => h.propertyOrder _ _ hp h.valid.iter_eq kb₁
    have hB₂ := h'.blocks _ _ h.valid.iter_eq hp₂ _ hkb₂
    rw [h'.valid.iter_eq, Res.ok.injEq] at hp₂
    subst hp₂
    have hw := (BasicValid.wf (zip_blocksValid h'.valid _ hkb₂).values).properties
    rw [ht.iter_eq, Res.ok.injEq] at hp
    subst hp
    have st := steps ht h.valid hrk hmk h.keys kb₂.1
    refine firstAppearances_classes_flatMap (c := fun kb => remainingKey t.keys.names P kb.1)
      (by rw [entriesOf_eq hw]; exact Labels.Holds.nodup hw) ?_ ?_
    · intro he
      obtain ⟨kb₁, h1⟩ := hsome kb₂ hkb₂
      obtain ⟨kb, h2⟩ := st.below kb₁ h1
      have := st.down kb₁ h1 kb h2
      rw [he] at this
      cases this
    · intro kb hkb
      obtain ⟨kb₁, h3, h4⟩ := st.up kb hkb
      rw [(hB₂.labels kb₁ h3).2, hO kb₁ (st.mem₁ kb₁ h3)]
      congr 1
      unfold group
      rw [List.filter_filter]
      refine List.filter_congr fun k _ => ?_
      have e1 := ((mem_group (key := kb.1) (b := kb.2)).1 hkb).2
      have e2 := ((mem_group (key := kb.1) (b := kb.2)).1 h4).2
      rw [e2]
      by_cases hk : remainingKey t.keys.names P k.1 = kb₁.1
      · have : remainingKey t.keys.names (S ++ P) k.1 = kb₂.1 := by
          rw [← e1, ← hrk, ← hrk, hk, e2]
        simp [hk, this]
      · simp [hk]

end Equistore
