import Verif.Lemmas.MergedBlock

/-! `keys_to_samples` on one group of blocks. -/

namespace Equistore
open Spec NdArray

section
variable {A : Type} [ArrayLike A]

/-- Ranges used when merging along samples. -/
def fullRanges (blocks : List (List LabelValue × TensorBlock A)) (stop : Nat) :
    List (Option (Nat × Nat)) := List.replicate blocks.length (some (0, stop))

theorem mergeBlocksAlongSamples_merged {build : Build} {hash : HashOrder} {extracted : List String}
    {sort : Bool} {blocks : List (List LabelValue × TensorBlock A)} {b' : TensorBlock A} {w : Nat}
    (hg : GroupOk w blocks) (hw : extracted.length = w) (hpos : 0 < w)
    (h : mergeBlocksAlongSamples build hash extracted sort blocks = .ok b') :
    ∃ first mappings stop,
      MergedBlock build hash sort true (first.2.values.samples.names ++ extracted) first blocks
        mappings (fullRanges blocks stop) b' ∧
      SamplesMerged build hash extracted sort first blocks mappings stop b' ∧
      stop = b'.values.properties.rows.length := by
  obtain ⟨first, mappings, stop, hf, hs⟩ := mergeBlocksAlongSamples_ok h
  have hfm : first ∈ blocks := List.mem_of_mem_head? hf
  have hfv := hg.valid first hfm
  have hfw := BasicValid.wf hfv.values
  obtain ⟨rest, hrest⟩ : ∃ rest, blocks = first :: rest := by
    cases blocks with
    | nil => simp at hf
    | cons a l => simp only [List.head?_cons, Option.some.injEq] at hf; exact ⟨l, by rw [hf]⟩
  have hadd : true = decide (first.2.values.samples.size <
      (first.2.values.samples.names ++ extracted).length) := by
    rw [List.length_append, Labels.Holds.size_eq hfw.samples]
    have : first.2.values.samples.names.length < first.2.values.samples.names.length + extracted.length := by
      omega
    simp [this]
  have hsamp := hs.samples
  have hmm : b'.values.samples.Holds (first.2.values.samples.names ++ extracted)
      (mergedRows sort true blocks) ∧
      List.Forall₂ (fun kb mapping => MapsTo (Extends true kb.1) kb.2.values.samples.rows
        (mergedRows sort true blocks) mapping) blocks mappings := by
    subst hrest
    exact mergeSamples_ok (by rw [List.length_append]; omega)
      (fun kb hkb => (BasicValid.wf (hg.valid kb hkb).values).samples) hadd hsamp
  have hstop : stop = b'.values.properties.rows.length := by
    have := hs.stop_eq
    rw [hfw.properties.count_eq, Res.ok.injEq] at this
    rw [hs.properties, this]
  obtain ⟨nb, hnb, hgr⟩ := hs.gradients
  have hnbv : BlockValid nb := by
    refine BlockValid.new ?_ hnb
    intro l hl
    simp only [List.cons_append, List.mem_cons, List.mem_append, List.not_mem_nil, or_false] at hl
    rcases hl with rfl | hl | rfl
    · exact hmm.1.wf.fromBuilder
    · rw [hs.components] at hl; exact (hfw.components _ hl).fromBuilder
    · rw [hs.properties]; exact hfw.properties.fromBuilder
  have hgv : ∀ pg ∈ hash.order first.2.gradients, GradientValid first.2.values pg.2 := by
    intro pg hpg
    exact hfv.gradients pg.1 pg.2 ((hash.perm _).mem_iff.1 hpg)
  have hshapes : ∀ pg ∈ hash.order first.2.gradients, ∃ shape n, ArrayLike.shape pg.2.data = .ok shape ∧
      2 ≤ shape.length ∧ shape[shape.length - 1]? = some n ∧ n = stop := by
    intro pg hpg
    have hv := hgv pg hpg
    obtain ⟨shape, h1, h2⟩ := hv.basic.shape
    have h3 := shapeMatches_eq hv.wf.samples hv.wf.components hv.wf.properties h2
    refine ⟨shape, stop, h1, ?_, ?_, rfl⟩
    · rw [h3]; simp
    · rw [h3, hstop, hs.properties, hv.properties]; simp
  rw [mergeGradientsAlongSamples_eq hmm.2.length_eq hshapes] at hgr
  obtain ⟨e1, gs', e2, e3, e4⟩ := mergeGradientsAlongProperties_ok hgr
  have hnbe := (TensorBlock.new_eq_ok.1 hnb).2.2
  have hng : nb.gradients = [] := by rw [hnbe]
  rw [hng, List.nil_append] at e2
  refine ⟨first, mappings, stop, ⟨hf, ?_, hmm.1, ?_, hs.components, fun kb hkb => (hs.compatible kb hkb).1, ?_⟩,
    hs, hstop⟩
  · refine mergeGradientsAlongProperties_valid hnbv ?_ hgr
    intro pg hpg c hc
    exact ((hgv pg hpg).wf.components c hc).fromBuilder
  · rw [hmm.1.rows_eq]; exact hmm.2
  · rw [e2, ← hstop, e1]
    exact e4

end

variable {build : Build} {hash : HashOrder} {extracted : List String}
    {sort : Bool} {blocks : List (List LabelValue × TensorBlock NdArray)} {b' : TensorBlock NdArray}
    {w : Nat}

theorem fullRanges_ok {A : Type} [ArrayLike A] {blocks : List (List LabelValue × TensorBlock A)}
    {P' : Labels} (hp : ∀ kb ∈ blocks, kb.2.values.properties = P') :
    RangesOk (fun _ p => p) (fun _ => True) P' blocks (fullRanges blocks P'.rows.length) := by
  unfold RangesOk fullRanges
  constructor
  · rw [List.forall₂_iff_get]
    refine ⟨by simp, ?_⟩
    intro i h1 h2 s e h
    simp only [List.get_eq_getElem, List.getElem_replicate, Option.some.injEq, Prod.mk.injEq] at h
    obtain ⟨rfl, rfl⟩ := h
    rw [hp _ (List.get_mem _ _)]
    refine ⟨by simp, Nat.le_refl _, ?_⟩
    intro j p hj
    rw [Nat.zero_add]; exact hj
  · rw [List.forall₂_iff_get]
    refine ⟨by simp, ?_⟩
    intro i h1 h2
    simp

/-- Values of a merge along samples. -/
theorem mergeBlocksAlongSamples_values
    (hg : GroupOk w blocks) (hw : extracted.length = w) (hpos : 0 < w)
    (h : mergeBlocksAlongSamples build hash extracted sort blocks = .ok b') :
    ArrayOk b'.values.data ∧
    ∀ s' cs p x, HasValue b'.values s' cs p x ↔
      ∃ kb ∈ blocks, ∃ s, s' = s ++ kb.1 ∧ HasValue kb.2.values s cs p x := by
  obtain ⟨first, mappings, stop, hm, hs, hstop⟩ := mergeBlocksAlongSamples_merged hg hw hpos h
  obtain ⟨shape, count, zeros, h1, h2, h3, h4⟩ := hs.data
  have hbw := BasicValid.wf hm.valid.values
  rw [hbw.samples.count_eq, Res.ok.injEq] at h2
  subst h2
  have hl := hm.mapping.length_eq
  have hp : ∀ kb ∈ blocks, kb.2.values.properties = b'.values.properties := fun kb hkb => by
    rw [hs.properties]; exact (hs.compatible kb hkb).2
  rw [moveAllSamples_eq, hstop] at h4
  have hz : ((blocks.map fun b => b.2.values.data).zip mappings).zip
      (fullRanges blocks b'.values.properties.rows.length) =
      ((blocks.map fun b => b.2.values.data).zip mappings).map
        fun it => (it, some (0, b'.values.properties.rows.length)) :=
    zip_replicate (by rw [List.length_zip, List.length_map]; omega)
  rw [← hz] at h4
  have hfv := (hg.valid first hm.first_mem).values
  have hfw := BasicValid.wf hfv
  have hsh : ∀ c, (shape.set 0 c).set (shape.length - 1) b'.values.properties.rows.length =
      shape.set 0 c := by
    intro c
    obtain ⟨shape', ht1, ht2⟩ := hfv.shape
    rw [ht1, Res.ok.injEq] at h1
    subst h1
    rw [shapeMatches_eq hfw.samples hfw.components hfw.properties ht2, hs.properties]
    simp
  subst hstop
  obtain ⟨e1, e2⟩ := hm.values hg (fullRanges_ok hp) (Or.inl rfl) h1 (by rw [hsh]; exact h3) h4
  refine ⟨e1, fun s' cs p x => ?_⟩
  rw [e2 s' cs p x]
  simp only [extendSample, if_true]
  constructor
  · rintro (⟨kb, hkb, _, s, p, rfl, rfl, h5⟩ | ⟨_, h6, _, h7, h8⟩)
    · exact ⟨kb, hkb, s, rfl, h5⟩
    · exfalso
      rw [hm.samples.rows_eq, mem_mergedRows] at h6
      obtain ⟨kb, hkb, s, hs', rfl⟩ := h6
      exact h8 kb hkb trivial s hs' p (by rw [hp kb hkb]; exact h7) rfl rfl
  · rintro ⟨kb, hkb, s, rfl, h5⟩
    exact Or.inl ⟨kb, hkb, trivial, s, p, rfl, rfl, h5⟩

/-- Gradients of a merge along samples, when components have the same sizes. -/
theorem mergeBlocksAlongSamples_positions
    (hg : GroupOk w blocks) (hw : extracted.length = w) (hpos : 0 < w)
    (h : mergeBlocksAlongSamples build hash extracted sort blocks = .ok b') {q : String}
    {g' : BasicBlock NdArray} (hq : b'.gradient q = some g')
    (hcomp : build.debug = true ∨ ∀ a ∈ blocks, ∀ c ∈ blocks, ∀ g g₂, a.2.gradient q = some g →
      c.2.gradient q = some g₂ →
        (g.components.map fun c => c.rows.length) = g₂.components.map fun c => c.rows.length) :
    ArrayOk g'.data ∧
    ∀ r' cs p x, HasValue g' r' cs p x ↔
      ∃ kb ∈ blocks, ∃ g, kb.2.gradient q = some g ∧ ∃ r,
        SampleRenumbered kb.2.values.samples b'.values.samples (· ++ kb.1) r r' ∧
        HasValue (withComponents g'.components g) r cs p x := by
  obtain ⟨first, mappings, stop, hm, hs, hstop⟩ := mergeBlocksAlongSamples_merged hg hw hpos h
  have hp : ∀ kb ∈ blocks, kb.2.values.properties = b'.values.properties := fun kb hkb => by
    rw [hs.properties]; exact (hs.compatible kb hkb).2
  subst hstop
  obtain ⟨fg, _, hl⟩ := hm.gradient_labels hg hq
  obtain ⟨e1, e2⟩ := hm.gradient_values hg (fullRanges_ok hp) (Or.inl rfl) hq hcomp
  refine ⟨e1, fun r' cs p x => ?_⟩
  rw [e2 r' cs p x]
  have hext : ∀ key : List LabelValue, extendSample true key = (· ++ key) := fun key => by
    funext s; simp [extendSample]
  simp only [hext]
  constructor
  · rintro (⟨kb, hkb, _, g, h1, r, p, h2, rfl, h3⟩ | ⟨_, h6, _, h7, h8⟩)
    · exact ⟨kb, hkb, g, h1, r, h2, h3⟩
    · exfalso
      rw [hl.rows] at h6
      obtain ⟨kb, hkb, g, h1, r, hr, h2⟩ := h6
      refine h8 kb hkb trivial g h1 r hr p ?_ ?_ rfl
      · rw [((hg.valid kb hkb).gradient_valid h1).properties, hp kb hkb]; exact h7
      · rwa [hext] at h2
  · rintro ⟨kb, hkb, g, h1, r, h2, h3⟩
    exact Or.inl ⟨kb, hkb, trivial, g, h1, r, p, h2, rfl, h3⟩

/-- The components of the gradients of a merge along samples. -/
theorem mergeBlocksAlongSamples_gradient_components
    (hg : GroupOk w blocks) (hw : extracted.length = w) (hpos : 0 < w)
    (h : mergeBlocksAlongSamples build hash extracted sort blocks = .ok b') {q : String}
    {g' : BasicBlock NdArray} (hq : b'.gradient q = some g') :
    (∃ first ∈ blocks.head?, ∃ g, first.2.gradient q = some g ∧ g'.components = g.components) ∧
    (build.debug = true → ∀ kb ∈ blocks, ∀ g, kb.2.gradient q = some g → g.components = g'.components) := by
  obtain ⟨first, mappings, stop, hm, hs, hstop⟩ := mergeBlocksAlongSamples_merged hg hw hpos h
  have hp : ∀ kb ∈ blocks, kb.2.values.properties = b'.values.properties := fun kb hkb => by
    rw [hs.properties]; exact (hs.compatible kb hkb).2
  subst hstop
  obtain ⟨fg, h1, h2⟩ := hm.gradient_some hg hq
  exact ⟨⟨first, hm.head, fg, h1, h2.components⟩, fun hd kb hkb g hg' =>
    hm.gradient_debug hg (fullRanges_ok hp) hq hd kb hkb trivial g hg'⟩

/-- Gradients of a merge along samples. -/
theorem mergeBlocksAlongSamples_gradients
    (hg : GroupOk w blocks) (hw : extracted.length = w) (hpos : 0 < w)
    (h : mergeBlocksAlongSamples build hash extracted sort blocks = .ok b') {q : String}
    {g' : BasicBlock NdArray} (hq : b'.gradient q = some g')
    (hcomp : build.debug = true ∨ ∀ a ∈ blocks, ∀ c ∈ blocks, ∀ g g₂, a.2.gradient q = some g →
      c.2.gradient q = some g₂ → g.components = g₂.components) :
    ArrayOk g'.data ∧
    ∀ r' cs p x, HasValue g' r' cs p x ↔
      ∃ kb ∈ blocks, ∃ g, kb.2.gradient q = some g ∧ ∃ r,
        SampleRenumbered kb.2.values.samples b'.values.samples (· ++ kb.1) r r' ∧
        HasValue g r cs p x := by
  obtain ⟨⟨first, hf, fg, h1, h2⟩, h3⟩ := mergeBlocksAlongSamples_gradient_components hg hw hpos h hq
  obtain ⟨e1, e2⟩ := mergeBlocksAlongSamples_positions hg hw hpos h hq
    (hcomp.imp_right fun hc a ha c hc' g g₂ h4 h5 => by rw [hc a ha c hc' g g₂ h4 h5])
  refine ⟨e1, fun r' cs p x => (e2 r' cs p x).trans ?_⟩
  have hsame : ∀ kb ∈ blocks, ∀ g, kb.2.gradient q = some g → withComponents g'.components g = g := by
    intro kb hkb g h4
    rcases hcomp with hd | hc
    · rw [← h3 hd kb hkb g h4]; rfl
    · rw [h2, ← hc kb hkb first (List.mem_of_mem_head? hf) g fg h4 h1]; rfl
  constructor
  · rintro ⟨kb, hkb, g, h4, r, h5, h6⟩
    rw [hsame kb hkb g h4] at h6
    exact ⟨kb, hkb, g, h4, r, h5, h6⟩
  · rintro ⟨kb, hkb, g, h4, r, h5, h6⟩
    refine ⟨kb, hkb, g, h4, r, h5, ?_⟩
    rw [hsame kb hkb g h4]; exact h6

end Equistore
