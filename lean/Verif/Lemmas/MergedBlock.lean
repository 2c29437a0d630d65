import Verif.Lemmas.MergeSpec

/-! What both merging functions have in common. -/

namespace Equistore
open Spec NdArray

section
variable {A : Type} [ArrayLike A]

/-- A block obtained by merging other blocks. -/
structure MergedBlock (build : Build) (hash : HashOrder) (sort addKey : Bool) (names : List String)
    (first : List LabelValue × TensorBlock A) (blocks : List (List LabelValue × TensorBlock A))
    (mappings : List (List SampleMapping)) (ranges : List (Option (Nat × Nat)))
    (b' : TensorBlock A) : Prop where
  head : blocks.head? = some first
  valid : BlockValid b'
  samples : b'.values.samples.Holds names (mergedRows sort addKey blocks)
  mapping : List.Forall₂ (fun kb mapping => MapsTo (Extends addKey kb.1) kb.2.values.samples.rows
        b'.values.samples.rows mapping) blocks mappings
  components : b'.values.components = first.2.values.components
  all_components : ∀ kb ∈ blocks, kb.2.values.components = first.2.values.components
  gradients : List.Forall₂ (fun pg pg' => pg'.1 = pg.1 ∧ GradientMerged build first.2 blocks mappings
        ranges b'.values.properties.rows.length pg.1 pg.2 b'.values.properties pg'.2)
        (hash.order first.2.gradients) b'.gradients

theorem mergeGradientsAlongProperties_valid {build : Build} {firstBlock : TensorBlock A}
    {blocks : List (List LabelValue × TensorBlock A)} {mappings : List (List SampleMapping)}
    {ranges : List (Option (Nat × Nat))} {propertiesCount : Nat} {newBlock b' : TensorBlock A}
    {gs : List (String × BasicBlock A)} (hv : BlockValid newBlock)
    (hgs : ∀ pg ∈ gs, ∀ c ∈ pg.2.components, c.FromBuilder)
    (h : mergeGradientsAlongProperties build firstBlock blocks mappings ranges propertiesCount
      newBlock gs = .ok b') : BlockValid b' := by
  induction gs generalizing newBlock with
  | nil =>
    simp only [mergeGradientsAlongProperties, Res.ok.injEq] at h
    rw [← h]; exact hv
  | cons pg gs ih =>
    obtain ⟨p, g⟩ := pg
    simp only [mergeGradientsAlongProperties, Res.bind_eq_ok] at h
    obtain ⟨newSamples, h1, shape, h2, _, h3, count, h4, zeros, h5, data, h6, nb, h7, h8⟩ := h
    obtain ⟨h9, h10, rfl⟩ := addGradientExpect_eq_ok.1 h7
    refine ih (hv.addGradient ?_ h9) (fun pg hpg => hgs pg (List.mem_cons_of_mem _ hpg)) h8
    intro l hl
    rcases List.mem_cons.1 hl with rfl | hl
    · simp only [mergeGradientSamples, Res.bind_eq_ok] at h1
      obtain ⟨_, _, _, _, _, _, h1⟩ := h1
      exact ⟨_, _, h1⟩
    · exact hgs _ List.mem_cons_self l hl

variable {build : Build} {hash : HashOrder} {sort addKey : Bool} {names : List String}
    {first : List LabelValue × TensorBlock A} {blocks : List (List LabelValue × TensorBlock A)}
    {mappings : List (List SampleMapping)} {ranges : List (Option (Nat × Nat))}
    {b' : TensorBlock A} {w : Nat}

theorem MergedBlock.first_mem (h : MergedBlock build hash sort addKey names first blocks mappings ranges b') :
    first ∈ blocks := List.mem_of_mem_head? h.head

theorem MergedBlock.names_eq
    (h : MergedBlock build hash sort addKey names first blocks mappings ranges b') :
    b'.gradients.map Prod.fst = (hash.order first.2.gradients).map Prod.fst := by
  have := h.gradients
  generalize hash.order first.2.gradients = l at this
  generalize b'.gradients = l' at this
  induction this with
  | nil => rfl
  | cons h1 _ ih => rw [List.map_cons, List.map_cons, h1.1, ih]

/-- The merged block has the same gradients. -/
theorem MergedBlock.gradient_isSome
    (h : MergedBlock build hash sort addKey names first blocks mappings ranges b') (q : String) :
    (b'.gradient q).isSome = (first.2.gradient q).isSome := by
  rw [Bool.eq_iff_iff, Equistore.gradient_isSome, Equistore.gradient_isSome, h.names_eq]
  exact ((hash.perm first.2.gradients).map Prod.fst).mem_iff

theorem MergedBlock.gradient_some (hg : GroupOk w blocks)
    (h : MergedBlock build hash sort addKey names first blocks mappings ranges b') {q : String}
    {g' : BasicBlock A} (hq : b'.gradient q = some g') :
    ∃ fg, first.2.gradient q = some fg ∧ GradientMerged build first.2 blocks mappings
        ranges b'.values.properties.rows.length q fg b'.values.properties g' := by
  rw [gradient_eq_some h.valid.names] at hq
  obtain ⟨i, hi, hi'⟩ := List.getElem_of_mem hq
  have hi2 : i < (hash.order first.2.gradients).length := by rw [h.gradients.length_eq]; exact hi
  obtain ⟨h1, h2⟩ := (List.forall₂_iff_get.1 h.gradients).2 i hi2 hi
  simp only [List.get_eq_getElem, hi'] at h1 h2
  subst h1
  refine ⟨(hash.order first.2.gradients)[i].2, ?_, h2⟩
  rw [gradient_eq_some (hg.valid _ h.first_mem).names]
  exact (hash.perm first.2.gradients).mem_iff.1 (List.getElem_mem hi2)

theorem MergedBlock.gradient_labels (hg : GroupOk w blocks)
    (h : MergedBlock build hash sort addKey names first blocks mappings ranges b') {q : String}
    {g' : BasicBlock A} (hq : b'.gradient q = some g') :
    ∃ fg, first.2.gradient q = some fg ∧
      GradientLabels addKey q fg blocks b'.values.samples b'.values.properties g' := by
  obtain ⟨fg, h1, h2⟩ := h.gradient_some hg hq
  exact ⟨fg, h1, gradientMerged_labels hg h.samples.wf h.mapping h.head h1 h2⟩

end

/-- The description of the values of a merged block. -/
def MergedValues (addKey : Bool) (rename : List LabelValue → List LabelValue → List LabelValue)
    (listed : List LabelValue → Prop) (blocks : List (List LabelValue × TensorBlock NdArray))
    (v : BasicBlock NdArray) : Prop :=
  ∀ s' cs p' x, HasValue v s' cs p' x ↔
    ((∃ kb ∈ blocks, listed kb.1 ∧ ∃ s p, extendSample addKey kb.1 s = s' ∧ rename kb.1 p = p' ∧
      HasValue kb.2.values s cs p x) ∨
    (x = 0 ∧ s' ∈ v.samples.rows ∧ HasEntries v.components cs ∧ p' ∈ v.properties.rows ∧
      ∀ kb ∈ blocks, listed kb.1 → ∀ s ∈ kb.2.values.samples.rows,
        ∀ p ∈ kb.2.values.properties.rows, extendSample addKey kb.1 s = s' → rename kb.1 p ≠ p'))

variable {build : Build} {hash : HashOrder} {sort addKey : Bool} {names : List String}
    {first : List LabelValue × TensorBlock NdArray}
    {blocks : List (List LabelValue × TensorBlock NdArray)}
    {mappings : List (List SampleMapping)} {ranges : List (Option (Nat × Nat))}
    {b' : TensorBlock NdArray} {w : Nat}
    {rename : List LabelValue → List LabelValue → List LabelValue} {listed : List LabelValue → Prop}

/-- Ranges of properties in which blocks are copied. -/
def RangesOk {A : Type} (rename : List LabelValue → List LabelValue → List LabelValue)
    (listed : List LabelValue → Prop) (P' : Labels)
    (blocks : List (List LabelValue × TensorBlock A)) (ranges : List (Option (Nat × Nat))) :
    Prop :=
  List.Forall₂ (fun kb (range : Option (Nat × Nat)) => ∀ s e, range = some (s, e) →
        e = s + kb.2.values.properties.rows.length ∧ e ≤ P'.rows.length ∧
        ∀ (j : Nat) p, kb.2.values.properties.rows[j]? = some p →
          P'.rows[s + j]? = some (rename kb.1 p)) blocks ranges ∧
  List.Forall₂ (fun kb (range : Option (Nat × Nat)) => range ≠ none ↔ listed kb.1) blocks ranges

theorem zip_map_left' {α β γ : Type} (f : α → γ) (l : List α) (r : List β) :
    (l.map f).zip r = (l.zip r).map fun p => (f p.1, p.2) := by
  induction l generalizing r with
  | nil => rfl
  | cons a l ih =>
    cases r with
    | nil => rfl
    | cons b r => simp [ih]

theorem MergedBlock.values (hg : GroupOk w blocks)
    (h : MergedBlock build hash sort addKey names first blocks mappings ranges b')
    (hr : RangesOk rename listed b'.values.properties blocks ranges)
    (hap : addKey = true ∨ ∀ a b : List LabelValue, a.length = w → b.length = w → a ≠ b →
      ∀ p p', rename a p ≠ rename b p')
    {shape : List Nat} {zeros : NdArray}
    (hs : ArrayLike.shape first.2.values.data = .ok shape)
    (hz : ArrayLike.create first.2.values.data ((shape.set 0 b'.values.samples.rows.length).set
      (shape.length - 1) b'.values.properties.rows.length) = .ok zeros)
    (hmove : moveAllProperties zeros (((blocks.map fun b => b.2.values.data).zip mappings).zip ranges)
      = .ok b'.values.data) :
    b'.values.data.WF ∧ MergedValues addKey rename listed blocks b'.values := by
  have hI : ItemsOk addKey rename b'.values.samples.rows b'.values.properties w
    ((blocks.zip mappings).zip ranges) := hg.items h.mapping hr.1 hap
  have hl1 := h.mapping.length_eq
  have hl2 := hr.1.length_eq
  have hfv := (hg.valid first h.first_mem).values
  have hfw := BasicValid.wf hfv
  have hbw := BasicValid.wf h.valid.values
  obtain ⟨shape', ht1, ht2⟩ := hfv.shape
  rw [ht1, Res.ok.injEq] at hs
  subst hs
  have ht3 := shapeMatches_eq hfw.samples hfw.components hfw.properties ht2
  have hshape : (shape'.set 0 b'.values.samples.rows.length).set (shape'.length - 1)
      b'.values.properties.rows.length =
      b'.values.samples.rows.length :: (b'.values.components.map fun c => c.rows.length) ++
        [b'.values.properties.rows.length] := by
    rw [ht3, h.components]
    simp
  rw [hshape] at hz
  have hz' : zeros = NdArray.create first.2.values.data (b'.values.samples.rows.length ::
      (b'.values.components.map fun c => c.rows.length) ++ [b'.values.properties.rows.length]) := by
    simp only [ArrayLike.create, Res.ok.injEq] at hz
    exact hz.symm
  have hmem : ∀ it ∈ (blocks.zip mappings).zip ranges, it.1.1 ∈ blocks := by
    intro it hit
    have h1 := (List.of_mem_zip (a := it.1) (b := it.2) hit).1
    exact (List.of_mem_zip (a := it.1.1) (b := it.1.2) h1).1
  obtain ⟨out, e1, e2, e3, e4⟩ := values_merged hI hbw.samples hbw.components hbw.properties
    (C := b'.values.components) (by
      intro it hit
      rw [h.all_components _ (hmem it hit), h.components]) hz'
  have e5 : ((blocks.zip mappings).zip ranges).map
      (fun it => ((it.1.1.2.values.data, it.1.2), it.2)) =
      ((blocks.map fun b => b.2.values.data).zip mappings).zip ranges := by
    rw [zip_map_left', zip_map_left']
  rw [e5, hmove, Res.ok.injEq] at e1
  subst e1
  refine ⟨e2, ?_⟩
  have hxx : ∀ kb ∈ blocks, ∃ m rng, ((kb, m), rng) ∈ (blocks.zip mappings).zip ranges := by
    intro kb hkb
    obtain ⟨m, hm'⟩ := zip_mem_of hl1 hkb
    obtain ⟨rng, hr'⟩ := zip_mem_of (r := ranges) (l := blocks.zip mappings)
      (by rw [List.length_zip]; omega) hm'
    exact ⟨m, rng, hr'⟩
  have hls : ∀ it ∈ (blocks.zip mappings).zip ranges, it.2 ≠ none ↔ listed it.1.1.1 := by
    intro it hit
    obtain ⟨i, hi, rfl⟩ := List.getElem_of_mem hit
    rw [List.length_zip, List.length_zip] at hi
    have := (List.forall₂_iff_get.1 hr.2).2 i (by omega) (by omega)
    simp only [List.getElem_zip]
    exact this
  intro s' cs p' x
  rw [show b'.values = ⟨b'.values.data, b'.values.samples, b'.values.components, b'.values.properties⟩
    from rfl, e4 s' cs p' x]
  constructor
  · rintro (⟨it, hit, h1, s, p, h2, h3, h4⟩ | ⟨h1, h2, h3, h4, h5⟩)
    · exact Or.inl ⟨it.1.1, hmem it hit, (hls it hit).1 h1, s, p, h2.symm, h3, h4⟩
    · refine Or.inr ⟨h1, h2, h3, h4, ?_⟩
      intro kb hkb hl s hs p hp h6 h7
      obtain ⟨m, rng, hit⟩ := hxx kb hkb
      exact h5 _ hit ((hls _ hit).2 hl) s hs p hp h6.symm h7
  · rintro (⟨kb, hkb, hl, s, p, h2, h3, h4⟩ | ⟨h1, h2, h3, h4, h5⟩)
    · obtain ⟨m, rng, hit⟩ := hxx kb hkb
      exact Or.inl ⟨_, hit, (hls _ hit).2 hl, s, p, h2.symm, h3, h4⟩
    · refine Or.inr ⟨h1, h2, h3, h4, ?_⟩
      intro it hit hne s hs p hp h6 h7
      exact h5 _ (hmem it hit) ((hls it hit).1 hne) s hs p hp h6.symm h7

theorem MergedBlock.gradient_values (hg : GroupOk w blocks)
    (h : MergedBlock build hash sort addKey names first blocks mappings ranges b')
    (hr : RangesOk rename listed b'.values.properties blocks ranges)
    (hap : addKey = true ∨ ∀ a b : List LabelValue, a.length = w → b.length = w → a ≠ b →
      ∀ p p', rename a p ≠ rename b p') {q : String} {g' : BasicBlock NdArray}
    (hq : b'.gradient q = some g')
    (hcomp : build.debug = true ∨ ∀ a ∈ blocks, ∀ c ∈ blocks, ∀ g g₂, a.2.gradient q = some g →
      c.2.gradient q = some g₂ →
        (g.components.map fun c => c.rows.length) = g₂.components.map fun c => c.rows.length) :
    g'.data.WF ∧
    GradientValues addKey rename listed q blocks b'.values.samples b'.values.properties g' := by
  obtain ⟨fg, h1, h2⟩ := h.gradient_some hg hq
  exact gradientMerged_values hg h.samples.wf (BasicValid.wf h.valid.values).properties h.mapping
    hr.1 hr.2 hap h.head h1 h2 (hcomp.imp_right fun hc kb hkb g hg' =>
      hc kb hkb first h.first_mem g fg hg' h1)

/-- In debug builds, the gradients which are copied have the components of the merged gradient. -/
theorem MergedBlock.gradient_debug (hg : GroupOk w blocks)
    (h : MergedBlock build hash sort addKey names first blocks mappings ranges b')
    (hr : RangesOk rename listed b'.values.properties blocks ranges) {q : String} {g' : BasicBlock NdArray}
    (hq : b'.gradient q = some g') (hd : build.debug = true) :
    ∀ kb ∈ blocks, listed kb.1 → ∀ g, kb.2.gradient q = some g → g.components = g'.components := by
  obtain ⟨fg, h1, h2⟩ := h.gradient_some hg hq
  obtain ⟨shape, count, zeros, hs1, hs2, hs3, hs4⟩ := h2.data
  intro kb hkb hl g h3
  have hl1 := h.mapping.length_eq
  have hl2 := hr.1.length_eq
  obtain ⟨i, hi, rfl⟩ := List.getElem_of_mem hkb
  have hi' : i < ((blocks.zip mappings).zip ranges).length := by
    rw [List.length_zip, List.length_zip]; omega
  have hne := ((List.forall₂_iff_get.1 hr.2).2 i hi (by omega)).2 hl
  obtain ⟨g₁, h4, h5⟩ := (moveAllGradientProperties_ok hs4).2 _ (List.getElem_mem hi') (by
    simp only [List.getElem_zip]; exact hne)
  simp only [List.getElem_zip] at h4
  rw [h3, Option.some.injEq] at h4
  rw [h2.components, h4, h5 hd]

end Equistore
