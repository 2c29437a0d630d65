import Verif.Lemmas.MergeSamples

/-! The content of merged gradients, in the vocabulary of the specification. -/

namespace Equistore
open Spec NdArray

section
variable {A : Type} [ArrayLike A]

theorem renumbered_iff {addKey : Bool} {key : List LabelValue} {old new : Labels} (ho : old.WF)
    (hn : new.WF) {m : List SampleMapping} (hm : MapsTo (Extends addKey key) old.rows new.rows m)
    {r r' r'' : List LabelValue} (hr : Translates m r r'') :
    Translates m r r' ↔ SampleRenumbered old new (extendSample addKey key) r r' := by
  have key : ∀ a, Translates m r a → SampleRenumbered old new (extendSample addKey key) r a := by
    rintro a ⟨v, rest, i, x, rfl, h1, h2, h3, rfl⟩
    obtain ⟨h4, s, s', h5, h6, h7⟩ := hm.mem (List.mem_of_getElem? h2)
    rw [hm.input i x h2] at h5
    refine ⟨v, _, rest, s, i, x.output, rfl, rfl, h1, toInt_ofNat h3, (entryAt_iff ho).2 h5, ?_⟩
    rw [entryAt_iff hn, h6, h7]
  refine ⟨key r', ?_⟩
  rintro ⟨v, v', rest, s, i, i', rfl, rfl, h1, h2, h3, h4⟩
  obtain ⟨w, w', rest', t, j, j', h5, rfl, h1', h2', h3', h4'⟩ := key r'' hr
  rw [List.cons.injEq] at h5
  obtain ⟨rfl, rfl⟩ := h5
  have : i = j := by omega
  subst this
  rw [entryAt_iff ho] at h3 h3'
  rw [h3, Option.some.injEq] at h3'
  subst h3'
  rw [entryAt_iff hn] at h4 h4'
  have := getElem?_nodup_inj (Labels.Holds.nodup hn) h4 h4'
  subst this
  have : v' = w' := by rw [← Int32.toInt_inj]; omega
  rw [this]
  exact hr

theorem zip_mem_of {α β : Type} {l : List α} {r : List β} (h : l.length = r.length) {a : α}
    (ha : a ∈ l) : ∃ b, (a, b) ∈ l.zip r := by
  obtain ⟨i, hi, rfl⟩ := List.getElem_of_mem ha
  have hi' : i < r.length := by omega
  refine ⟨r[i], ?_⟩
  rw [← List.getElem_zip (i := i) (h := by rw [List.length_zip]; omega)]
  exact List.getElem_mem _

/-- Labels of a merged gradient. -/
structure GradientLabels (addKey : Bool) (q : String) (fg : BasicBlock A)
    (blocks : List (List LabelValue × TensorBlock A)) (S P' : Labels)
    (g' : BasicBlock A) : Prop where
  samples : g'.samples.WF
  names : g'.samples.names = fg.samples.names
  sorted : g'.samples.rows.Pairwise (· < ·)
  components : g'.components = fg.components
  properties : g'.properties = P'
  all : ∀ kb ∈ blocks, ∃ g, kb.2.gradient q = some g ∧
    ∀ r ∈ g.samples.rows, ∃ r', SampleRenumbered kb.2.values.samples S (extendSample addKey kb.1) r r'
  rows : ∀ r', r' ∈ g'.samples.rows ↔ ∃ kb ∈ blocks, ∃ g, kb.2.gradient q = some g ∧
    ∃ r ∈ g.samples.rows, SampleRenumbered kb.2.values.samples S (extendSample addKey kb.1) r r'

/-- What is known on the merged gradient samples. -/
theorem gradientMerged_samples {w : Nat} {blocks : List (List LabelValue × TensorBlock A)}
    (hg : GroupOk w blocks) {addKey : Bool} {S P' : Labels} (hS : S.WF)
    {mappings : List (List SampleMapping)} {ranges : List (Option (Nat × Nat))} {n : Nat}
    (hm : List.Forall₂ (fun kb mapping => MapsTo (Extends addKey kb.1) kb.2.values.samples.rows
        S.rows mapping) blocks mappings)
    {first : List LabelValue × TensorBlock A} (hf : blocks.head? = some first)
    {build : Build} {q : String} {fg g' : BasicBlock A} (hfg : first.2.gradient q = some fg)
    (hgm : GradientMerged build first.2 blocks mappings ranges n q fg P' g') :
    MergedGradientSamples q (blocks.zip mappings) fg.samples.names g'.samples ∧
    ∀ it ∈ blocks.zip mappings, ∀ g, it.1.2.gradient q = some g → ∀ r ∈ g.samples.rows,
      ∀ r', Translates it.2 r r' ↔
        SampleRenumbered it.1.2.values.samples S (extendSample addKey it.1.1) r r' := by
  have hl1 := hm.length_eq
  have hmem : ∀ kb m, (kb, m) ∈ blocks.zip mappings → kb ∈ blocks := fun kb m h => (List.of_mem_zip h).1
  obtain ⟨it0, g0, h1, h2, hms⟩ := mergeGradientSamples_ok
    (fun it hit g hg' => ((hg.valid _ (hmem it.1 it.2 hit)).gradient_valid hg').wf.samples)
    (fun it hit => (forall₂_zip hm it hit).input) hgm.samples
  have hit0 : it0.1 = first := by
    cases blocks with
    | nil => simp at hf
    | cons kb blocks =>
      cases mappings with
      | nil => simp at hl1
      | cons m mappings =>
        simp only [List.zip_cons_cons, List.head?_cons, Option.some.injEq] at h1 hf
        rw [← h1, ← hf]
  rw [hit0, hfg, Option.some.injEq] at h2
  subst h2
  refine ⟨hms, ?_⟩
  intro it hit g hgr r hr' r'
  obtain ⟨g2, h3, h4⟩ := hms.every it hit
  rw [hgr, Option.some.injEq] at h3
  subst h3
  obtain ⟨r'', _, h5⟩ := h4 r hr'
  exact renumbered_iff (BasicValid.wf (hg.valid _ (hmem it.1 it.2 hit)).values).samples hS
    (forall₂_zip hm it hit) h5

theorem gradientMerged_labels {w : Nat} {blocks : List (List LabelValue × TensorBlock A)}
    (hg : GroupOk w blocks) {addKey : Bool} {S P' : Labels} (hS : S.WF)
    {mappings : List (List SampleMapping)} {ranges : List (Option (Nat × Nat))} {n : Nat}
    (hm : List.Forall₂ (fun kb mapping => MapsTo (Extends addKey kb.1) kb.2.values.samples.rows
        S.rows mapping) blocks mappings)
    {first : List LabelValue × TensorBlock A} (hf : blocks.head? = some first)
    {build : Build} {q : String} {fg g' : BasicBlock A} (hfg : first.2.gradient q = some fg)
    (hgm : GradientMerged build first.2 blocks mappings ranges n q fg P' g') :
    GradientLabels addKey q fg blocks S P' g' := by
  obtain ⟨hms, hren⟩ := gradientMerged_samples hg hS hm hf hfg hgm
  have hl1 := hm.length_eq
  have hmem : ∀ kb m, (kb, m) ∈ blocks.zip mappings → kb ∈ blocks := fun kb m h => (List.of_mem_zip h).1
  refine ⟨hms.holds.wf, hms.holds.names_eq, hms.sorted, hgm.components, hgm.properties_eq, ?_, ?_⟩
  · intro kb hkb
    obtain ⟨m, hm'⟩ := zip_mem_of hl1 hkb
    obtain ⟨g, h3, h4⟩ := hms.every _ hm'
    refine ⟨g, h3, fun r hr' => ?_⟩
    obtain ⟨r', _, h5⟩ := h4 r hr'
    exact ⟨r', (hren _ hm' g h3 r hr' r').1 h5⟩
  · intro r'
    constructor
    · intro h
      obtain ⟨it, hit, g, h3, r, hr', h4⟩ := hms.only r' h
      exact ⟨it.1, hmem it.1 it.2 hit, g, h3, r, hr', (hren it hit g h3 r hr' r').1 h4⟩
    · rintro ⟨kb, hkb, g, h3, r, hr', h4⟩
      obtain ⟨m, hm'⟩ := zip_mem_of hl1 hkb
      obtain ⟨g2, h5, h6⟩ := hms.every _ hm'
      rw [h3, Option.some.injEq] at h5
      subst h5
      obtain ⟨r'', h7, h8⟩ := h6 r hr'
      have h9 := (hren _ hm' g h3 r hr' r').2 h4
      rw [translates_functional h9 h8]
      exact h7

end

/-- Values of a merged gradient. -/
def GradientValues (addKey : Bool) (rename : List LabelValue → List LabelValue → List LabelValue)
    (listed : List LabelValue → Prop) (q : String)
    (blocks : List (List LabelValue × TensorBlock NdArray)) (S P' : Labels)
    (g' : BasicBlock NdArray) : Prop :=
    ∀ r' cs p' x, HasValue g' r' cs p' x ↔
      ((∃ kb ∈ blocks, listed kb.1 ∧ ∃ g, kb.2.gradient q = some g ∧
        ∃ r p, SampleRenumbered kb.2.values.samples S (extendSample addKey kb.1) r r' ∧
          rename kb.1 p = p' ∧ HasValue (withComponents g'.components g) r cs p x) ∨
      (x = 0 ∧ r' ∈ g'.samples.rows ∧ HasEntries g'.components cs ∧ p' ∈ P'.rows ∧
        ∀ kb ∈ blocks, listed kb.1 → ∀ g, kb.2.gradient q = some g →
          ∀ r ∈ g.samples.rows, ∀ p ∈ g.properties.rows,
            SampleRenumbered kb.2.values.samples S (extendSample addKey kb.1) r r' →
              rename kb.1 p ≠ p'))

theorem gradientMerged_values {w : Nat} {blocks : List (List LabelValue × TensorBlock NdArray)}
    (hg : GroupOk w blocks) {addKey : Bool}
    {rename : List LabelValue → List LabelValue → List LabelValue} {listed : List LabelValue → Prop}
    {S P' : Labels} (hS : S.WF) (hP : P'.WF) {mappings : List (List SampleMapping)}
    {ranges : List (Option (Nat × Nat))}
    (hm : List.Forall₂ (fun kb mapping => MapsTo (Extends addKey kb.1) kb.2.values.samples.rows
        S.rows mapping) blocks mappings)
    (hr : List.Forall₂ (fun kb (range : Option (Nat × Nat)) => ∀ s e, range = some (s, e) →
        e = s + kb.2.values.properties.rows.length ∧ e ≤ P'.rows.length ∧
        ∀ (j : Nat) p, kb.2.values.properties.rows[j]? = some p →
          P'.rows[s + j]? = some (rename kb.1 p)) blocks ranges)
    (hlist : List.Forall₂ (fun kb (range : Option (Nat × Nat)) => range ≠ none ↔ listed kb.1)
      blocks ranges)
    (hap : addKey = true ∨ ∀ a b : List LabelValue, a.length = w → b.length = w → a ≠ b →
      ∀ p p', rename a p ≠ rename b p')
    {first : List LabelValue × TensorBlock NdArray} (hf : blocks.head? = some first)
    {build : Build} {q : String} {fg g' : BasicBlock NdArray} (hfg : first.2.gradient q = some fg)
    (hgm : GradientMerged build first.2 blocks mappings ranges P'.rows.length q fg P' g')
    (hcomp : build.debug = true ∨ ∀ kb ∈ blocks, ∀ g, kb.2.gradient q = some g →
      (g.components.map fun c => c.rows.length) = fg.components.map fun c => c.rows.length) :
    g'.data.WF ∧ GradientValues addKey rename listed q blocks S P' g' := by
  obtain ⟨hms, hren⟩ := gradientMerged_samples hg hS hm hf hfg hgm
  have hI : ItemsOk addKey rename S.rows P' w ((blocks.zip mappings).zip ranges) := hg.items hm hr hap
  have hl1 := hm.length_eq
  have hl2 := hr.length_eq
  have hfst : ((blocks.zip mappings).zip ranges).map Prod.fst = blocks.zip mappings :=
    map_fst_zip' (by rw [List.length_zip]; omega)
  have hmem : ∀ kb m, (kb, m) ∈ blocks.zip mappings → kb ∈ blocks := fun kb m h => (List.of_mem_zip h).1
  have hfirst : first ∈ blocks := List.mem_of_mem_head? hf
  have hC : ∀ c ∈ fg.components, c.WF :=
    ((hg.valid first hfirst).gradient_valid hfg).wf.components
  have hwf : g'.samples.WF := hms.holds.wf
  obtain ⟨shape, count, zeros, hs1, hs2, hs3, hs4⟩ := hgm.data
  rw [hwf.count_eq, Res.ok.injEq] at hs2
  subst hs2
  -- shape of the new array
  have hfv := (hg.valid first hfirst).gradient_valid hfg
  obtain ⟨shape', ht1, ht2⟩ := hfv.basic.shape
  rw [ht1, Res.ok.injEq] at hs1
  subst hs1
  have ht3 := shapeMatches_eq hfv.wf.samples hfv.wf.components hfv.wf.properties ht2
  have hshape : (shape'.set 0 g'.samples.rows.length).set (shape'.length - 1) P'.rows.length =
      g'.samples.rows.length :: (fg.components.map fun c => c.rows.length) ++ [P'.rows.length] := by
    rw [ht3]
    simp
  rw [hshape] at hs3
  have hz : zeros = NdArray.create first.2.values.data (g'.samples.rows.length ::
      (fg.components.map fun c => c.rows.length) ++ [P'.rows.length]) := by
    simp only [ArrayLike.create, Res.ok.injEq] at hs3
    exact hs3.symm
  have hvals := gradient_merged (build := build) hI hP hC (by rw [hfst]; exact hms) hz hs4
  -- the block is the same as the one with the array in the theorem
  have hg'eq : g' = ⟨g'.data, g'.samples, fg.components, P'⟩ := by
    rw [← hgm.components, ← hgm.properties_eq]
  have hxx : ∀ kb ∈ blocks, ∃ m rng, ((kb, m), rng) ∈ (blocks.zip mappings).zip ranges := by
    intro kb hkb
    obtain ⟨m, hm'⟩ := zip_mem_of hl1 hkb
    obtain ⟨rng, hr'⟩ := zip_mem_of (r := ranges) (l := blocks.zip mappings)
      (by rw [List.length_zip]; omega) hm'
    exact ⟨m, rng, hr'⟩
  have hls : ∀ it ∈ (blocks.zip mappings).zip ranges, it.2 ≠ none ↔ listed it.1.1.1 := by
    intro it hit
    obtain ⟨i, hi, rfl⟩ := List.getElem_of_mem hit
    rw [List.length_zip, List.length_zip] at hi
    have := (List.forall₂_iff_get.1 hlist).2 i (by omega) (by omega)
    simp only [List.getElem_zip]
    exact this
  obtain ⟨hdw, _, hv⟩ := hvals (hcomp.imp_right fun hc it hit g hg' =>
    hc it.1.1 ((hmem it.1.1 it.1.2) (List.of_mem_zip (a := it.1) (b := it.2) hit).1) g hg')
  refine ⟨hdw, fun r' cs p' x => ?_⟩
  rw [hg'eq, hv r' cs p' x]
  simp only
  constructor
  · rintro (⟨it, hit, h3, g, h4, r, p, h5, h6, h7⟩ | ⟨h3, h4, h5, h6, h7⟩)
    · left
      have hit' := (List.of_mem_zip (a := it.1) (b := it.2) hit).1
      refine ⟨it.1.1, hmem it.1.1 it.1.2 hit', (hls it hit).1 h3, g, h4, r, p, ?_, h6, h7⟩
      have hgw := ((hg.valid _ (hmem it.1.1 it.1.2 hit')).gradient_valid h4).wf
      obtain ⟨i, k, j, h8, _⟩ := (hasValue_iff
        (b := withComponents fg.components g) ⟨hgw.samples, hC, hgw.properties⟩).1 h7
      exact (hren it.1 hit' g h4 r (List.mem_of_getElem? h8) r').1 h5
    · right
      refine ⟨h3, h4, h5, h6, ?_⟩
      intro kb hkb hl g h8 r hr' p hp h9
      obtain ⟨m, rng, hit⟩ := hxx kb hkb
      have hit' := (List.of_mem_zip hit).1
      exact h7 _ hit ((hls _ hit).2 hl) g h8 r hr' p hp ((hren _ hit' g h8 r hr' r').2 h9)
  · rintro (⟨kb, hkb, hl, g, h4, r, p, h5, h6, h7⟩ | ⟨h3, h4, h5, h6, h7⟩)
    · left
      obtain ⟨m, rng, hit⟩ := hxx kb hkb
      have hit' := (List.of_mem_zip hit).1
      refine ⟨_, hit, (hls _ hit).2 hl, g, h4, r, p, ?_, h6, h7⟩
      have hgw := ((hg.valid _ hkb).gradient_valid h4).wf
      obtain ⟨i, k, j, h8, _⟩ := (hasValue_iff
        (b := withComponents fg.components g) ⟨hgw.samples, hC, hgw.properties⟩).1 h7
      exact (hren _ hit' g h4 r (List.mem_of_getElem? h8) r').2 h5
    · right
      refine ⟨h3, h4, h5, h6, ?_⟩
      intro it hit hne g h8 r hr' p hp h9
      have hit' := (List.of_mem_zip (a := it.1) (b := it.2) hit).1
      exact h7 it.1.1 (hmem it.1.1 it.1.2 hit') ((hls it hit).1 hne) g h8 r hr' p hp
        ((hren it.1 hit' g h8 r hr' r').1 h9)

end Equistore
