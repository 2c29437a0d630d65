import Verif.Props.ComponentsExact
import Verif.Props.KeysToProperties
import Verif.Lemmas.ComponentsData
import Verif.Lemmas.Moved

/-!
# Merging gradients with different components (C20, C27)

The components of the gradients of merged blocks are only compared in debug builds. This file says what release builds do
when these components have the same sizes but other entries.
-/

namespace Equistore
open Spec

variable {build : Build} {hash : HashOrder} {keysToMove : Labels} {sort : Bool} {t t' : TensorMap NdArray}

/-- The labels of the components only matter through their entries. -/
theorem hasValue_withComponents {g : BasicBlock NdArray} (hg : BlockWF g) {C : List Labels} (hC : ∀ c ∈ C, c.WF)
    (h : g.components.map entriesOf = C.map entriesOf) {r : List LabelValue} {cs : List (List LabelValue)}
    {p : List LabelValue} {x : Elt} : HasValue (withComponents C g) r cs p x ↔ HasValue g r cs p x := by
  rw [hasValue_iff (b := withComponents C g) ⟨hg.samples, hC, hg.properties⟩, hasValue_iff hg]
  have hcomp : ∀ k, CompAt C k cs ↔ CompAt g.components k cs := by
    have hG := hg.components
    generalize g.components = D at h hG
    clear hg
    induction D generalizing C cs with
    | nil =>
      have : C = [] := List.map_eq_nil_iff.1 (h.symm.trans (List.map_nil))
      subst this
      exact fun _ => Iff.rfl
    | cons d D ih =>
      cases C with
      | nil => simp at h
      | cons c C =>
        rw [List.map_cons, List.map_cons, List.cons.injEq] at h
        have hc := hC c List.mem_cons_self
        have hd := hG d List.mem_cons_self
        rw [entriesOf_eq hc, entriesOf_eq hd] at h
        intro k
        cases cs with
        | nil =>
          constructor
          · rintro ⟨h1, h2⟩; rw [List.zip_nil_right] at h1; cases h1
          · rintro ⟨h1, h2⟩; rw [List.zip_nil_right] at h1; cases h1
        | cons e cs =>
          rw [CompAt.cons_iff hc, CompAt.cons_iff hd, h.1]
          simp only [ih (fun c hc => hC c (List.mem_cons_of_mem _ hc)) h.2
            (fun c hc => hG c (List.mem_cons_of_mem _ hc))]
  simp only [withComponents, hcomp]

/-- Entries in a list of components are found from positions in all of them. -/
theorem entries_eq_of_compAt {C D : List Labels} (hC : ∀ c ∈ C, c.WF) (hD : ∀ c ∈ D, c.WF)
    (hsize : (C.map fun c => c.rows.length) = D.map fun c => c.rows.length)
    {k₀ : List Nat} {cs₀ : List (List LabelValue)} (h₀ : CompAt C k₀ cs₀)
    (h : ∀ k cs, CompAt C k cs → CompAt D k cs) : C.map entriesOf = D.map entriesOf := by
  induction C generalizing D k₀ cs₀ with
  | nil =>
    have : D = [] := List.map_eq_nil_iff.1 (hsize.symm.trans (List.map_nil))
    subst this; rfl
  | cons c C ih =>
    cases D with
    | nil => simp at hsize
    | cons d D =>
      rw [List.map_cons, List.map_cons, List.cons.injEq] at hsize
      have hc := hC c List.mem_cons_self
      have hd := hD d List.mem_cons_self
      cases cs₀ with
      | nil => obtain ⟨h1, h2⟩ := h₀; rw [List.zip_nil_right] at h1; cases h1
      | cons e₀ cs₀ =>
      obtain ⟨j₀, k₀, rfl, h1, h2⟩ := (CompAt.cons_iff hc).1 h₀
      have hhead : c.rows = d.rows := by
        refine List.ext_getElem? fun j => ?_
        cases hj : c.rows[j]? with
        | none =>
          rw [List.getElem?_eq_none_iff] at hj
          exact (List.getElem?_eq_none_iff.2 (by omega)).symm
        | some e =>
          obtain ⟨j', k', he, h3, -⟩ := (CompAt.cons_iff hd).1 (h _ _ ((CompAt.cons_iff hc).2 ⟨j, k₀, rfl, hj, h2⟩))
          rw [List.cons.injEq] at he
          rw [he.1, h3]
      rw [List.map_cons, List.map_cons, entriesOf_eq hc, entriesOf_eq hd, hhead]
      congr 1
      refine ih (fun c hc => hC c (List.mem_cons_of_mem _ hc)) (fun c hc => hD c (List.mem_cons_of_mem _ hc)) hsize.2 h2 ?_
      intro k cs hk
      obtain ⟨j', k', he, -, h3⟩ := (CompAt.cons_iff hd).1 (h _ _ ((CompAt.cons_iff hc).2 ⟨j₀, k, rfl, h1, hk⟩))
      rw [List.cons.injEq] at he
      rw [he.2]; exact h3

/-- If values are recognized under the labels of other components, these components have the same entries. -/
theorem entries_eq_of_recognizable {g : BasicBlock NdArray} (hg : BlockWF g) {C : List Labels} (hC : ∀ c ∈ C, c.WF)
    (hsize : (g.components.map fun c => c.rows.length) = C.map fun c => c.rows.length) (hr : Recognizable g)
    {r p : List LabelValue} (hrp : ∃ cs x, HasValue g r cs p x)
    (h : ∀ cs x, HasValue g r cs p x → HasValue (withComponents C g) r cs p x) :
    g.components.map entriesOf = C.map entriesOf := by
  obtain ⟨cs₀, x₀, h₀⟩ := hrp
  obtain ⟨i, k₀, j, h1, h2, h3, -⟩ := (hasValue_iff hg).1 h₀
  refine entries_eq_of_compAt hg.components hC hsize h2 ?_
  intro k cs hk
  have hx := (hasValue_iff hg).2 ⟨i, k, j, h1, hk, h3, rfl⟩
  obtain ⟨i', k', j', h1', h2', h3', h4'⟩ := (hasValue_iff
    (b := withComponents C g) ⟨hg.samples, hC, hg.properties⟩).1 (h cs _ hx)
  -- the same value is at `k'` in the gradient
  have hv : ValidIdx (g.components.map fun c => c.rows.length) k' := by rw [hsize]; exact h2'.valid hC
  obtain ⟨cs', hcs'⟩ : ∃ cs', CompAt g.components k' cs' := by
    have hG := hg.components
    generalize g.components = D at hv hG
    clear * - hv hG
    induction D generalizing k' with
    | nil => cases hv; exact ⟨[], .nil, rfl⟩
    | cons d D ih =>
      rw [List.map_cons] at hv
      cases hv with
      | cons hj hk =>
        obtain ⟨cs, hcs⟩ := ih _ hk (fun c hc => hG c (List.mem_cons_of_mem _ hc))
        exact ⟨_ :: cs, (CompAt.cons_iff (hG d List.mem_cons_self)).2 ⟨_, _, rfl, List.getElem?_eq_getElem hj, hcs⟩⟩
  have hx' := (hasValue_iff hg).2 ⟨i', k', j', h1', hcs', h3', h4'⟩
  have hcs := (hr.different _ _ _ _ _ _ _ hx hx').2.1
  rw [hcs] at hk
  rw [hk.unique hg.components hcs']
  exact h2'

/-- Every gradient sample of a merged block is renumbered. -/
theorem MergedBlock.gradient_every {sort addKey : Bool} {names : List String} {w : Nat}
    {first : List LabelValue × TensorBlock NdArray} {blocks : List (List LabelValue × TensorBlock NdArray)}
    {mappings : List (List SampleMapping)} {ranges : List (Option (Nat × Nat))} {b' : TensorBlock NdArray}
    (hg : GroupOk w blocks) (h : MergedBlock build hash sort addKey names first blocks mappings ranges b') {q : String}
    {g' : BasicBlock NdArray} (hq : b'.gradient q = some g') {kb : List LabelValue × TensorBlock NdArray}
    (hkb : kb ∈ blocks) {g : BasicBlock NdArray} (h1 : kb.2.gradient q = some g) {r : List LabelValue}
    (hr : r ∈ g.samples.rows) :
    ∃ r', SampleRenumbered kb.2.values.samples b'.values.samples (extendSample addKey kb.1) r r' := by
  obtain ⟨fg, h2, h3⟩ := h.gradient_some hg hq
  obtain ⟨hms, hren⟩ := gradientMerged_samples hg h.samples.wf h.mapping h.head h2 h3
  obtain ⟨m, hm⟩ := zip_mem_of h.mapping.length_eq hkb
  obtain ⟨g₂, h4, h5⟩ := hms.every _ hm
  rw [h1, Option.some.injEq] at h4
  subst h4
  obtain ⟨r', -, h6⟩ := h5 r hr
  exact ⟨r', (hren _ hm g h1 r hr r').1 h6⟩

/-- The block and the sample are known from the renumbered sample and the key. -/
theorem renumbered_unique {w : Nat} {blocks : List (List LabelValue × TensorBlock NdArray)} (hg : GroupOk w blocks)
    {new : Labels} {a c : List LabelValue × TensorBlock NdArray} (ha : a ∈ blocks) (hc : c ∈ blocks)
    {f : List LabelValue → List LabelValue → List LabelValue} {r₁ r₂ r' : List LabelValue}
    (h₁ : SampleRenumbered a.2.values.samples new (f a.1) r₁ r')
    (h₂ : SampleRenumbered c.2.values.samples new (f c.1) r₂ r')
    (hkey : ∀ s s', f a.1 s = f c.1 s' → a.1 = c.1 ∧ s = s') : a = c ∧ r₁ = r₂ := by
  obtain ⟨v₁, v', rest, s₁, i₁, i', rfl, rfl, h3, h4, h5, h6⟩ := h₁
  obtain ⟨v₂, v'', rest', s₂, i₂, i'', rfl, he, h3', h4', h5', h6'⟩ := h₂
  rw [List.cons.injEq] at he
  obtain ⟨rfl, rfl⟩ := he
  have hi : i' = i'' := by omega
  subst hi
  unfold EntryAt at h6 h6'
  rw [h6, Res.ok.injEq] at h6'
  obtain ⟨h7, rfl⟩ := hkey _ _ h6'
  have hac : a = c := by
    obtain ⟨i, hi, rfl⟩ := List.getElem_of_mem ha
    obtain ⟨j, hj, rfl⟩ := List.getElem_of_mem hc
    have hd := List.pairwise_iff_getElem.1 hg.distinct
    rcases Nat.lt_trichotomy i j with hij | rfl | hij
    · exact absurd h7 (hd i j hi hj hij)
    · rfl
    · exact absurd h7.symm (hd j i hj hi hij)
  subst hac
  have hw := (BasicValid.wf (hg.valid a ha).values).samples
  rw [entryAt_iff hw] at h5 h5'
  have := nodup_getElem?_inj (Labels.Holds.nodup hw) h5 h5'
  exact ⟨rfl, by rw [show v₁ = v₂ by rw [← Int32.toInt_inj]; omega]⟩

/-- Sizes in terms of entries. -/
theorem sizes_toMerge {names moved : List String} {w : Nat} {blocks : List (List LabelValue × TensorBlock NdArray)}
    (hg : GroupOk w (blocks.map (toMerge names moved))) {q : String} (h : SameGradientSizes blocks q) :
    ∀ a ∈ blocks.map (toMerge names moved), ∀ c ∈ blocks.map (toMerge names moved), ∀ g g₂,
      a.2.gradient q = some g → c.2.gradient q = some g₂ →
        (g.components.map fun c => c.rows.length) = g₂.components.map fun c => c.rows.length := by
  have hrows : ∀ a ∈ blocks.map (toMerge names moved), ∀ g, a.2.gradient q = some g →
      (g.components.map fun c => c.rows.length) = g.components.map fun c => (entriesOf c).length := by
    intro a ha g h1
    refine List.map_congr_left fun c hc => ?_
    rw [entriesOf_eq (((hg.valid a ha).gradient_valid h1).wf.components c hc)]
  intro a ha c hc g g₂ h1 h2
  rw [hrows a ha g h1, hrows c hc g₂ h2]
  obtain ⟨a₁, ha₁, rfl⟩ := List.mem_map.1 ha
  obtain ⟨c₁, hc₁, rfl⟩ := List.mem_map.1 hc
  exact h a₁ ha₁ c₁ hc₁ g g₂ h1 h2

section
variable (ht : TensorValid t) (hm : keysToMove.FromBuilder)
    (pairs pairs' : List (List LabelValue × TensorBlock NdArray))
    (hp : t.iter = .ok pairs) (hp' : t'.iter = .ok pairs')
    (key' : List LabelValue) (b' : TensorBlock NdArray) (hb' : (key', b') ∈ pairs')
    (q : String) (g' : BasicBlock NdArray) (hg' : b'.gradient q = some g')
include ht hm hp hp' hb' hg'

/-- **C20**, without comparing the entries of components: the gradients of a block of the result have the components of the
first of the merged blocks, and their values are exactly those of the merged blocks, at the same positions in
these components.

Partial: the components must have the same sizes in release builds. -/
theorem C20_keys_to_samples_positions_partial (h : t.keysToSamples build hash keysToMove sort = (t', .ok ()))
    (hsize : build.debug = true ∨ SameGradientSizes (group t.keys.names keysToMove.names pairs key') q) :
    (∃ first ∈ (group t.keys.names keysToMove.names pairs key').head?, ∃ g, first.2.gradient q = some g ∧
      g'.components = g.components) ∧
    ∀ r' cs p x, HasValue g' r' cs p x ↔
      ∃ key b, (key, b) ∈ pairs ∧ remainingKey t.keys.names keysToMove.names key = key' ∧
        ∃ g, b.gradient q = some g ∧ ∃ r,
          SampleRenumbered b.values.samples b'.values.samples
            (· ++ movedKey t.keys.names keysToMove.names key) r r' ∧
          HasValue (withComponents g'.components g) r cs p x := by
  obtain ⟨hw, hr, hk⟩ := (keysToSamples_ok_iff ht hm).1 h
  rw [ht.iter_eq, Res.ok.injEq] at hp
  rw [hk.iter_eq, Res.ok.injEq] at hp'
  subst hp hp'
  have hg := group_ok ht (Labels.Holds.names_ok hw).2 hk.names key'
  refine ⟨?_, fun r' cs p x => ?_⟩
  · obtain ⟨first, h1, g, h2, h3⟩ :=
      (mergeBlocksAlongSamples_gradient_components hg rfl (Labels.Holds.names_pos hw) (hk.merged hb') hg').1
    rw [List.head?_map, Option.mem_def, Option.map_eq_some_iff] at h1
    obtain ⟨first, h1, rfl⟩ := h1
    exact ⟨first, h1, g, h2, h3⟩
  · rw [(mergeBlocksAlongSamples_positions hg rfl (Labels.Holds.names_pos hw) (hk.merged hb') hg'
      (hsize.imp_right (sizes_toMerge hg))).2]
    exact exists_toMerge (P := fun k b => ∃ g, b.gradient q = some g ∧ ∃ r,
        SampleRenumbered b.values.samples b'.values.samples (· ++ k) r r' ∧
        HasValue (withComponents g'.components g) r cs p x)

/-- **C27**, without comparing the entries of components: the gradients of a block of the result have the components of the
first of the merged blocks, and their values are those of the merged blocks, at the same positions in these
components; all other entries are zero.

Partial: the components must have the same sizes in release builds. -/
theorem C27_keys_to_properties_positions_partial (h : t.keysToProperties build hash keysToMove sort = (t', .ok ()))
    (hsize : build.debug = true ∨ SameGradientSizes (group t.keys.names keysToMove.names pairs key') q) :
    let listed := fun key => entriesOf keysToMove = [] ∨
      movedKey t.keys.names keysToMove.names key ∈ entriesOf keysToMove
    (∃ first ∈ (group t.keys.names keysToMove.names pairs key').head?, ∃ g, first.2.gradient q = some g ∧
      g'.components = g.components) ∧
    ∀ r' cs p' x, HasValue g' r' cs p' x ↔
      ((∃ key b, (key, b) ∈ pairs ∧ remainingKey t.keys.names keysToMove.names key = key' ∧
        listed key ∧ ∃ g, b.gradient q = some g ∧ ∃ r p,
          SampleRenumbered b.values.samples b'.values.samples id r r' ∧
          p' = movedKey t.keys.names keysToMove.names key ++ p ∧ HasValue (withComponents g'.components g) r cs p x) ∨
      (x = 0 ∧ r' ∈ entriesOf g'.samples ∧ HasEntries g'.components cs ∧
        p' ∈ entriesOf b'.values.properties ∧
        ∀ key b, (key, b) ∈ pairs → remainingKey t.keys.names keysToMove.names key = key' →
          listed key → ∀ g, b.gradient q = some g → ∀ r ∈ entriesOf g.samples,
            ∀ p ∈ entriesOf g.properties,
            SampleRenumbered b.values.samples b'.values.samples id r r' →
            p' ≠ movedKey t.keys.names keysToMove.names key ++ p)) := by
  intro listed
  obtain ⟨hw, hk⟩ := (keysToProperties_ok_iff ht hm).1 h
  rw [ht.iter_eq, Res.ok.injEq] at hp
  rw [hk.iter_eq, Res.ok.injEq] at hp'
  subst hp hp'
  have hg := group_ok ht (Labels.Holds.names_ok hw).2 hk.names key'
  refine ⟨?_, fun r' cs p' x => ?_⟩
  · obtain ⟨first, h1, g, h2, h3⟩ :=
      (mergeBlocksAlongProperties_gradient_components hg (userKeys_ok hw) (hk.merged hb') hg').1
    rw [List.head?_map, Option.mem_def, Option.map_eq_some_iff] at h1
    obtain ⟨first, h1, rfl⟩ := h1
    exact ⟨first, h1, g, h2, h3⟩
  obtain ⟨_, _, _, hM, _⟩ := mergeBlocksAlongProperties_merged hg (userKeys_ok hw) (hk.merged hb')
  have hbw := BasicValid.wf hM.valid.values
  have hgw := (hM.valid.gradient_valid hg').wf
  have hl : ∀ key, listed key ↔ Listed (userKeys keysToMove) (movedKey t.keys.names keysToMove.names key) := by
    intro key; rw [listed_userKeys, ← entriesOf_eq hw]
  rw [(mergeBlocksAlongProperties_positions hg (userKeys_ok hw) (hk.merged hb') hg'
    (hsize.imp_right (sizes_toMerge hg))).2, entriesOf_eq hgw.samples, entriesOf_eq hbw.properties]
  refine or_congr ?_ ?_
  · simp only [hl]
    exact exists_toMerge (P := fun k b => Listed (userKeys keysToMove) k ∧
      ∃ g, b.gradient q = some g ∧ ∃ r p,
          SampleRenumbered b.values.samples b'.values.samples id r r' ∧
          p' = k ++ p ∧ HasValue (withComponents g'.components g) r cs p x)
  · refine and_congr_right fun _ => and_congr_right fun _ => and_congr_right fun _ =>
      and_congr_right fun _ => ?_
    constructor
    · intro h key b h1 h2 h3 g h4 r h5 p h6
      have hmem := List.mem_map_of_mem (f := toMerge t.keys.names keysToMove.names)
        (mem_group.2 ⟨h1, h2⟩)
      have hv := ((hg.valid _ hmem).gradient_valid h4).wf
      rw [entriesOf_eq hv.samples] at h5
      rw [entriesOf_eq hv.properties] at h6
      exact h _ hmem ((hl key).1 h3) g h4 r h5 p h6
    · intro h kb hkb h3 g h4 r h5 p h6
      obtain ⟨⟨key, b⟩, h1, rfl⟩ := List.mem_map.1 hkb
      have hv := ((hg.valid _ hkb).gradient_valid h4).wf
      obtain ⟨h1, h2⟩ := mem_group.1 h1
      exact h key b h1 h2 ((hl key).2 h3) g h4 r (by rw [entriesOf_eq hv.samples]; exact h5) p
        (by rw [entriesOf_eq hv.properties]; exact h6)

end

/-- Non-vacuity: in a release build, blocks whose gradients have the components `d = 0` and `d = 5` are merged. These
have the same sizes, the gradients contain no value twice, and the values of the second one are now under `d = 0`. -/
example : TensorValid Example.mixed ∧ Example.moveL.FromBuilder ∧
    Example.mixed.keysToSamples ⟨false⟩ .insertion Example.moveL true = (Example.mixedMoved, .ok ()) ∧
    let pairs := Example.mixed.keys.rows.zip Example.mixed.blocks
    SameGradientSizes (group Example.mixed.keys.names Example.moveL.names pairs [0]) "g" ∧
    (∀ kb ∈ group Example.mixed.keys.names Example.moveL.names pairs [0], ∀ g, kb.2.gradient "g" = some g →
      Recognizable g) ∧
    pairs.map (fun kb => (kb.2.gradient "g").map fun g => g.components.map entriesOf) =
      [some [[[0]], [[-1], [1]]], some [[[5]], [[-1], [1]]]] := by
  have hmem : ∀ kb ∈ group Example.mixed.keys.names Example.moveL.names
      (Example.mixed.keys.rows.zip Example.mixed.blocks) [0], kb.2 = Example.gradBlock ∨ kb.2 = Example.gradBlock5 := by
    decide +kernel
  have hg1 : ∀ g, Example.gradBlock.gradient "g" = some g → g.components.map (fun c => (entriesOf c).length) = [1, 2] ∧
      Recognizable g := by
    intro g h
    have hv := (Example.mixed_valid.blocks Example.gradBlock (by simp [Example.mixed])).gradient_valid h
    have he : g = (Example.gradBlock.gradient "g").getD Example.block.values := by rw [h]; rfl
    refine ⟨by rw [he]; decide +kernel, Recognizable.of_nodup hv.basic ?_ ?_ ?_⟩
    · rw [he]; unfold ArrayOk; decide +kernel
    · rw [he]; decide +kernel
    · refine ⟨[0, 7], [[0], [-1]], [0], Example.gradientData.get [0, 0, 0, 0], 0, [0, 0], 0, ?_, ?_, rfl, ?_, ?_⟩
      · rw [he]; unfold EntryAt; decide +kernel
      · rw [he]; unfold EntryAt; decide +kernel
      · rw [he]; unfold EntryAt; decide +kernel
      · rw [he]; decide +kernel
  have hg2 : ∀ g, Example.gradBlock5.gradient "g" = some g → g.components.map (fun c => (entriesOf c).length) = [1, 2] ∧
      Recognizable g := by
    intro g h
    have hv := (Example.mixed_valid.blocks Example.gradBlock5 (by simp [Example.mixed])).gradient_valid h
    have he : g = (Example.gradBlock5.gradient "g").getD Example.block.values := by rw [h]; rfl
    refine ⟨by rw [he]; decide +kernel, Recognizable.of_nodup hv.basic ?_ ?_ ?_⟩
    · rw [he]; unfold ArrayOk; decide +kernel
    · rw [he]; decide +kernel
    · refine ⟨[0, 7], [[5], [-1]], [0], Example.gradientData.get [0, 0, 0, 0], 0, [0, 0], 0, ?_, ?_, rfl, ?_, ?_⟩
      · rw [he]; unfold EntryAt; decide +kernel
      · rw [he]; unfold EntryAt; decide +kernel
      · rw [he]; unfold EntryAt; decide +kernel
      · rw [he]; decide +kernel
  have hboth : ∀ kb ∈ group Example.mixed.keys.names Example.moveL.names
      (Example.mixed.keys.rows.zip Example.mixed.blocks) [0], ∀ g, kb.2.gradient "g" = some g →
      g.components.map (fun c => (entriesOf c).length) = [1, 2] ∧ Recognizable g := by
    intro kb hkb g h
    rcases hmem kb hkb with he | he
    · rw [he] at h; exact hg1 g h
    · rw [he] at h; exact hg2 g h
  exact ⟨Example.mixed_valid, Example.moveL_fromBuilder, Example.mixedMoved_eq,
    fun a ha b hb g g' h h' => (hboth a ha g h).1.trans (hboth b hb g' h').1.symm,
    fun kb hkb g h => (hboth kb hkb g h).2, by decide +kernel⟩

end Equistore
