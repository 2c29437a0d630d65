import Verif.Props.ReleaseGradients
import Verif.Props.Backend
import Verif.Lemmas.Broadcast

/-!
# Merging gradients with components of different sizes (C20, C27)

In release builds, the components of the gradients of merged blocks are not compared. `ndarray` refuses to copy values to an
array with other sizes, except that it repeats the values along axes of size 1. This file says what is in the gradients of
the result in all cases where the keys are moved, and exactly when no value changes its labels.
-/

namespace Equistore
open Spec

variable {build : Build} {hash : HashOrder} {keysToMove : Labels} {sort : Bool} {t t' : TensorMap NdArray}

/-- With the same sizes, values are not repeated. -/
theorem hasBroadcastValue_sizes {g : BasicBlock NdArray} (hg : BlockWF g) {C : List Labels} (hC : ∀ c ∈ C, c.WF)
    (h : (g.components.map fun c => c.rows.length) = C.map fun c => c.rows.length) {r : List LabelValue}
    {cs : List (List LabelValue)} {p : List LabelValue} {x : Elt} :
    HasBroadcastValue C g r cs p x ↔ HasValue (withComponents C g) r cs p x := by
  rw [← hasValue_stretch hC hg, hasValue_iff (b := stretch C g) ⟨hg.samples, hC, hg.properties⟩,
    hasValue_iff (b := withComponents C g) ⟨hg.samples, hC, hg.properties⟩]
  have hget : ∀ i k j, g.samples.rows[i]? = some r → CompAt C k cs → g.properties.rows[j]? = some p →
      (stretch C g).data.get (i :: k ++ [j]) = g.data.get (i :: k ++ [j]) := by
    intro i k j h1 h2 h3
    rw [stretch_get (List.getElem?_eq_some_iff.1 h1).1 (h2.valid hC) (List.getElem?_eq_some_iff.1 h3).1, h]
    have := NdArray.broadcastIdx_self (h2.valid hC)
    unfold NdArray.broadcastIdx at this
    rw [List.length_map, ← (h2.valid hC).length_eq, List.length_map, Nat.sub_self, List.drop_zero] at this
    unfold broadcastPositions
    rw [this]
  constructor
  · rintro ⟨i, k, j, h1, h2, h3, h4⟩
    exact ⟨i, k, j, h1, h2, h3, (hget i k j h1 h2 h3).symm.trans h4⟩
  · rintro ⟨i, k, j, h1, h2, h3, h4⟩
    exact ⟨i, k, j, h1, h2, h3, (hget i k j h1 h2 h3).trans h4⟩

theorem rows_eq_of_entries {D C : List Labels} (hD : ∀ c ∈ D, c.WF) (hC : ∀ c ∈ C, c.WF)
    (h : D.map entriesOf = C.map entriesOf) :
    (D.map fun c => c.rows.length) = C.map fun c => c.rows.length := by
  have := congrArg (List.map List.length) h
  rw [List.map_map, List.map_map] at this
  rw [List.map_congr_left (g := List.length ∘ entriesOf) fun c hc => by simp [entriesOf_wf (hD c hc)], this]
  exact List.map_congr_left fun c hc => by simp [entriesOf_wf (hC c hc)]

theorem hasBroadcastValue_iff {g : BasicBlock NdArray} (hg : BlockWF g) {C : List Labels} (hC : ∀ c ∈ C, c.WF)
    (h : g.components.map entriesOf = C.map entriesOf) {r : List LabelValue}
    {cs : List (List LabelValue)} {p : List LabelValue} {x : Elt} :
    HasBroadcastValue C g r cs p x ↔ HasValue g r cs p x :=
  (hasBroadcastValue_sizes hg hC (rows_eq_of_entries hg.components hC h)).trans (hasValue_withComponents hg hC h)

theorem sizes_eq_of_compAt {D C : List Labels} (hD : ∀ c ∈ D, c.WF) (hC : ∀ c ∈ C, c.WF) (hb : BroadcastsTo D C)
    {k₀ : List Nat} {cs₀ : List (List LabelValue)} (h₀ : CompAt C k₀ cs₀)
    (h : ∀ k cs, CompAt C k cs → ∃ k', CompAt D k' cs) :
    (D.map fun c => c.rows.length) = C.map fun c => c.rows.length := by
  unfold BroadcastsTo at hb
  induction hb generalizing k₀ cs₀ with
  | nil => rfl
  | @cons d c D C hdc _ ih =>
    have hd := hD d List.mem_cons_self
    have hc := hC c List.mem_cons_self
    cases cs₀ with
    | nil => obtain ⟨h1, -⟩ := h₀; rw [List.zip_nil_right] at h1; cases h1
    | cons e₀ cs₀ =>
      obtain ⟨j₀, k₀, rfl, hj₀, hk₀⟩ := (CompAt.cons_iff hc).1 h₀
      have htail := ih (fun c h => hD c (List.mem_cons_of_mem _ h)) (fun c h => hC c (List.mem_cons_of_mem _ h)) hk₀ (by
        intro k cs hk
        obtain ⟨k', hk'⟩ := h _ _ ((CompAt.cons_iff hc).2 ⟨j₀, k, rfl, hj₀, hk⟩)
        obtain ⟨_, k', -, -, h1⟩ := (CompAt.cons_iff hd).1 hk'
        exact ⟨k', h1⟩)
      rw [List.map_cons, List.map_cons, htail]
      congr 1
      rw [entriesOf_wf hd, entriesOf_wf hc] at hdc
      rcases hdc with hdc | hdc
      · exact hdc
      · have hsub : c.rows ⊆ d.rows := by
          intro e he
          obtain ⟨j, hj⟩ := List.mem_iff_getElem?.1 he
          obtain ⟨k', hk'⟩ := h _ _ ((CompAt.cons_iff hc).2 ⟨j, k₀, rfl, hj, hk₀⟩)
          obtain ⟨_, _, -, h1, -⟩ := (CompAt.cons_iff hd).1 hk'
          exact List.mem_of_getElem? h1
        have h1 := (List.subperm_of_subset (Labels.Holds.nodup hc) hsub).length_le
        have h2 := (List.getElem?_eq_some_iff.1 hj₀).1
        omega

/-- If all values of a gradient are under its labels with other components, these components have the same entries. -/
theorem entries_eq_of_broadcast {g : BasicBlock NdArray} (hg : BlockWF g) {C : List Labels} (hC : ∀ c ∈ C, c.WF)
    (hb : BroadcastsTo g.components C) (hr : Recognizable g) {r p : List LabelValue} (hrp : ∃ cs x, HasValue g r cs p x)
    (h : ∀ cs x, HasValue g r cs p x ↔ HasBroadcastValue C g r cs p x) :
    g.components.map entriesOf = C.map entriesOf := by
  obtain ⟨cs₀, x₀, h₀⟩ := hrp
  obtain ⟨i, _, j, h1, _, h3, _⟩ := (hasValue_iff hg).1 h₀
  obtain ⟨_, k₀, _, _, h2, h2', _⟩ := (h _ _).1 h₀
  have hsize := sizes_eq_of_compAt hg.components hC hb ⟨h2, h2'⟩ (by
    intro k cs hk
    obtain ⟨_, k', _, _, h4, _⟩ := (hasValue_iff hg).1 ((h cs _).2
      ⟨i, k, j, (entryAt_iff hg.samples).2 h1, hk.1, hk.2, (entryAt_iff hg.properties).2 h3, rfl⟩)
    exact ⟨k', h4⟩)
  exact entries_eq_of_recognizable hg hC hsize hr ⟨cs₀, x₀, h₀⟩ fun cs x hx =>
    (hasBroadcastValue_sizes hg hC hsize).1 ((h cs x).1 hx)

section
variable (ht : TensorValid t) (hm : keysToMove.FromBuilder)
    (pairs pairs' : List (List LabelValue × TensorBlock NdArray))
    (hp : t.iter = .ok pairs) (hp' : t'.iter = .ok pairs')
    (key' : List LabelValue) (b' : TensorBlock NdArray) (hb' : (key', b') ∈ pairs')
    (q : String) (g' : BasicBlock NdArray) (hg' : b'.gradient q = some g')
include ht hm hp hp' hb' hg'

/-- **C20**, for all components of gradients: the gradients of a block of the result have the components of the first of the
merged blocks. Each merged gradient with samples has as many components, each of the same size or with a single entry.
The values are exactly those of the merged blocks, at the same positions in the components, repeated along components
with a single entry. -/
theorem C20_broadcast (h : t.keysToSamples build hash keysToMove sort = (t', .ok ())) :
    (∃ first ∈ (group t.keys.names keysToMove.names pairs key').head?, ∃ g, first.2.gradient q = some g ∧
      g'.components = g.components) ∧
    (∀ key b, (key, b) ∈ pairs → remainingKey t.keys.names keysToMove.names key = key' →
      ∀ g, b.gradient q = some g → ∀ r ∈ entriesOf g.samples, BroadcastsTo g.components g'.components) ∧
    ∀ r' cs p x, HasValue g' r' cs p x ↔
      ∃ key b, (key, b) ∈ pairs ∧ remainingKey t.keys.names keysToMove.names key = key' ∧
        ∃ g, b.gradient q = some g ∧ ∃ r,
          SampleRenumbered b.values.samples b'.values.samples
            (· ++ movedKey t.keys.names keysToMove.names key) r r' ∧
          HasBroadcastValue g'.components g r cs p x := by
  obtain ⟨hw, hr, hk⟩ := (keysToSamples_ok_iff ht hm).1 h
  rw [ht.iter_eq, Res.ok.injEq] at hp
  rw [hk.iter_eq, Res.ok.injEq] at hp'
  subst hp hp'
  have hg := group_ok ht (Labels.Holds.names_ok hw).2 hk.names key'
  refine ⟨?_, ?_, fun r' cs p x => ?_⟩
  · obtain ⟨first, h1, g, h2, h3⟩ :=
      (mergeBlocksAlongSamples_gradient_components hg rfl (Labels.Holds.names_pos hw) (hk.merged hb') hg').1
    rw [List.head?_map, Option.mem_def, Option.map_eq_some_iff] at h1
    obtain ⟨first, h1, rfl⟩ := h1
    exact ⟨first, h1, g, h2, h3⟩
  · intro key b h1 h2 g h3 r h4
    have hkb : toMerge t.keys.names keysToMove.names (key, b) ∈ (group t.keys.names keysToMove.names
      (t.keys.rows.zip t.blocks) key').map (toMerge t.keys.names keysToMove.names) :=
      List.mem_map_of_mem (mem_group.2 ⟨h1, h2⟩)
    have hv := ((hg.valid _ hkb).gradient_valid h3).wf
    rw [entriesOf_eq hv.samples] at h4
    exact mergeBlocksAlongSamples_sizes hg rfl (Labels.Holds.names_pos hw) (hk.merged hb') hg' hkb h3
      (List.ne_nil_of_mem h4)
  · rw [(mergeBlocksAlongSamples_broadcast hg rfl (Labels.Holds.names_pos hw) (hk.merged hb') hg').2]
    exact exists_toMerge (P := fun k b => ∃ g, b.gradient q = some g ∧ ∃ r,
        SampleRenumbered b.values.samples b'.values.samples (· ++ k) r r' ∧
        HasBroadcastValue g'.components g r cs p x)

/-- **C20**, exactly when values are kept: if no gradient contains the same value twice,
then gradient values are exactly those of the merged blocks, under their labels, if and only if all merged gradients have
the component entries of the result. -/
theorem C20_exact (h : t.keysToSamples build hash keysToMove sort = (t', .ok ()))
    (hrec : ∀ kb ∈ group t.keys.names keysToMove.names pairs key', ∀ g, kb.2.gradient q = some g → Recognizable g) :
    (∀ r' cs p x, HasValue g' r' cs p x ↔
      ∃ key b, (key, b) ∈ pairs ∧ remainingKey t.keys.names keysToMove.names key = key' ∧
        ∃ g, b.gradient q = some g ∧ ∃ r,
          SampleRenumbered b.values.samples b'.values.samples
            (· ++ movedKey t.keys.names keysToMove.names key) r r' ∧
          HasValue g r cs p x) ↔
    ∀ kb ∈ group t.keys.names keysToMove.names pairs key', ∀ g, kb.2.gradient q = some g →
      g.components.map entriesOf = g'.components.map entriesOf := by
  obtain ⟨-, hsizes, hpos⟩ := C20_broadcast ht hm pairs pairs' hp hp' key' b' hb' q g' hg' h
  obtain ⟨hw, hr, hk⟩ := (keysToSamples_ok_iff ht hm).1 h
  rw [ht.iter_eq, Res.ok.injEq] at hp
  rw [hk.iter_eq, Res.ok.injEq] at hp'
  subst hp hp'
  have hg := group_ok ht (Labels.Holds.names_ok hw).2 hk.names key'
  obtain ⟨f, _, _, hM, _⟩ := mergeBlocksAlongSamples_merged hg rfl (Labels.Holds.names_pos hw) (hk.merged hb')
  have hC := (hM.valid.gradient_valid hg').wf.components
  have hwf : ∀ kb ∈ group t.keys.names keysToMove.names (t.keys.rows.zip t.blocks) key', ∀ g, kb.2.gradient q = some g →
      BlockWF g := fun kb hkb g h1 => ((hg.valid _ (List.mem_map_of_mem hkb)).gradient_valid h1).wf
  constructor
  · intro hfull kb hkb g h1
    have hgw := hwf kb hkb g h1
    obtain ⟨r, cs₀, p, x₀, h₀⟩ := (hrec kb hkb g h1).nonempty
    obtain ⟨i, k, j, h2, -⟩ := (hasValue_iff hgw).1 h₀
    have hkb' : toMerge t.keys.names keysToMove.names kb ∈ (group t.keys.names keysToMove.names
      (t.keys.rows.zip t.blocks) key').map (toMerge t.keys.names keysToMove.names) := List.mem_map_of_mem hkb
    obtain ⟨r', hr'⟩ := hM.gradient_every hg hg' hkb' h1 (List.mem_of_getElem? h2)
    simp only [extendSample, if_true] at hr'
    obtain ⟨hk1, hk2⟩ := mem_group.1 (show (kb.1, kb.2) ∈ _ from hkb)
    have hsame : ∀ key b, (key, b) ∈ t.keys.rows.zip t.blocks → remainingKey t.keys.names keysToMove.names key = key' →
        ∀ g₂, b.gradient q = some g₂ → ∀ r₂, SampleRenumbered b.values.samples b'.values.samples
          (· ++ movedKey t.keys.names keysToMove.names key) r₂ r' → g₂ = g ∧ r₂ = r := by
      intro key b h3 h4 g₂ h5 r₂ h6
      have hkb₂ : toMerge t.keys.names keysToMove.names (key, b) ∈ (group t.keys.names keysToMove.names
        (t.keys.rows.zip t.blocks) key').map (toMerge t.keys.names keysToMove.names) :=
        List.mem_map_of_mem (mem_group.2 ⟨h3, h4⟩)
      obtain ⟨he, rfl⟩ := renumbered_unique hg hkb' hkb₂ (f := fun k s => s ++ k) hr' h6 (by
        intro s s' hs
        have := List.append_inj' hs ((hg.width _ hkb').trans (hg.width _ hkb₂).symm)
        exact ⟨this.2, this.1⟩)
      have hb : kb.2 = b := congrArg Prod.snd he
      rw [← hb, h1, Option.some.injEq] at h5
      exact ⟨h5.symm, rfl⟩
    refine entries_eq_of_broadcast hgw hC (hsizes kb.1 kb.2 hk1 hk2 g h1 r
      (by rw [entriesOf_eq hgw.samples]; exact List.mem_of_getElem? h2)) (hrec kb hkb g h1) ⟨cs₀, x₀, h₀⟩ ?_
    intro cs x
    constructor
    · intro hx
      obtain ⟨key, b, h3, h4, g₂, h5, r₂, h6, h7⟩ :=
        (hpos r' cs p x).1 ((hfull r' cs p x).2 ⟨kb.1, kb.2, hk1, hk2, g, h1, r, hr', hx⟩)
      obtain ⟨rfl, rfl⟩ := hsame key b h3 h4 g₂ h5 r₂ h6
      exact h7
    · intro hx
      obtain ⟨key, b, h3, h4, g₂, h5, r₂, h6, h7⟩ :=
        (hfull r' cs p x).1 ((hpos r' cs p x).2 ⟨kb.1, kb.2, hk1, hk2, g, h1, r, hr', hx⟩)
      obtain ⟨rfl, rfl⟩ := hsame key b h3 h4 g₂ h5 r₂ h6
      exact h7
  · intro hsame r' cs p x
    rw [hpos]
    constructor
    · rintro ⟨key, b, h3, h4, g, h5, r, h6, h7⟩
      have hkb := mem_group.2 ⟨h3, h4⟩
      exact ⟨key, b, h3, h4, g, h5, r, h6,
        (hasBroadcastValue_iff (hwf _ hkb g h5) hC (hsame _ hkb g h5)).1 h7⟩
    · rintro ⟨key, b, h3, h4, g, h5, r, h6, h7⟩
      have hkb := mem_group.2 ⟨h3, h4⟩
      exact ⟨key, b, h3, h4, g, h5, r, h6,
        (hasBroadcastValue_iff (hwf _ hkb g h5) hC (hsame _ hkb g h5)).2 h7⟩

/-- **C27**, for all components of gradients: the gradients of a block of the result have the components of the first of the
merged blocks. Each merged gradient with samples has as many components, each of the same size or with a single entry.
The values are those of the merged blocks, at the same positions in the components, repeated along components with a
single entry; all other entries are zero. -/
theorem C27_broadcast (h : t.keysToProperties build hash keysToMove sort = (t', .ok ())) :
    let listed := fun key => entriesOf keysToMove = [] ∨
      movedKey t.keys.names keysToMove.names key ∈ entriesOf keysToMove
    (∃ first ∈ (group t.keys.names keysToMove.names pairs key').head?, ∃ g, first.2.gradient q = some g ∧
      g'.components = g.components) ∧
    (∀ key b, (key, b) ∈ pairs → remainingKey t.keys.names keysToMove.names key = key' → listed key →
      ∀ g, b.gradient q = some g → ∀ r ∈ entriesOf g.samples, BroadcastsTo g.components g'.components) ∧
    ∀ r' cs p' x, HasValue g' r' cs p' x ↔
      ((∃ key b, (key, b) ∈ pairs ∧ remainingKey t.keys.names keysToMove.names key = key' ∧
        listed key ∧ ∃ g, b.gradient q = some g ∧ ∃ r p,
          SampleRenumbered b.values.samples b'.values.samples id r r' ∧
          p' = movedKey t.keys.names keysToMove.names key ++ p ∧ HasBroadcastValue g'.components g r cs p x) ∨
      (x = 0 ∧ r' ∈ entriesOf g'.samples ∧ HasEntries g'.components cs ∧
        p' ∈ entriesOf b'.values.properties ∧
        ∀ key b, (key, b) ∈ pairs → remainingKey t.keys.names keysToMove.names key = key' →
          listed key → ∀ g, b.gradient q = some g → ∀ r ∈ entriesOf g.samples,
            ∀ p ∈ entriesOf g.properties,
            SampleRenumbered b.values.samples b'.values.samples id r r' →
            p' ≠ movedKey t.keys.names keysToMove.names key ++ p)) := by
  intro listed
  obtain ⟨hw, hk⟩ := (keysToProperties_ok_iff ht hm).1 h
  rw [ht.iter_eq, Res.ok.injEq] at hp
  rw [hk.iter_eq, Res.ok.injEq] at hp'
  subst hp hp'
  have hg := group_ok ht (Labels.Holds.names_ok hw).2 hk.names key'
  have hl : ∀ key, listed key ↔ Listed (userKeys keysToMove) (movedKey t.keys.names keysToMove.names key) := by
    intro key; rw [listed_userKeys, ← entriesOf_eq hw]
  refine ⟨?_, ?_, fun r' cs p' x => ?_⟩
  · obtain ⟨first, h1, g, h2, h3⟩ :=
      (mergeBlocksAlongProperties_gradient_components hg (userKeys_ok hw) (hk.merged hb') hg').1
    rw [List.head?_map, Option.mem_def, Option.map_eq_some_iff] at h1
    obtain ⟨first, h1, rfl⟩ := h1
    exact ⟨first, h1, g, h2, h3⟩
  · intro key b h1 h2 h2' g h3 r h4
    have hkb : toMerge t.keys.names keysToMove.names (key, b) ∈ (group t.keys.names keysToMove.names
      (t.keys.rows.zip t.blocks) key').map (toMerge t.keys.names keysToMove.names) :=
      List.mem_map_of_mem (mem_group.2 ⟨h1, h2⟩)
    have hv := ((hg.valid _ hkb).gradient_valid h3).wf
    rw [entriesOf_eq hv.samples] at h4
    exact mergeBlocksAlongProperties_sizes hg (userKeys_ok hw) (hk.merged hb') hg' hkb ((hl key).1 h2') h3
      (List.ne_nil_of_mem h4)
  obtain ⟨_, _, _, hM, _⟩ := mergeBlocksAlongProperties_merged hg (userKeys_ok hw) (hk.merged hb')
  have hbw := BasicValid.wf hM.valid.values
  have hgw := (hM.valid.gradient_valid hg').wf
  rw [(mergeBlocksAlongProperties_broadcast hg (userKeys_ok hw) (hk.merged hb') hg').2, entriesOf_eq hgw.samples, entriesOf_eq hbw.properties]
  refine or_congr ?_ ?_
  · simp only [hl]
    exact exists_toMerge (P := fun k b => Listed (userKeys keysToMove) k ∧
      ∃ g, b.gradient q = some g ∧ ∃ r p,
          SampleRenumbered b.values.samples b'.values.samples id r r' ∧
          p' = k ++ p ∧ HasBroadcastValue g'.components g r cs p x)
  · refine and_congr_right fun _ => and_congr_right fun _ => and_congr_right fun _ =>
      and_congr_right fun _ => ?_
    constructor
    · intro h key b h1 h2 h3 g h4 r h5 p h6
      have hmem := List.mem_map_of_mem (f := toMerge t.keys.names keysToMove.names)
        (mem_group.2 ⟨h1, h2⟩)
      have hv := ((hg.valid _ hmem).gradient_valid h4).wf
      rw [entriesOf_eq hv.samples] at h5
      rw [entriesOf_eq hv.properties] at h6
      exact h _ hmem ((hl key).1 h3) g h4 r h5 p h6
    · intro h kb hkb h3 g h4 r h5 p h6
      obtain ⟨⟨key, b⟩, h1, rfl⟩ := List.mem_map.1 hkb
      have hv := ((hg.valid _ hkb).gradient_valid h4).wf
      obtain ⟨h1, h2⟩ := mem_group.1 h1
      exact h key b h1 h2 ((hl key).2 h3) g h4 r (by rw [entriesOf_eq hv.samples]; exact h5) p
        (by rw [entriesOf_eq hv.properties]; exact h6)

/-- **C27**, exactly when values are kept: if no gradient contains the same value twice,
then gradient values are those of the merged blocks which are listed, under their labels, with zeros everywhere else,
if and only if all these gradients have the component entries of the result. -/
theorem C27_exact (h : t.keysToProperties build hash keysToMove sort = (t', .ok ()))
    (hrec : ∀ kb ∈ group t.keys.names keysToMove.names pairs key', ∀ g, kb.2.gradient q = some g → Recognizable g) :
    let listed := fun key => entriesOf keysToMove = [] ∨
      movedKey t.keys.names keysToMove.names key ∈ entriesOf keysToMove
    (∀ r' cs p' x, HasValue g' r' cs p' x ↔
      ((∃ key b, (key, b) ∈ pairs ∧ remainingKey t.keys.names keysToMove.names key = key' ∧
        listed key ∧ ∃ g, b.gradient q = some g ∧ ∃ r p,
          SampleRenumbered b.values.samples b'.values.samples id r r' ∧
          p' = movedKey t.keys.names keysToMove.names key ++ p ∧ HasValue g r cs p x) ∨
      (x = 0 ∧ r' ∈ entriesOf g'.samples ∧ HasEntries g'.components cs ∧
        p' ∈ entriesOf b'.values.properties ∧
        ∀ key b, (key, b) ∈ pairs → remainingKey t.keys.names keysToMove.names key = key' →
          listed key → ∀ g, b.gradient q = some g → ∀ r ∈ entriesOf g.samples,
            ∀ p ∈ entriesOf g.properties,
            SampleRenumbered b.values.samples b'.values.samples id r r' →
            p' ≠ movedKey t.keys.names keysToMove.names key ++ p))) ↔
    ∀ kb ∈ group t.keys.names keysToMove.names pairs key', listed kb.1 → ∀ g, kb.2.gradient q = some g →
      g.components.map entriesOf = g'.components.map entriesOf := by
  intro listed
  obtain ⟨-, hsizes, hpos⟩ := C27_broadcast ht hm pairs pairs' hp hp' key' b' hb' q g' hg' h
  obtain ⟨hw, hk⟩ := (keysToProperties_ok_iff ht hm).1 h
  rw [ht.iter_eq, Res.ok.injEq] at hp
  rw [hk.iter_eq, Res.ok.injEq] at hp'
  subst hp hp'
  have hg := group_ok ht (Labels.Holds.names_ok hw).2 hk.names key'
  obtain ⟨f, _, _, hM, _⟩ := mergeBlocksAlongProperties_merged hg (userKeys_ok hw) (hk.merged hb')
  have hC := (hM.valid.gradient_valid hg').wf.components
  have hwf : ∀ kb ∈ group t.keys.names keysToMove.names (t.keys.rows.zip t.blocks) key', ∀ g, kb.2.gradient q = some g →
      BlockWF g := fun kb hkb g h1 => ((hg.valid _ (List.mem_map_of_mem hkb)).gradient_valid h1).wf
  constructor
  · intro hfull kb hkb hlist g h1
    have hgw := hwf kb hkb g h1
    obtain ⟨r, cs₀, p, x₀, h₀⟩ := (hrec kb hkb g h1).nonempty
    obtain ⟨i, k, j, h2, -, hj, -⟩ := (hasValue_iff hgw).1 h₀
    have hkb' : toMerge t.keys.names keysToMove.names kb ∈ (group t.keys.names keysToMove.names
      (t.keys.rows.zip t.blocks) key').map (toMerge t.keys.names keysToMove.names) := List.mem_map_of_mem hkb
    obtain ⟨r', hr'⟩ := hM.gradient_every hg hg' hkb' h1 (List.mem_of_getElem? h2)
    have hext : ∀ key : List LabelValue, extendSample false key = id := fun key => by
      funext s; simp [extendSample]
    rw [hext] at hr'
    obtain ⟨hk1, hk2⟩ := mem_group.1 (show (kb.1, kb.2) ∈ _ from hkb)
    have hsame : ∀ key b, (key, b) ∈ t.keys.rows.zip t.blocks → remainingKey t.keys.names keysToMove.names key = key' →
        ∀ g₂, b.gradient q = some g₂ → ∀ r₂ p₂, SampleRenumbered b.values.samples b'.values.samples id r₂ r' →
        movedKey t.keys.names keysToMove.names kb.1 ++ p = movedKey t.keys.names keysToMove.names key ++ p₂ →
          g₂ = g ∧ r₂ = r ∧ p₂ = p := by
      intro key b h3 h4 g₂ h5 r₂ p₂ h6 h7
      have hkb₂ : toMerge t.keys.names keysToMove.names (key, b) ∈ (group t.keys.names keysToMove.names
        (t.keys.rows.zip t.blocks) key').map (toMerge t.keys.names keysToMove.names) :=
        List.mem_map_of_mem (mem_group.2 ⟨h3, h4⟩)
      have hkey := List.append_inj h7 ((hg.width _ hkb').trans (hg.width _ hkb₂).symm)
      obtain ⟨he, rfl⟩ := renumbered_unique hg hkb' hkb₂ (f := fun _ s => s) hr' h6 (fun s s' hs => ⟨hkey.1, hs⟩)
      have hb : kb.2 = b := congrArg Prod.snd he
      rw [← hb, h1, Option.some.injEq] at h5
      exact ⟨h5.symm, rfl, hkey.2.symm⟩
    have hrs : r ∈ entriesOf g.samples := by rw [entriesOf_eq hgw.samples]; exact List.mem_of_getElem? h2
    have hps : p ∈ entriesOf g.properties := by rw [entriesOf_eq hgw.properties]; exact List.mem_of_getElem? hj
    refine entries_eq_of_broadcast hgw hC (hsizes kb.1 kb.2 hk1 hk2 hlist g h1 r hrs) (hrec kb hkb g h1) ⟨cs₀, x₀, h₀⟩ ?_
    intro cs x
    constructor
    · intro hx
      rcases (hpos r' cs _ x).1 ((hfull r' cs _ x).2 (.inl ⟨kb.1, kb.2, hk1, hk2, hlist, g, h1, r, p, hr', rfl, hx⟩)) with
        ⟨key, b, h3, h4, -, g₂, h5, r₂, p₂, h6, h7, h8⟩ | ⟨-, -, -, -, hno⟩
      · obtain ⟨rfl, rfl, rfl⟩ := hsame key b h3 h4 g₂ h5 r₂ p₂ h6 h7
        exact h8
      · exact absurd rfl (hno kb.1 kb.2 hk1 hk2 hlist g h1 r hrs p hps hr')
    · intro hx
      rcases (hfull r' cs _ x).1 ((hpos r' cs _ x).2 (.inl ⟨kb.1, kb.2, hk1, hk2, hlist, g, h1, r, p, hr', rfl, hx⟩)) with
        ⟨key, b, h3, h4, -, g₂, h5, r₂, p₂, h6, h7, h8⟩ | ⟨-, -, -, -, hno⟩
      · obtain ⟨rfl, rfl, rfl⟩ := hsame key b h3 h4 g₂ h5 r₂ p₂ h6 h7
        exact h8
      · exact absurd rfl (hno kb.1 kb.2 hk1 hk2 hlist g h1 r hrs p hps hr')
  · intro hsame r' cs p' x
    rw [hpos]
    refine or_congr ?_ Iff.rfl
    constructor
    · rintro ⟨key, b, h3, h4, hl, g, h5, r, p, h6, h7, h8⟩
      have hkb := mem_group.2 ⟨h3, h4⟩
      exact ⟨key, b, h3, h4, hl, g, h5, r, p, h6, h7,
        (hasBroadcastValue_iff (hwf _ hkb g h5) hC (hsame _ hkb hl g h5)).1 h8⟩
    · rintro ⟨key, b, h3, h4, hl, g, h5, r, p, h6, h7, h8⟩
      have hkb := mem_group.2 ⟨h3, h4⟩
      exact ⟨key, b, h3, h4, hl, g, h5, r, p, h6, h7,
        (hasBroadcastValue_iff (hwf _ hkb g h5) hC (hsame _ hkb hl g h5)).2 h8⟩

end

namespace Example

/-- Blocks with two directions and a single direction in their gradients, after moving `l` to samples and to properties. -/
def wideSamples : TensorMap NdArray := (unequal.keysToSamples ⟨false⟩ .insertion moveL true).1
def wideProperties : TensorMap NdArray := (unequal.keysToProperties ⟨false⟩ .insertion moveL true).1
/-- The same blocks in the other order. -/
def narrow : TensorMap NdArray := ⟨Labels.mk' ["k", "l"] [[0, 1], [0, 2]], [gradBlock, gradBlock2]⟩

end Example

/-- Non-vacuity: in a release build, blocks whose gradients have two directions and a single direction are merged. The
values of the second gradient are repeated for both directions. In the other order, this is not possible: moving keys is
an error. -/
example : TensorValid Example.unequal ∧ Example.moveL.FromBuilder ∧
    Example.unequal.keysToSamples ⟨false⟩ .insertion Example.moveL true = (Example.wideSamples, .ok ()) ∧
    Example.unequal.keysToProperties ⟨false⟩ .insertion Example.moveL true = (Example.wideProperties, .ok ()) ∧
    Example.unequal.blocks.map (fun b => (b.gradient "g").map fun g => g.data.shape) =
      [some [2, 2, 2, 3], some [2, 1, 2, 3]] ∧
    Example.wideSamples.blocks.map (fun b => (b.gradient "g").map fun g => entriesOf g.samples) =
      [some [[0, 7], [1, 7], [2, 3], [3, 3]]] ∧
    Example.wideSamples.blocks.map (fun b => (b.gradient "g").map fun g =>
      [g.data.get [1, 0, 1, 2], g.data.get [1, 1, 1, 2], g.data.get [0, 0, 1, 2], g.data.get [0, 1, 1, 2]]) =
      [some [5, 5, 5, 11]] ∧
    (Example.narrow.keysToSamples ⟨false⟩ .insertion Example.moveL true).2 =
      .err (.external 255 "calling eqs_array_t.move_samples_from failed") := by
  refine ⟨TensorMap.valid_of_rebuilds (by decide +kernel), Example.moveL_fromBuilder, Prod.ext rfl (by decide +kernel),
    Prod.ext rfl (by decide +kernel), by decide +kernel, by decide +kernel, by decide +kernel, by decide +kernel⟩

end Equistore
