import Verif.Lemmas.BackendArrays

/-! Operations on another type of arrays: merging blocks. -/

namespace Equistore
open Spec NdArray

variable {A : Type} [ArrayLike A] {view : A → NdArray}

theorem Spec.Implements.view_shape (h : Implements view) {b : BasicBlock A} (hb : BasicValid b) :
    (view b.data).shape =
      b.samples.rows.length :: (b.components.map fun c => c.rows.length) ++ [b.properties.rows.length] := by
  have hw := BasicValid.wf hb
  obtain ⟨shape, h1, h2⟩ := hb.shape
  rw [h.shape, Res.ok.injEq] at h1
  rw [h1]
  exact shapeMatches_eq hw.samples hw.components hw.properties h2

theorem moveOk_of_mapsTo (h : Implements view) {b : BasicBlock A} (hb : BasicValid b)
    {T : List LabelValue → List LabelValue → Prop} {outRows : List (List LabelValue)}
    {mapping : List SampleMapping} (hm : MapsTo T b.samples.rows outRows mapping)
    (hT : ∀ r s r', T r r' → T s r' → r = s) {s e p : Nat}
    (he : e = s + b.properties.rows.length) (hp : e ≤ p) {mid : List Nat}
    (hmid : (b.components.map fun c => c.rows.length) = mid) :
    MoveOk outRows.length mid p (view b.data) mapping s e := by
  refine ⟨by omega, hp, ⟨b.samples.rows.length, ?_, ?_⟩, ?_⟩
  · rw [h.view_shape hb, hmid, he, Nat.add_sub_cancel_left]
  · intro m hm'
    obtain ⟨_, r, r', h1, h2, _⟩ := hm.mem hm'
    exact ⟨(List.getElem?_eq_some_iff.1 h1).1, (List.getElem?_eq_some_iff.1 h2).1⟩
  · exact hm.nodup (Labels.Holds.nodup (BasicValid.wf hb).samples) fun r _ s _ r' => hT r s r'

/-- What is needed from the mappings and ranges to move arrays. -/
theorem group_items {w : Nat} {blocks : List (List LabelValue × TensorBlock A)} (hg : GroupOk w blocks)
    {addKey : Bool} {S P' : Labels} {mappings : List (List SampleMapping)}
    {ranges : List (Option (Nat × Nat))} {rename : List LabelValue → List LabelValue → List LabelValue}
    {listed : List LabelValue → Prop}
    (hm : List.Forall₂ (fun kb mapping => MapsTo (Extends addKey kb.1) kb.2.values.samples.rows
        S.rows mapping) blocks mappings)
    (hr : RangesOk rename listed P' blocks ranges) :
    ∀ it ∈ (blocks.zip mappings).zip ranges, BlockValid it.1.1.2 ∧ it.1 ∈ blocks.zip mappings ∧
      it.1.1 ∈ blocks ∧ MapsTo (Extends addKey it.1.1.1) it.1.1.2.values.samples.rows S.rows it.1.2 ∧
      ∀ s e, it.2 = some (s, e) → e = s + it.1.1.2.values.properties.rows.length ∧ e ≤ P'.rows.length := by
  intro it hit
  have h1 := (List.of_mem_zip (a := it.1) (b := it.2) hit).1
  have h2 := (List.of_mem_zip (a := it.1.1) (b := it.1.2) h1).1
  refine ⟨hg.valid _ h2, h1, h2, forall₂_zip hm _ h1, ?_⟩
  intro s e hse
  have hl := hm.length_eq
  obtain ⟨i, hi, rfl⟩ := List.getElem_of_mem hit
  rw [List.length_zip, List.length_zip] at hi
  have := (List.forall₂_iff_get.1 hr.1).2 i (by omega) (by omega) s e
  simp only [List.getElem_zip] at hse ⊢
  exact ⟨(this hse).1, (this hse).2.1⟩

/-- Moving the values of a gradient to arrays for gradients with components of the given sizes ends in the same way as moving
the arrays they stand for. -/
def GradientMaps (view : A → NdArray) (g : BasicBlock A) (sizes : List Nat) : Prop :=
  ∀ (T : List LabelValue → List LabelValue → Prop) (outRows : List (List LabelValue)) (gm : List SampleMapping),
    MapsTo T g.samples.rows outRows gm → (∀ r s r', T r r' → T s r' → r = s) →
    ∀ s e p, e = s + g.properties.rows.length → e ≤ p →
    ∀ output, (view output).shape = outRows.length :: sizes ++ [p] →
      Implements.MoveMaps view output g.data gm s e (outRows.length :: sizes ++ [p])

/-- Moving the gradients of some blocks to arrays with the components of the first one. -/
def GroupMaps (view : A → NdArray) (debug : Bool) (listed : List LabelValue → Prop)
    (blocks : List (List LabelValue × TensorBlock A)) : Prop :=
  ∀ first, blocks.head? = some first → ∀ q fg, first.2.gradient q = some fg → ∀ kb ∈ blocks, listed kb.1 →
    ∀ g, kb.2.gradient q = some g → (debug = true → g.components = fg.components) →
      GradientMaps view g (fg.components.map fun c => c.rows.length)

theorem mergeGradientsAlongProperties_map (h : Implements view) {build : Build} {w : Nat}
    {first : List LabelValue × TensorBlock A} {blocks : List (List LabelValue × TensorBlock A)}
    (hg : GroupOk w blocks) (hf : blocks.head? = some first) {addKey : Bool} {S P' : Labels}
    {mappings : List (List SampleMapping)} {ranges : List (Option (Nat × Nat))}
    {rename : List LabelValue → List LabelValue → List LabelValue} {listed : List LabelValue → Prop}
    (hm : List.Forall₂ (fun kb mapping => MapsTo (Extends addKey kb.1) kb.2.values.samples.rows
        S.rows mapping) blocks mappings)
    (hr : RangesOk rename listed P' blocks ranges)
    {gs : List (String × BasicBlock A)} (hgs : ∀ pg ∈ gs, first.2.gradient pg.1 = some pg.2)
    (hmoves : GroupMaps view build.debug listed blocks) (newBlock : TensorBlock A) :
    mergeGradientsAlongProperties build (first.2.mapData view) (blocks.map (mapPair view)) mappings ranges
        P'.rows.length (newBlock.mapData view) (gs.map fun pg => (pg.1, pg.2.mapData view)) =
      (mergeGradientsAlongProperties build first.2 blocks mappings ranges P'.rows.length newBlock gs).map
        (TensorBlock.mapData view) := by
  induction gs generalizing newBlock with
  | nil => rfl
  | cons pg gs ih =>
    obtain ⟨q, fg⟩ := pg
    have ih := ih (fun pg hpg => hgs pg (List.mem_cons_of_mem _ hpg))
    have hfg : first.2.gradient q = some fg := hgs _ List.mem_cons_self
    have hfm : first ∈ blocks := List.mem_of_mem_head? hf
    have hfv := (hg.valid first hfm).gradient_valid hfg
    have hitems := group_items hg hm hr
    rw [List.map_cons, mergeGradientsAlongProperties, mergeGradientsAlongProperties]
    refine Res.bind_same (mergeGradientSamples_map _ _ _ _ _) fun newSamples h1 => ?_
    obtain ⟨_, _, _, _, hms⟩ := mergeGradientSamples_ok
      (fun it hit g hg' => ((hg.valid _ (List.of_mem_zip (a := it.1) (b := it.2) hit).1).gradient_valid hg').wf.samples)
      (fun it hit => (forall₂_zip hm it hit).input) h1
    refine Res.bind_same (h.shape_map _) fun shape h2 => ?_
    have hshape : shape = fg.samples.rows.length :: (fg.components.map fun c => c.rows.length) ++
        [fg.properties.rows.length] := by
      rw [h.shape, Res.ok.injEq] at h2
      rw [← h2]
      exact h.view_shape hfv.basic
    refine Res.bind_same rfl fun _ _ => ?_
    refine Res.bind_same rfl fun count h3 => ?_
    rw [hms.holds.wf.count_eq, Res.ok.injEq] at h3
    refine Res.bind_comm view (h.create_map _ _) fun zeros h4 => ?_
    have hz : (view zeros).shape = newSamples.rows.length :: (fg.components.map fun c => c.rows.length) ++
        [P'.rows.length] := by
      obtain ⟨a', e1, e2, _⟩ := h.create first.2.values.data
        ((shape.set 0 count).set (shape.length - 1) P'.rows.length)
      rw [e1, Res.ok.injEq] at h4
      rw [← h4, e2, hshape, ← h3]
      simp
    have hit : ((blocks.map (mapPair view)).zip mappings).zip ranges =
        ((blocks.zip mappings).zip ranges).map fun it => ((mapPair view it.1.1, it.1.2), it.2) := by
      rw [zip_mapPair, zip_map_left']
    rw [hit]
    refine Res.bind_comm view (Implements.moveAllGradientProperties_map ?_ hz) fun data _ => ?_
    · intro it hit s e hse g hg' hdbg gm hgm
      obtain ⟨hv, hz1, hb, hmap, hrange⟩ := hitems it hit
      have hgv := hv.gradient_valid hg'
      obtain ⟨g2, h5, h6⟩ := hms.every it.1 hz1
      rw [hg', Option.some.injEq] at h5
      subst h5
      obtain ⟨gm', h7, h8⟩ := gradientMapping_ok (build := build) hms.holds hgv.wf.samples hmap.input h6
      rw [hgm, Res.ok.injEq] at h7
      subst h7
      have hlisted : listed it.1.1.1 := by
        have hl1 := hm.length_eq
        have hl2 := hr.2.length_eq
        obtain ⟨i, hi, rfl⟩ := List.getElem_of_mem hit
        rw [List.length_zip, List.length_zip] at hi
        have := (List.forall₂_iff_get.1 hr.2).2 i (by omega) (by omega)
        simp only [List.getElem_zip] at hse ⊢
        refine this.1 ?_
        simp [hse]
      have hout := hmap.nodup (Labels.Holds.nodup (BasicValid.wf hv.values).samples)
        (fun r _ s _ o h1 h2 => extends_inj h1 h2)
      exact hmoves first hf q fg hfg _ hb hlisted g hg' hdbg _ _ _ h8 (fun r s r' h9 h10 => translates_inj hout h9 h10)
        s e _ (by rw [hgv.properties]; exact (hrange s e hse).1) (hrange s e hse).2
    · refine Res.bind_comm (TensorBlock.mapData view) (addGradientExpect_map h _ _ _ _ _) fun nb _ => ?_
      exact ih nb

theorem Res.expectOk_map {α β : Type} (f : α → β) (x : Res α) (m : String) :
    Res.expectOk (x.map f) m = (Res.expectOk x m).map f := by
  cases x <;> rfl

/-- The gradients of the first block, in any order. -/
theorem order_gradients {hash : HashOrder} {b : TensorBlock A} (hb : BlockValid b) :
    ∀ pg ∈ hash.order b.gradients, b.gradient pg.1 = some pg.2 := by
  intro pg hpg
  rw [gradient_eq_some hb.names]
  exact (hash.perm _).mem_iff.1 hpg

/-- Blocks have the same components for each gradient. -/
def GroupComponentsAgree (blocks : List (List LabelValue × TensorBlock A)) : Prop :=
  ∀ q, ∀ a ∈ blocks, ∀ b ∈ blocks, ∀ g g', a.2.gradient q = some g → b.2.gradient q = some g' →
    g.components = g'.components

/-- Blocks have components of the same sizes for each gradient. -/
def GroupSizesAgree (blocks : List (List LabelValue × TensorBlock A)) : Prop :=
  ∀ q, ∀ a ∈ blocks, ∀ b ∈ blocks, ∀ g g', a.2.gradient q = some g → b.2.gradient q = some g' →
    (g.components.map fun c => c.rows.length) = g'.components.map fun c => c.rows.length

theorem groupMaps_of_sizes (h : Implements view) {w : Nat} {blocks : List (List LabelValue × TensorBlock A)}
    (hg : GroupOk w blocks) {debug : Bool} {listed : List LabelValue → Prop}
    (hcomp : debug = true ∨ GroupSizesAgree blocks) : GroupMaps view debug listed blocks := by
  intro first hf q fg hfg kb hkb _ g hgq hdbg T outRows gm hm hT s e p he hp output ho
  have hc : (g.components.map fun c => c.rows.length) = fg.components.map fun c => c.rows.length := by
    rcases hcomp with hc | hc
    · exact congrArg (List.map fun c => c.rows.length) (hdbg hc)
    · exact hc q kb hkb first (List.mem_of_mem_head? hf) g fg hgq hfg
  exact h.moveMaps (moveOk_of_mapsTo h ((hg.valid kb hkb).gradient_valid hgq).basic hm hT he hp hc) ho

theorem mergeBlocksAlongProperties_map (h : Implements view) {build : Build} {hash : HashOrder}
    (hh : OrderByName hash) {user : Option Labels} {w : Nat} (hu : UserOk w user) {extracted : List String}
    {sort : Bool} {blocks : List (List LabelValue × TensorBlock A)} (hg : GroupOk w blocks)
    (hmoves : GroupMaps view build.debug (Listed user) blocks) :
    mergeBlocksAlongProperties build hash user extracted sort (blocks.map (mapPair view)) =
      (mergeBlocksAlongProperties build hash user extracted sort blocks).map (TensorBlock.mapData view) := by
  unfold mergeBlocksAlongProperties
  rw [List.head?_map]
  refine Res.bind_comm (mapPair view) (Res.expect_map _ _ _) fun first hf => ?_
  rw [Res.expect_eq_ok] at hf
  have hfm : first ∈ blocks := List.mem_of_mem_head? hf
  have hfv := hg.valid first hfm
  have hfw := BasicValid.wf hfv.values
  simp only [mapPair, TensorBlock.mapData_values, BasicBlock.mapData_samples,
    BasicBlock.mapData_components, BasicBlock.mapData_properties, BasicBlock.mapData_data]
  change (_ >>= fun _ => _) = _
  refine Res.bind_same (checkMergeProperties_map _ _ _ _) fun _ h1 => ?_
  rw [checkMergeProperties_iff] at h1
  obtain ⟨rest, hrest⟩ : ∃ rest, blocks = first :: rest := by
    cases blocks with
    | nil => simp at hf
    | cons a l => simp only [List.head?_cons, Option.some.injEq] at hf; exact ⟨l, by rw [hf]⟩
  refine Res.bind_same (mergeSamples_map _ _ _ _) ?_
  rintro ⟨S, mappings⟩ h2
  have hmm : S.Holds first.2.values.samples.names (mergedRows sort false blocks) ∧
      List.Forall₂ (fun kb mapping => MapsTo (Extends false kb.1) kb.2.values.samples.rows
        (mergedRows sort false blocks) mapping) blocks mappings := by
    subst hrest
    refine mergeSamples_ok (Labels.Holds.names_pos hfw.samples)
      (fun kb hkb => (BasicValid.wf (hg.valid kb hkb).values).samples) ?_ h2
    rw [Labels.Holds.size_eq hfw.samples]
    simp
  have hm := hmm.2
  rw [← hmm.1.rows_eq] at hm
  simp only
  refine Res.bind_same (newPropertyEntries_map _ _ _ _) fun entries h3 => ?_
  obtain ⟨h3', _⟩ := newPropertyEntries_eq hu hg (by rw [hrest]; simp) (fun hu kb hkb => (h1 kb hkb).2 hu)
  rw [h3', Res.ok.injEq] at h3
  subst h3
  refine Res.bind_same rfl fun P' h4 => ?_
  have hph := (Labels.build_eq_ok (by
    have := Labels.Holds.names_pos hfw.properties
    rw [List.length_append]; omega)).1 h4
  refine Res.bind_same rfl fun n h5 => ?_
  rw [hph.wf.count_eq, Res.ok.injEq] at h5
  subst h5
  refine Res.bind_same (h.shape_map _) fun shape h6 => ?_
  refine Res.bind_same rfl fun _ _ => ?_
  refine Res.bind_same rfl fun count h7 => ?_
  rw [hmm.1.wf.count_eq, Res.ok.injEq] at h7
  refine Res.bind_comm view (h.create_map _ _) fun zeros h8 => ?_
  have hz : (view zeros).shape = S.rows.length ::
      (first.2.values.components.map fun c => c.rows.length) ++ [P'.rows.length] := by
    obtain ⟨a', e1, e2, _⟩ := h.create first.2.values.data
      ((shape.set 0 count).set (shape.length - 1) P'.rows.length)
    rw [e1, Res.ok.injEq] at h8
    rw [h.shape, Res.ok.injEq, h.view_shape hfv.values] at h6
    rw [← h8, e2, ← h6, ← h7]
    simp
  refine Res.bind_same (propertyRanges_map _ _ _) fun ranges h9 => ?_
  have hr := propertyRange_spec hg hu hph (fun hu kb hkb => (h1 kb hkb).2 hu) h9
  have hitems := group_items hg hm hr
  have hz1 : ((blocks.map fun b => b.2.values.data).zip mappings).zip ranges =
      ((blocks.zip mappings).zip ranges).map fun it => ((it.1.1.2.values.data, it.1.2), it.2) := by
    rw [zip_map_left', zip_map_left']
  have hz2 : (((blocks.map (mapPair view)).map fun b => b.2.values.data).zip mappings).zip ranges =
      (((blocks.map fun b => b.2.values.data).zip mappings).zip ranges).map
        fun it => ((view it.1.1, it.1.2), it.2) := by
    rw [List.map_map, zip_map_left', zip_map_left', zip_map_left', zip_map_left', List.map_map]
    rfl
  rw [hz2]
  refine Res.bind_comm view (h.moveAllProperties_map ?_ hz) fun data _ => ?_
  · rw [hz1]
    intro it' hit' s e hse
    obtain ⟨it, hit, rfl⟩ := List.mem_map.1 hit'
    obtain ⟨hv, _, hb, hmap, hrange⟩ := hitems it hit
    exact moveOk_of_mapsTo h hv.values hmap (fun r s r' h9 h10 => extends_inj h9 h10)
      (hrange s e hse).1 (hrange s e hse).2 (by rw [(h1 _ hb).1])
  · refine Res.bind_comm (TensorBlock.mapData view) ?_ fun nb _ => ?_
    · rw [TensorBlock.new_map h, Res.expectOk_map]
    · rw [TensorBlock.mapData_gradients, hh]
      exact mergeGradientsAlongProperties_map h hg hf hm hr (order_gradients hfv) hmoves nb

theorem mergeBlocksAlongSamples_map (h : Implements view) {build : Build} {hash : HashOrder}
    (hh : OrderByName hash) {w : Nat} {extracted : List String} (hw : extracted.length = w)
    {sort : Bool} {blocks : List (List LabelValue × TensorBlock A)} (hg : GroupOk w blocks)
    (hpos : 0 < w) (hmoves : GroupMaps view build.debug (fun _ => True) blocks) :
    mergeBlocksAlongSamples build hash extracted sort (blocks.map (mapPair view)) =
      (mergeBlocksAlongSamples build hash extracted sort blocks).map (TensorBlock.mapData view) := by
  unfold mergeBlocksAlongSamples
  rw [List.head?_map]
  refine Res.bind_comm (mapPair view) (Res.expect_map _ _ _) fun first hf => ?_
  rw [Res.expect_eq_ok] at hf
  have hfm : first ∈ blocks := List.mem_of_mem_head? hf
  have hfv := hg.valid first hfm
  have hfw := BasicValid.wf hfv.values
  simp only [mapPair, TensorBlock.mapData_values, BasicBlock.mapData_samples,
    BasicBlock.mapData_components, BasicBlock.mapData_properties, BasicBlock.mapData_data]
  refine Res.bind_same (checkMergeSamples_map _ _ _) fun _ h1 => ?_
  rw [checkMergeSamples_iff] at h1
  obtain ⟨rest, hrest⟩ : ∃ rest, blocks = first :: rest := by
    cases blocks with
    | nil => simp at hf
    | cons a l => simp only [List.head?_cons, Option.some.injEq] at hf; exact ⟨l, by rw [hf]⟩
  refine Res.bind_same (mergeSamples_map _ _ _ _) ?_
  rintro ⟨S, mappings⟩ h2
  have hmm : S.Holds (first.2.values.samples.names ++ extracted) (mergedRows sort true blocks) ∧
      List.Forall₂ (fun kb mapping => MapsTo (Extends true kb.1) kb.2.values.samples.rows
        (mergedRows sort true blocks) mapping) blocks mappings := by
    subst hrest
    refine mergeSamples_ok (by rw [List.length_append]; omega)
      (fun kb hkb => (BasicValid.wf (hg.valid kb hkb).values).samples) ?_ h2
    rw [List.length_append, Labels.Holds.size_eq hfw.samples]
    have : first.2.values.samples.names.length < first.2.values.samples.names.length + extracted.length := by
      omega
    simp [this]
  have hm := hmm.2
  rw [← hmm.1.rows_eq] at hm
  simp only
  refine Res.bind_same (h.shape_map _) fun shape h6 => ?_
  refine Res.bind_same rfl fun _ _ => ?_
  refine Res.bind_same rfl fun count h7 => ?_
  rw [hmm.1.wf.count_eq, Res.ok.injEq] at h7
  refine Res.bind_comm view (h.create_map _ _) fun zeros h8 => ?_
  have hz : (view zeros).shape = S.rows.length ::
      (first.2.values.components.map fun c => c.rows.length) ++ [first.2.values.properties.rows.length] := by
    obtain ⟨a', e1, e2, _⟩ := h.create first.2.values.data (shape.set 0 count)
    rw [e1, Res.ok.injEq] at h8
    rw [h.shape, Res.ok.injEq, h.view_shape hfv.values] at h6
    rw [← h8, e2, ← h6, ← h7]
    simp
  refine Res.bind_same rfl fun stop h9 => ?_
  rw [hfw.properties.count_eq, Res.ok.injEq] at h9
  subst h9
  have hp : ∀ kb ∈ blocks, kb.2.values.properties = first.2.values.properties := fun kb hkb => (h1 kb hkb).2
  have hr := fullRanges_ok hp
  have hitems := group_items hg hm hr
  have hl := hm.length_eq
  rw [moveAllSamples_eq, moveAllSamples_eq]
  have hzr : ∀ {B : Type} (l : List B), l.length = blocks.length → l.zip (fullRanges blocks first.2.values.properties.rows.length) =
      l.map fun it => (it, some (0, first.2.values.properties.rows.length)) := fun l h => zip_replicate h
  rw [← hzr ((blocks.map fun b => b.2.values.data).zip mappings) (by rw [List.length_zip, List.length_map]; omega),
    ← hzr (((blocks.map (mapPair view)).map fun b => b.2.values.data).zip mappings)
      (by rw [List.length_zip, List.length_map, List.length_map]; omega)]
  generalize hrg : fullRanges blocks first.2.values.properties.rows.length = ranges at hr hitems
  have hz1 : ((blocks.map fun b => b.2.values.data).zip mappings).zip ranges =
      ((blocks.zip mappings).zip ranges).map fun it => ((it.1.1.2.values.data, it.1.2), it.2) := by
    rw [zip_map_left', zip_map_left']
  have hz2 : (((blocks.map (mapPair view)).map fun b => b.2.values.data).zip mappings).zip ranges =
      (((blocks.map fun b => b.2.values.data).zip mappings).zip ranges).map
        fun it => ((view it.1.1, it.1.2), it.2) := by
    rw [List.map_map, zip_map_left', zip_map_left', zip_map_left', zip_map_left', List.map_map]
    rfl
  rw [hz2]
  refine Res.bind_comm view (h.moveAllProperties_map ?_ hz) fun data _ => ?_
  · rw [hz1]
    intro it' hit' s e hse
    obtain ⟨it, hit, rfl⟩ := List.mem_map.1 hit'
    obtain ⟨hv, _, hb, hmap, hrange⟩ := hitems it hit
    exact moveOk_of_mapsTo h hv.values hmap (fun r s r' h9 h10 => extends_inj h9 h10)
      (hrange s e hse).1 (hrange s e hse).2 (by rw [(h1 _ hb).1])
  · refine Res.bind_comm (TensorBlock.mapData view) ?_ fun nb _ => ?_
    · rw [TensorBlock.new_map h, Res.expectOk_map]
    · rw [TensorBlock.mapData_gradients, hh]
      have hgv : ∀ pg ∈ hash.order first.2.gradients, GradientValid first.2.values pg.2 := by
        intro pg hpg
        exact hfv.gradient_valid (order_gradients hfv pg hpg)
      have hlast : ∀ pg ∈ hash.order first.2.gradients, ∃ shape n, ArrayLike.shape pg.2.data = .ok shape ∧
          2 ≤ shape.length ∧ shape[shape.length - 1]? = some n ∧ n = first.2.values.properties.rows.length := by
        intro pg hpg
        have hv := hgv pg hpg
        refine ⟨(view pg.2.data).shape, _, h.shape _, ?_, ?_, rfl⟩
        · rw [h.view_shape hv.basic]; simp
        · rw [h.view_shape hv.basic, hv.properties]; simp
      rw [mergeGradientsAlongSamples_eq hl hlast, mergeGradientsAlongSamples_eq (by rw [List.length_map]; exact hl)]
      · rw [List.length_map]
        have := mergeGradientsAlongProperties_map (build := build) h hg hf hm hr (order_gradients (hash := hash) hfv)
          hmoves nb
        rw [← hrg] at this
        exact this
      · intro pg' hpg'
        obtain ⟨pg, hpg, rfl⟩ := List.mem_map.1 hpg'
        obtain ⟨shape, n, e1, e2⟩ := hlast pg hpg
        exact ⟨shape, n, (h.shape_map _).trans e1, e2⟩

end Equistore
