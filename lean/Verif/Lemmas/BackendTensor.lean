import Verif.Lemmas.BackendMerge

/-! Operations on another type of arrays: tensor maps. -/

namespace Equistore
open Spec NdArray

variable {A : Type} [ArrayLike A] {view : A → NdArray}

/-! ### `components_to_properties` -/

theorem Act.bind_map {σ σ' α β : Type} {f : σ → σ'} {x' : Act σ' α} {x : Act σ α} {g' : α → Act σ' β}
    {g : α → Act σ β} {s : σ} {s' : σ'} (hs : s' = f s) (hx : x' s' = (f (x s).1, (x s).2))
    (hg : ∀ a, x s = ((x s).1, .ok a) → g' a (f (x s).1) = (f (g a (x s).1).1, (g a (x s).1).2)) :
    (x' >>= g') s' = (f ((x >>= g) s).1, ((x >>= g) s).2) := by
  rw [Act.bind_apply, Act.bind_apply, hx]
  rcases hr : x s with ⟨s₁, r | r | r⟩
  · rw [hr] at hg
    exact hg r rfl
  · rfl
  · rfl

theorem Act.lift_map {σ σ' α β : Type} {f : σ → σ'} {x' x : Res α} {g' : α → Act σ' β} {g : α → Act σ β}
    {s : σ} {s' : σ'} (hs : s' = f s) (hx : x' = x)
    (hg : ∀ a, x = .ok a → g' a s' = (f (g a s).1, (g a s).2)) :
    (Act.lift x' >>= g') s' = (f ((Act.lift x >>= g) s).1, ((Act.lift x >>= g) s).2) := by
  subst hx hs
  cases x' with
  | ok a => exact hg a rfl
  | err e => rfl
  | panic m => rfl

theorem BasicBlock.componentsToProperties_map (h : Implements view) {vars : List String} {b : BasicBlock A}
    (hb : BasicValid b) :
    BasicBlock.componentsToProperties vars (b.mapData view) =
      ((BasicBlock.componentsToProperties vars b).1.mapData view,
        (BasicBlock.componentsToProperties vars b).2) := by
  have hw := BasicValid.wf hb
  unfold BasicBlock.componentsToProperties
  rw [Act.get_bind, Act.get_bind]
  simp only [BasicBlock.mapData_components]
  cases hf : b.components.findIdx? (fun c => c.names == vars) with
  | none => rfl
  | some axis =>
    obtain ⟨pre, c, post, hs, rfl, hc, -⟩ := findIdx?_split hf
    have hcomp : b.components[pre.length]? = some c := by rw [hs]; simp
    have hcw := hw.components c (by rw [hs]; simp)
    simp only [hcomp, Res.expect_some]
    refine Act.lift_map rfl rfl fun c' hc' => ?_
    cases hc'
    refine Act.bind_map (f := BasicBlock.mapData view) rfl rfl fun _ _ => ?_
    refine Act.lift_map rfl rfl fun P' hP' => ?_
    refine Act.lift_map rfl (h.shape_map _) fun shape h1 => ?_
    have hshape : shape = (view b.data).shape := by
      rw [h.shape, Res.ok.injEq] at h1; exact h1.symm
    refine Act.lift_map rfl rfl fun _ h2 => ?_
    refine Act.lift_map rfl rfl fun count h3 => ?_
    refine Act.lift_map rfl rfl fun _ h4 => ?_
    have hH := (componentPropertyLabels_iff hcw hw.properties).1 hP'
    obtain ⟨shape', e1, e2⟩ := hb.shape
    rw [h1, Res.ok.injEq] at e1
    subst e1
    rw [hs] at e2
    obtain ⟨n₀, s₁, nc, s₂, np, hsp⟩ := ShapeSplit.exists e2
    have hlen : s₁.length = pre.length := hsp.before.length_eq
    have hswap : SwapAllowed (view b.data).shape (pre.length + 1) (shape.length - 1 - 1) := by
      rw [← hshape, hsp.shape_eq]
      constructor <;> simp <;> omega
    have hcount : count = nc * np := by
      have e1 := hsp.component
      have e2 := hsp.properties
      rw [Labels.Holds.count_eq hcw, Res.ok.injEq] at e1
      rw [Labels.Holds.count_eq hw.properties, Res.ok.injEq] at e2
      rw [Labels.Holds.count_eq (Labels.Holds.wf hH), hH.rows_eq, componentRows_length, e1, e2,
        Res.ok.injEq] at h3
      exact h3.symm
    refine Act.bind_map (f := BasicBlock.mapData view) rfl ?_ fun _ h5 => ?_
    · unfold Act.focus
      have := h.swapAxes_map b.data (pre.length + 1) (shape.length - 1 - 1) hswap
      simp only [Act.set_apply, BasicBlock.mapData_data]
      rw [this]
      rfl
    · obtain ⟨a', f1, f2, f3⟩ := h.swapAxes b.data (pre.length + 1) (shape.length - 1 - 1) hswap
      refine Act.bind_map (f := BasicBlock.mapData view) rfl ?_ fun _ h6 => rfl
      have hre : ReshapeAllowed (view a').shape ((shape.set (shape.length - 1) count).eraseIdx (pre.length + 1)) := by
        unfold ReshapeAllowed
        rw [f2, hsp.newShape, hcount, shapeSize_moved, ← hshape, hsp.shape_eq, hlen]
      have := h.reshape_map a' _ hre
      unfold Act.focus
      simp only [Act.set_apply, BasicBlock.mapData_data, f1]
      rw [this]
      rfl

theorem TensorBlock.setGradient_map (f : A → NdArray) (name : String) (g : BasicBlock A) (b : TensorBlock A) :
    TensorBlock.setGradient name (g.mapData f) (b.mapData f) = (TensorBlock.setGradient name g b).mapData f := by
  unfold TensorBlock.setGradient TensorBlock.mapData
  simp only [List.map_map, TensorBlock.mk.injEq, true_and, and_true]
  apply List.map_congr_left
  rintro ⟨n, old⟩ _
  by_cases hn : n = name
  · simp [hn]; rfl
  · simp [hn]

theorem TensorBlock.gradientsComponentsToProperties_map (h : Implements view) {vars : List String}
    {gs : List (String × BasicBlock A)} (hgs : ∀ pg ∈ gs, BasicValid pg.2) (b : TensorBlock A) :
    TensorBlock.gradientsComponentsToProperties vars (gs.map fun pg => (pg.1, pg.2.mapData view)) (b.mapData view) =
      ((TensorBlock.gradientsComponentsToProperties vars gs b).1.mapData view,
        (TensorBlock.gradientsComponentsToProperties vars gs b).2) := by
  induction gs generalizing b with
  | nil => rfl
  | cons pg gs ih =>
    obtain ⟨name, g⟩ := pg
    rw [List.map_cons, gradientsComponentsToProperties, gradientsComponentsToProperties]
    refine Act.bind_map (f := TensorBlock.mapData view) rfl ?_ fun _ _ => ?_
    · unfold Act.focus
      rw [BasicBlock.componentsToProperties_map h (hgs _ List.mem_cons_self)]
      simp only [TensorBlock.setGradient_map]
    · exact ih (fun pg hpg => hgs pg (List.mem_cons_of_mem _ hpg)) _

theorem TensorBlock.componentsToProperties_map (h : Implements view) {hash : HashOrder} (hh : OrderByName hash)
    {vars : List String} {b : TensorBlock A} (hb : BlockValid b) :
    TensorBlock.componentsToProperties hash vars (b.mapData view) =
      ((TensorBlock.componentsToProperties hash vars b).1.mapData view,
        (TensorBlock.componentsToProperties hash vars b).2) := by
  unfold TensorBlock.componentsToProperties
  split
  · rfl
  · refine Act.bind_map (f := TensorBlock.mapData view) rfl ?_ fun _ h1 => ?_
    · unfold Act.focus
      simp only [TensorBlock.mapData_values]
      rw [BasicBlock.componentsToProperties_map h hb.values]
      rfl
    · rw [Act.get_bind, Act.get_bind, TensorBlock.mapData_gradients, hh]
      refine TensorBlock.gradientsComponentsToProperties_map h ?_ _
      intro pg hpg
      have : pg ∈ b.gradients := (hash.perm _).mem_iff.1 hpg
      exact (hb.gradients pg.1 pg.2 this).basic

theorem TensorMap.componentsToProperties_map (h : Implements view) {hash : HashOrder} (hh : OrderByName hash)
    {vars : List String} {t : TensorMap A} (ht : ∀ b ∈ t.blocks, BlockValid b) :
    TensorMap.componentsToProperties hash vars (t.mapData view) =
      ((TensorMap.componentsToProperties hash vars t).1.mapData view,
        (TensorMap.componentsToProperties hash vars t).2) := by
  have key : ∀ bs : List (TensorBlock A), (∀ b ∈ bs, BlockValid b) →
      componentsToPropertiesLoop hash vars (bs.map (TensorBlock.mapData view)) =
        ((componentsToPropertiesLoop hash vars bs).1.map (TensorBlock.mapData view),
          (componentsToPropertiesLoop hash vars bs).2) := by
    intro bs hbs
    induction bs with
    | nil => rfl
    | cons b bs ih =>
      rw [List.map_cons, componentsToPropertiesLoop, componentsToPropertiesLoop,
        TensorBlock.componentsToProperties_map h hh (hbs b List.mem_cons_self)]
      have ih := ih fun b hb => hbs b (List.mem_cons_of_mem _ hb)
      rcases TensorBlock.componentsToProperties hash vars b with ⟨b', r | r | r⟩
      · simp only [ih, List.map_cons]
      · rfl
      · rfl
  unfold TensorMap.componentsToProperties
  split
  · rfl
  · unfold Act.focus
    simp only [TensorMap.mapData_blocks]
    rw [key _ ht]
    rfl

/-! ### `keys_to_samples` and `keys_to_properties` -/

theorem GradientComponentsAgree.sizes {t : TensorMap A} {moved : List String} (h : GradientComponentsAgree t moved) :
    GradientSizesAgree t moved :=
  fun pairs hp key' q a ha b hb g g' hg hg' => by rw [h pairs hp key' q a ha b hb g g' hg hg']

theorem groupSizesAgree {t : TensorMap A} (ht : TensorValid t) {moved : List String}
    (h : GradientSizesAgree t moved) (key' : List LabelValue) :
    GroupSizesAgree ((group t.keys.names moved (t.keys.rows.zip t.blocks) key').map
      (toMerge t.keys.names moved)) := by
  intro q a ha b hb g g' hg hg'
  obtain ⟨a, ha', rfl⟩ := List.mem_map.1 ha
  obtain ⟨b, hb', rfl⟩ := List.mem_map.1 hb
  have h1 := h _ ht.iter_eq key' q a ha' b hb' g g' hg hg'
  have key : ∀ (kb : List LabelValue × TensorBlock A) (gr : BasicBlock A),
      kb ∈ group t.keys.names moved (t.keys.rows.zip t.blocks) key' → kb.2.gradient q = some gr →
      (gr.components.map fun c => (entriesOf c).length) = gr.components.map fun c => c.rows.length := by
    intro kb gr hkb hgr
    have hb := (List.of_mem_zip (a := kb.1) (b := kb.2) (List.mem_filter.1 hkb).1).2
    have hv := (ht.blocks _ hb).gradient_valid hgr
    refine List.map_congr_left fun c hc => ?_
    unfold entriesOf
    rw [Labels.Holds.iter_eq (hv.wf.components c hc)]
  rw [← key a g ha' hg, ← key b g' hb' hg']
  exact h1

theorem mergeForKeys_map {t : TensorMap A} (ht : TensorValid t) {moved : List String} {newKeys : Labels}
    (hnew : newKeys.Holds (remainingNames t.keys.names moved)
        (if t.keys.names.filter (fun n => !moved.contains n) = [] then [[0]]
          else indexSet (t.keys.rows.map (remainingKey t.keys.names moved))))
    {merge' : List (List LabelValue × TensorBlock NdArray) → Res (TensorBlock NdArray)}
    {merge : List (List LabelValue × TensorBlock A) → Res (TensorBlock A)}
    (hmerge : ∀ key', merge' (((group t.keys.names moved (t.keys.rows.zip t.blocks) key').map
          (toMerge t.keys.names moved)).map (mapPair view)) =
      (merge ((group t.keys.names moved (t.keys.rows.zip t.blocks) key').map
          (toMerge t.keys.names moved))).map (TensorBlock.mapData view)) :
    mergeForKeys (t.mapData view) newKeys (movedPositions t.keys.names moved) merge' =
      (mergeForKeys t newKeys (movedPositions t.keys.names moved) merge).map
        (List.map (TensorBlock.mapData view)) := by
  rw [mergeForKeys_eq ht.keys_wf ht.length_eq hnew]
  have := mergeForKeys_eq (t := t.mapData view) (moved := moved) (newKeys := newKeys)
    (by exact ht.keys_wf) (by simpa using ht.length_eq) hnew merge'
  rw [TensorMap.mapData_keys] at this
  rw [this]
  refine Res.mapM_comm fun key' _ => ?_
  rw [TensorMap.mapData_blocks, zip_mapData, group_map, toMerge_map, hmerge]

theorem TensorMap.keysToSamplesResult_map (h : Implements view) {build : Build} {hash : HashOrder}
    (hh : OrderByName hash) {keysToMove : Labels} (hm : keysToMove.FromBuilder) {sort : Bool}
    {t : TensorMap A} (ht : TensorValid t)
    (hmoves : keysToMove.WF → (∀ n ∈ keysToMove.names, n ∈ t.keys.names) → ∀ key',
      GroupMaps view build.debug (fun _ => True) ((group t.keys.names keysToMove.names (t.keys.rows.zip t.blocks) key').map
        (toMerge t.keys.names keysToMove.names))) :
    (t.mapData view).keysToSamplesResult build hash keysToMove sort =
      (t.keysToSamplesResult build hash keysToMove sort).map
        fun kb => (kb.1, kb.2.map (TensorBlock.mapData view)) := by
  unfold TensorMap.keysToSamplesResult
  refine Res.bind_same rfl fun count h1 => ?_
  have hw := hm.wf (Labels.count_ok_ne h1)
  refine Res.bind_same rfl fun _ h2 => ?_
  refine Res.bind_same rfl ?_
  rintro ⟨newKeys, positions⟩ h3
  by_cases hs : ∀ n ∈ keysToMove.names, n ∈ t.keys.names
  · obtain ⟨newKeys', h4, h5⟩ := removeVariablesFromKeys_spec ht.keys_wf hs
    rw [h3, Res.ok.injEq, Prod.mk.injEq] at h4
    obtain ⟨rfl, rfl⟩ := h4
    refine Res.bind_comm _ (mergeForKeys_map ht h5 fun key' => ?_) fun _ _ => rfl
    exact mergeBlocksAlongSamples_map h hh rfl (group_ok ht (Labels.Holds.names_ok hw).2 hs key')
      (Labels.Holds.names_pos hw) (hmoves hw hs key')
  · obtain ⟨m, h4⟩ := removeVariablesFromKeys_missing hs
    rw [h3] at h4; cases h4

theorem TensorMap.keysToPropertiesResult_map (h : Implements view) {build : Build} {hash : HashOrder}
    (hh : OrderByName hash) {keysToMove : Labels} (hm : keysToMove.FromBuilder) {sort : Bool}
    {t : TensorMap A} (ht : TensorValid t)
    (hmoves : keysToMove.WF → (∀ n ∈ keysToMove.names, n ∈ t.keys.names) → ∀ key',
      GroupMaps view build.debug (Listed (userKeys keysToMove)) ((group t.keys.names keysToMove.names (t.keys.rows.zip t.blocks) key').map
        (toMerge t.keys.names keysToMove.names))) :
    (t.mapData view).keysToPropertiesResult build hash keysToMove sort =
      (t.keysToPropertiesResult build hash keysToMove sort).map
        fun kb => (kb.1, kb.2.map (TensorBlock.mapData view)) := by
  unfold TensorMap.keysToPropertiesResult
  refine Res.bind_same rfl ?_
  rintro ⟨newKeys, positions⟩ h3
  refine Res.bind_same rfl fun count h1 => ?_
  have hw := hm.wf (Labels.count_ok_ne h1)
  by_cases hs : ∀ n ∈ keysToMove.names, n ∈ t.keys.names
  · obtain ⟨newKeys', h4, h5⟩ := removeVariablesFromKeys_spec ht.keys_wf hs
    rw [h3, Res.ok.injEq, Prod.mk.injEq] at h4
    obtain ⟨rfl, rfl⟩ := h4
    have hu : (if count = 0 then none else some keysToMove) = userKeys keysToMove := by
      rw [hw.count_eq, Res.ok.injEq] at h1
      unfold userKeys
      rw [← h1]
      simp [List.length_eq_zero_iff]
    simp only [hu]
    refine Res.bind_comm _ (mergeForKeys_map ht h5 fun key' => ?_) fun _ _ => rfl
    exact mergeBlocksAlongProperties_map h hh (userKeys_ok hw) (group_ok ht (Labels.Holds.names_ok hw).2 hs key')
      (hmoves hw hs key')
  · obtain ⟨m, h4⟩ := removeVariablesFromKeys_missing hs
    rw [h3] at h4; cases h4

theorem TensorMap.keysToSamples_map_of (h : Implements view) {build : Build} {hash : HashOrder}
    (hh : OrderByName hash) {keysToMove : Labels} (hm : keysToMove.FromBuilder) {sort : Bool}
    {t : TensorMap A} (ht : TensorValid t)
    (hmoves : keysToMove.WF → (∀ n ∈ keysToMove.names, n ∈ t.keys.names) → ∀ key',
      GroupMaps view build.debug (fun _ => True) ((group t.keys.names keysToMove.names (t.keys.rows.zip t.blocks) key').map
        (toMerge t.keys.names keysToMove.names))) :
    (t.mapData view).keysToSamples build hash keysToMove sort =
      ((t.keysToSamples build hash keysToMove sort).1.mapData view,
        (t.keysToSamples build hash keysToMove sort).2) := by
  rw [keysToSamples_eq, keysToSamples_eq, keysToSamplesResult_map h hh hm ht hmoves]
  cases t.keysToSamplesResult build hash keysToMove sort <;> rfl

theorem TensorMap.keysToProperties_map_of (h : Implements view) {build : Build} {hash : HashOrder}
    (hh : OrderByName hash) {keysToMove : Labels} (hm : keysToMove.FromBuilder) {sort : Bool}
    {t : TensorMap A} (ht : TensorValid t)
    (hmoves : keysToMove.WF → (∀ n ∈ keysToMove.names, n ∈ t.keys.names) → ∀ key',
      GroupMaps view build.debug (Listed (userKeys keysToMove)) ((group t.keys.names keysToMove.names (t.keys.rows.zip t.blocks) key').map
        (toMerge t.keys.names keysToMove.names))) :
    (t.mapData view).keysToProperties build hash keysToMove sort =
      ((t.keysToProperties build hash keysToMove sort).1.mapData view,
        (t.keysToProperties build hash keysToMove sort).2) := by
  rw [keysToProperties_eq, keysToProperties_eq, keysToPropertiesResult_map h hh hm ht hmoves]
  cases t.keysToPropertiesResult build hash keysToMove sort <;> rfl

theorem TensorMap.keysToSamples_map (h : Implements view) {build : Build} {hash : HashOrder}
    (hh : OrderByName hash) {keysToMove : Labels} (hm : keysToMove.FromBuilder) {sort : Bool}
    {t : TensorMap A} (ht : TensorValid t)
    (hcomp : build.debug = true ∨ GradientSizesAgree t keysToMove.names) :
    (t.mapData view).keysToSamples build hash keysToMove sort =
      ((t.keysToSamples build hash keysToMove sort).1.mapData view,
        (t.keysToSamples build hash keysToMove sort).2) :=
  keysToSamples_map_of h hh hm ht fun hw hs key' => groupMaps_of_sizes h (group_ok ht (Labels.Holds.names_ok hw).2 hs key')
    (hcomp.imp_right fun hc => groupSizesAgree ht hc key')

theorem TensorMap.keysToProperties_map (h : Implements view) {build : Build} {hash : HashOrder}
    (hh : OrderByName hash) {keysToMove : Labels} (hm : keysToMove.FromBuilder) {sort : Bool}
    {t : TensorMap A} (ht : TensorValid t)
    (hcomp : build.debug = true ∨ GradientSizesAgree t keysToMove.names) :
    (t.mapData view).keysToProperties build hash keysToMove sort =
      ((t.keysToProperties build hash keysToMove sort).1.mapData view,
        (t.keysToProperties build hash keysToMove sort).2) :=
  keysToProperties_map_of h hh hm ht fun hw hs key' => groupMaps_of_sizes h (group_ok ht (Labels.Holds.names_ok hw).2 hs key')
    (hcomp.imp_right fun hc => groupSizesAgree ht hc key')

/-! ### `TensorMap::new` -/

theorem checkGradientsNames_map (f : A → NdArray) (first gs : List (String × BasicBlock A)) :
    checkGradientsNames (first.map fun pg => (pg.1, pg.2.mapData f)) (gs.map fun pg => (pg.1, pg.2.mapData f)) =
      checkGradientsNames first gs := by
  induction gs with
  | nil => rfl
  | cons pg gs ih =>
    obtain ⟨p, g⟩ := pg
    rw [List.map_cons, checkGradientsNames, checkGradientsNames, ih, lookup_map]
    cases first.lookup p with
    | none => rfl
    | some g' => rfl

theorem checkBlocks_map (f : A → NdArray) {hash : HashOrder} (hh : OrderByName hash) (first : TensorBlock A)
    (blocks : List (TensorBlock A)) :
    checkBlocks hash (first.mapData f) (blocks.map (TensorBlock.mapData f)) = checkBlocks hash first blocks := by
  induction blocks with
  | nil => rfl
  | cons b blocks ih =>
    rw [List.map_cons, checkBlocks, checkBlocks, ih, TensorBlock.mapData_gradients,
      TensorBlock.mapData_gradients, hh, checkGradientsNames_map]
    simp only [List.length_map]
    rfl

theorem TensorMap.new_map (f : A → NdArray) {hash : HashOrder} (hh : OrderByName hash) (keys : Labels)
    (blocks : List (TensorBlock A)) :
    TensorMap.new hash keys (blocks.map (TensorBlock.mapData f)) =
      (TensorMap.new hash keys blocks).map (TensorMap.mapData f) := by
  unfold TensorMap.new
  refine Res.bind_same rfl fun count _ => ?_
  rw [List.length_map]
  refine Res.bind_same rfl fun _ _ => ?_
  cases blocks with
  | nil => rfl
  | cons b blocks =>
    have := checkBlocks_map f hh b (b :: blocks)
    refine Res.bind_same ?_ fun _ _ => rfl
    exact this

end Equistore
