import Verif.Lemmas.SameCallbacks
import Verif.Spec.Mixed

/-! Arrays of several implementations: blocks whose arrays all come from one implementation are merged as if there
was no other implementation. -/

namespace Equistore
open Spec

variable {ι : Type} [DecidableEq ι] {Arr : ι → Type} [∀ i, ArrayLike (Arr i)] {wrong : Confusion Arr}

theorem Res.map_map {α β γ : Type} (r : Res α) (f : α → β) (g : β → γ) : (r.map f).map g = r.map fun x => g (f x) := by
  cases r <;> rfl

/-- Arrays of one implementation among others have the callbacks of this implementation. -/
theorem Mixed.sameCallbacks (wrong : Confusion Arr) (i : ι) :
    SameCallbacks (Mixed.mk i : Arr i → Mixed Arr wrong) fun _ => True where
  origin := SameViews.origin_id fun _ => rfl
  shape _ := rfl
  reshape _ _ := rfl
  swapAxes _ _ _ := rfl
  create a shape := by
    change (do let array ← ArrayLike.create a shape; return (⟨i, array⟩ : Mixed Arr wrong)) = _
    cases ArrayLike.create a shape <;> rfl
  created _ _ _ _ := trivial
  move output input samples start stop _ := by
    change Mixed.moveSamplesFrom _ _ _ _ _ = _
    simp [Mixed.moveSamplesFrom]
  moved _ _ _ _ _ _ := trivial

theorem Mixed.sameViews (wrong wrong' : Confusion Arr) :
    SameViews (Mixed.confusedBy wrong' : Mixed Arr wrong → Mixed Arr wrong') where
  origin := SameViews.origin_id fun _ => rfl
  shape _ := rfl
  reshape _ _ := rfl
  swapAxes _ _ _ := rfl

theorem Mixed.exists_mk {i : ι} (a : Mixed Arr wrong) (h : a.impl = i) : ∃ a' : Arr i, a = ⟨i, a'⟩ := by
  subst h; exact ⟨a.array, rfl⟩

theorem BlockFrom.exists_block {i : ι} (b : TensorBlock (Mixed Arr wrong)) (h : BlockFrom i b) :
    ∃ b' : TensorBlock (Arr i), b = b'.mapData (Mixed.mk i) := by
  have basic : ∀ g : BasicBlock (Mixed Arr wrong), g.data.impl = i →
      ∃ g' : BasicBlock (Arr i), g = g'.mapData (Mixed.mk i) := by
    intro g hg
    obtain ⟨a, ha⟩ := Mixed.exists_mk g.data hg
    refine ⟨g.withData a, ?_⟩
    obtain ⟨data, s, c, p⟩ := g
    simp only at ha
    subst ha
    rfl
  have list : ∀ l : List (String × BasicBlock (Mixed Arr wrong)), (∀ name g, (name, g) ∈ l → g.data.impl = i) →
      ∃ l' : List (String × BasicBlock (Arr i)), l = l'.map fun pg => (pg.1, pg.2.mapData (Mixed.mk i)) := by
    intro l hl
    induction l with
    | nil => exact ⟨[], rfl⟩
    | cons pg l ih =>
      obtain ⟨l', rfl⟩ := ih fun name g hg => hl name g (List.mem_cons_of_mem _ hg)
      obtain ⟨name, g⟩ := pg
      obtain ⟨g', rfl⟩ := basic g (hl name g List.mem_cons_self)
      exact ⟨(name, g') :: l', rfl⟩
  obtain ⟨values, gradients, parameters⟩ := b
  obtain ⟨v, hv⟩ := basic values h.1
  obtain ⟨l, hl⟩ := list gradients h.2
  subst hv hl
  exact ⟨⟨v, l, parameters⟩, rfl⟩

theorem BlockFrom.exists_blocks {κ : Type} {i : ι} (l : List (κ × TensorBlock (Mixed Arr wrong)))
    (h : ∀ kb ∈ l, BlockFrom i kb.2) : ∃ l' : List (κ × TensorBlock (Arr i)), l = l'.map (mapPair (Mixed.mk i)) := by
  induction l with
  | nil => exact ⟨[], rfl⟩
  | cons kb l ih =>
    obtain ⟨l', rfl⟩ := ih fun kb hkb => h kb (List.mem_cons_of_mem _ hkb)
    obtain ⟨k, b⟩ := kb
    obtain ⟨b', hb⟩ := BlockFrom.exists_block b (h (k, b) List.mem_cons_self)
    subst hb
    exact ⟨(k, b') :: l', rfl⟩

theorem mapPair_confusedBy {κ : Type} (wrong' : Confusion Arr) (i : ι) (l : List (κ × TensorBlock (Arr i))) :
    (l.map (mapPair (Mixed.mk i : Arr i → Mixed Arr wrong))).map (mapPair (Mixed.confusedBy wrong')) =
      l.map (mapPair (Mixed.mk i : Arr i → Mixed Arr wrong')) := by
  rw [List.map_map]
  apply List.map_congr_left
  rintro ⟨k, b⟩ _
  simp only [Function.comp_apply, mapPair, TensorBlock.mapData_mapData]
  rfl

theorem res_mapData_confusedBy (wrong' : Confusion Arr) (i : ι) (r : Res (TensorBlock (Arr i))) :
    (r.map (TensorBlock.mapData (Mixed.mk i : Arr i → Mixed Arr wrong))).map
        (TensorBlock.mapData (Mixed.confusedBy wrong')) =
      r.map (TensorBlock.mapData (Mixed.mk i : Arr i → Mixed Arr wrong')) := by
  rw [Res.map_map]
  cases r with
  | ok b =>
    simp only [Res.map_ok, Res.ok.injEq, TensorBlock.mapData_mapData]
    rfl
  | err e => rfl
  | panic m => rfl

/-- Merging blocks of one implementation: nothing is given to another implementation. -/
theorem mergeSamples_confusedBy (wrong' : Confusion Arr) {build : Build} {hash : HashOrder} (hh : OrderByName hash)
    {extracted : List String} {sort : Bool} {blocks : List (List LabelValue × TensorBlock (Mixed Arr wrong))} {i : ι}
    (h : ∀ kb ∈ blocks, BlockFrom i kb.2) :
    mergeBlocksAlongSamples build hash extracted sort (blocks.map (mapPair (Mixed.confusedBy wrong'))) =
      (mergeBlocksAlongSamples build hash extracted sort blocks).map (TensorBlock.mapData (Mixed.confusedBy wrong')) := by
  obtain ⟨l, rfl⟩ := BlockFrom.exists_blocks blocks h
  rw [mapPair_confusedBy, (Mixed.sameCallbacks wrong' i).mergeBlocksAlongSamples hh,
    (Mixed.sameCallbacks wrong i).mergeBlocksAlongSamples hh, res_mapData_confusedBy]

theorem mergeProperties_confusedBy (wrong' : Confusion Arr) {build : Build} {hash : HashOrder} (hh : OrderByName hash)
    {user : Option Labels} {extracted : List String} {sort : Bool}
    {blocks : List (List LabelValue × TensorBlock (Mixed Arr wrong))} {i : ι} (h : ∀ kb ∈ blocks, BlockFrom i kb.2) :
    mergeBlocksAlongProperties build hash user extracted sort (blocks.map (mapPair (Mixed.confusedBy wrong'))) =
      (mergeBlocksAlongProperties build hash user extracted sort blocks).map
        (TensorBlock.mapData (Mixed.confusedBy wrong')) := by
  obtain ⟨l, rfl⟩ := BlockFrom.exists_blocks blocks h
  rw [mapPair_confusedBy, (Mixed.sameCallbacks wrong' i).mergeBlocksAlongProperties hh,
    (Mixed.sameCallbacks wrong i).mergeBlocksAlongProperties hh, res_mapData_confusedBy]

theorem mergeForKeys_groups {A B : Type} [ArrayLike A] [ArrayLike B] (f : A → B) {t : TensorMap A}
    (ht : TensorValid t) {moved : List String} {newKeys : Labels}
    (hnew : newKeys.Holds (remainingNames t.keys.names moved)
        (if t.keys.names.filter (fun n => !moved.contains n) = [] then [[0]]
          else indexSet (t.keys.rows.map (remainingKey t.keys.names moved))))
    {merge' : List (List LabelValue × TensorBlock B) → Res (TensorBlock B)}
    {merge : List (List LabelValue × TensorBlock A) → Res (TensorBlock A)}
    (hmerge : ∀ key', merge' (((group t.keys.names moved (t.keys.rows.zip t.blocks) key').map
          (toMerge t.keys.names moved)).map (mapPair f)) =
      (merge ((group t.keys.names moved (t.keys.rows.zip t.blocks) key').map
          (toMerge t.keys.names moved))).map (TensorBlock.mapData f)) :
    mergeForKeys (t.mapData f) newKeys (movedPositions t.keys.names moved) merge' =
      (mergeForKeys t newKeys (movedPositions t.keys.names moved) merge).map
        (List.map (TensorBlock.mapData f)) := by
  rw [mergeForKeys_eq ht.keys_wf ht.length_eq hnew]
  have := mergeForKeys_eq (t := t.mapData f) (moved := moved) (newKeys := newKeys)
    (by exact ht.keys_wf) (by simpa using ht.length_eq) hnew merge'
  rw [TensorMap.mapData_keys] at this
  rw [this]
  refine Res.mapM_comm fun key' _ => ?_
  rw [TensorMap.mapData_blocks, zip_mapData, group_map, toMerge_map, hmerge]

variable {t : TensorMap (Mixed Arr wrong)}

/-- The arrays of a valid block all come from one implementation. -/
theorem BlockValid.blockFrom (ho : OriginsDiffer Arr) {b : TensorBlock (Mixed Arr wrong)} (hb : BlockValid b) :
    BlockFrom b.values.data.impl b := by
  obtain ⟨origin, hinj, ho⟩ := ho
  refine ⟨rfl, fun name g hg => ?_⟩
  obtain ⟨o, h1, h2⟩ := (hb.gradients name g hg).origin
  have e1 : ArrayLike.origin g.data = .ok (origin g.data.impl) := ho _ g.data.array
  have e2 : ArrayLike.origin b.values.data = .ok (origin b.values.data.impl) := ho _ b.values.data.array
  rw [e1] at h1
  rw [e2] at h2
  exact hinj ((Res.ok.inj h1).trans (Res.ok.inj h2).symm)

theorem GroupsFromOne.toMerge (ho : OriginsDiffer Arr) (ht : TensorValid t) {moved : List String}
    (h : GroupsFromOne t moved) (key' : List LabelValue) :
    (group t.keys.names moved (t.keys.rows.zip t.blocks) key').map (Equistore.toMerge t.keys.names moved) = [] ∨
    ∃ i, ∀ kb ∈ (group t.keys.names moved (t.keys.rows.zip t.blocks) key').map
      (Equistore.toMerge t.keys.names moved), BlockFrom i kb.2 := by
  have h1 := h _ ht.iter_eq key'
  have h2 : ∀ kb ∈ group t.keys.names moved (t.keys.rows.zip t.blocks) key', BlockFrom kb.2.values.data.impl kb.2 :=
    fun kb hkb => BlockValid.blockFrom ho (ht.blocks kb.2 (List.of_mem_zip (List.mem_of_mem_filter hkb)).2)
  revert h1 h2
  generalize group t.keys.names moved (t.keys.rows.zip t.blocks) key' = l
  intro h1 h2
  cases l with
  | nil => exact .inl rfl
  | cons first l =>
    refine .inr ⟨first.2.values.data.impl, fun kb hkb => ?_⟩
    obtain ⟨kb', h3, rfl⟩ := List.mem_map.1 hkb
    rw [h1 first List.mem_cons_self kb' h3]
    exact h2 kb' h3

theorem keysToSamples_confusedBy (wrong' : Confusion Arr) {build : Build} {hash : HashOrder} (hh : OrderByName hash)
    {keysToMove : Labels} {sort : Bool} (ho : OriginsDiffer Arr)
    (ht : TensorValid t) (h : GroupsFromOne t keysToMove.names) :
    (t.mapData (Mixed.confusedBy wrong')).keysToSamples build hash keysToMove sort =
      ((t.keysToSamples build hash keysToMove sort).1.mapData (Mixed.confusedBy wrong'),
        (t.keysToSamples build hash keysToMove sort).2) := by
  have : (t.mapData (Mixed.confusedBy wrong')).keysToSamplesResult build hash keysToMove sort =
      (t.keysToSamplesResult build hash keysToMove sort).map
        fun kb => (kb.1, kb.2.map (TensorBlock.mapData (Mixed.confusedBy wrong'))) := by
    unfold TensorMap.keysToSamplesResult
    refine Res.bind_same rfl fun count _ => ?_
    refine Res.bind_same rfl fun _ _ => ?_
    refine Res.bind_same rfl ?_
    rintro ⟨newKeys, positions⟩ h3
    by_cases hs : ∀ n ∈ keysToMove.names, n ∈ t.keys.names
    · obtain ⟨newKeys', h4, h5⟩ := removeVariablesFromKeys_spec ht.keys_wf hs
      rw [h3, Res.ok.injEq, Prod.mk.injEq] at h4
      obtain ⟨rfl, rfl⟩ := h4
      refine Res.bind_comm _ (mergeForKeys_groups _ ht h5 fun key' => ?_) fun _ _ => rfl
      rcases GroupsFromOne.toMerge ho ht h key' with hi | ⟨i, hi⟩
      · rw [hi]; rfl
      exact mergeSamples_confusedBy wrong' hh hi
    · obtain ⟨m, h4⟩ := removeVariablesFromKeys_missing hs
      rw [h3] at h4; cases h4
  rw [keysToSamples_eq, keysToSamples_eq, this]
  cases t.keysToSamplesResult build hash keysToMove sort <;> rfl

theorem keysToProperties_confusedBy (wrong' : Confusion Arr) {build : Build} {hash : HashOrder} (hh : OrderByName hash)
    {keysToMove : Labels} {sort : Bool} (ho : OriginsDiffer Arr)
    (ht : TensorValid t) (h : GroupsFromOne t keysToMove.names) :
    (t.mapData (Mixed.confusedBy wrong')).keysToProperties build hash keysToMove sort =
      ((t.keysToProperties build hash keysToMove sort).1.mapData (Mixed.confusedBy wrong'),
        (t.keysToProperties build hash keysToMove sort).2) := by
  have : (t.mapData (Mixed.confusedBy wrong')).keysToPropertiesResult build hash keysToMove sort =
      (t.keysToPropertiesResult build hash keysToMove sort).map
        fun kb => (kb.1, kb.2.map (TensorBlock.mapData (Mixed.confusedBy wrong'))) := by
    unfold TensorMap.keysToPropertiesResult
    refine Res.bind_same rfl ?_
    rintro ⟨newKeys, positions⟩ h3
    refine Res.bind_same rfl fun count _ => ?_
    by_cases hs : ∀ n ∈ keysToMove.names, n ∈ t.keys.names
    · obtain ⟨newKeys', h4, h5⟩ := removeVariablesFromKeys_spec ht.keys_wf hs
      rw [h3, Res.ok.injEq, Prod.mk.injEq] at h4
      obtain ⟨rfl, rfl⟩ := h4
      refine Res.bind_comm _ (mergeForKeys_groups _ ht h5 fun key' => ?_) fun _ _ => rfl
      rcases GroupsFromOne.toMerge ho ht h key' with hi | ⟨i, hi⟩
      · rw [hi]; rfl
      exact mergeProperties_confusedBy wrong' hh hi
    · obtain ⟨m, h4⟩ := removeVariablesFromKeys_missing hs
      rw [h3] at h4; cases h4
  rw [keysToProperties_eq, keysToProperties_eq, this]
  cases t.keysToPropertiesResult build hash keysToMove sort <;> rfl

end Equistore
