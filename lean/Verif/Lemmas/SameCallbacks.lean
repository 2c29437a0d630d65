import Verif.Lemmas.BackendTensor

/-! Operations on two types of arrays whose callbacks do the same, whatever this is: nothing is assumed about
the arrays or the tensor map. -/

namespace Equistore
open Spec

variable {A B : Type} [ArrayLike A] [ArrayLike B]

/-- The callbacks of `B` for views of arrays do for `f a` what the callbacks of `A` do for `a`. -/
structure SameViews (f : A → B) : Prop where
  origin : ∃ g : Nat → Nat, Function.Injective g ∧ ∀ a, ArrayLike.origin (f a) = (ArrayLike.origin a).map g
  shape : ∀ a, ArrayLike.shape (f a) = ArrayLike.shape a
  reshape : ∀ a shape, ArrayLike.reshape (f a) shape =
    (f (ArrayLike.reshape a shape).1, (ArrayLike.reshape a shape).2)
  swapAxes : ∀ a i j, ArrayLike.swapAxes (f a) i j =
    (f (ArrayLike.swapAxes a i j).1, (ArrayLike.swapAxes a i j).2)

/-- The callbacks of `B` do for `f a` what the callbacks of `A` do for `a`; elements are only
moved to arrays with the property `P`, which new arrays have. -/
structure SameCallbacks (f : A → B) (P : A → Prop) : Prop extends SameViews f where
  create : ∀ a shape, ArrayLike.create (f a) shape = (ArrayLike.create a shape).map f
  created : ∀ a shape a', ArrayLike.create a shape = .ok a' → P a'
  move : ∀ output input samples start stop, P output →
    ArrayLike.moveSamplesFrom (f output) (f input) samples start stop =
      (f (ArrayLike.moveSamplesFrom output input samples start stop).1,
        (ArrayLike.moveSamplesFrom output input samples start stop).2)
  moved : ∀ output input samples start stop, P output →
    P (ArrayLike.moveSamplesFrom output input samples start stop).1

theorem SameViews.origin_id {f : A → B} (h : ∀ a, ArrayLike.origin (f a) = ArrayLike.origin a) :
    ∃ g : Nat → Nat, Function.Injective g ∧ ∀ a, ArrayLike.origin (f a) = (ArrayLike.origin a).map g :=
  ⟨id, fun _ _ h => h, fun a => by rw [h]; cases ArrayLike.origin a <;> rfl⟩

namespace SameCallbacks
variable {f : A → B} {P : A → Prop}

theorem moveSamples (h : SameCallbacks f P) {output input : A} {samples : List SampleMapping} {start stop : Nat}
    (ho : P output) :
    Equistore.moveSamples (f output) (f input) samples start stop =
        (Equistore.moveSamples output input samples start stop).map f ∧
      ∀ output', Equistore.moveSamples output input samples start stop = .ok output' → P output' := by
  have h1 := h.move output input samples start stop ho
  have h2 := h.moved output input samples start stop ho
  unfold Equistore.moveSamples
  rw [h1]
  revert h2
  rcases ArrayLike.moveSamplesFrom output input samples start stop with ⟨o, r | r | r⟩
  · exact fun h2 => ⟨rfl, fun output' e => by cases e; exact h2⟩
  · exact fun _ => ⟨rfl, fun output' e => by cases e⟩
  · exact fun _ => ⟨rfl, fun output' e => by cases e⟩

theorem moveAllSamples (h : SameCallbacks f P) {stop : Nat} {items : List (A × List SampleMapping)} {output : A}
    (ho : P output) :
    Equistore.moveAllSamples stop (f output) (items.map fun it => (f it.1, it.2)) =
      (Equistore.moveAllSamples stop output items).map f := by
  induction items generalizing output with
  | nil => rfl
  | cons it items ih =>
    obtain ⟨input, mapping⟩ := it
    obtain ⟨h1, h2⟩ := h.moveSamples (input := input) (samples := mapping) (start := 0) (stop := stop) ho
    rw [List.map_cons, Equistore.moveAllSamples, Equistore.moveAllSamples]
    exact Res.bind_comm f h1 fun output' e => ih (h2 output' e)

theorem moveAllProperties (h : SameCallbacks f P) {items : List ((A × List SampleMapping) × Option (Nat × Nat))}
    {output : A} (ho : P output) :
    Equistore.moveAllProperties (f output) (items.map fun it => ((f it.1.1, it.1.2), it.2)) =
      (Equistore.moveAllProperties output items).map f := by
  induction items generalizing output with
  | nil => rfl
  | cons it items ih =>
    obtain ⟨⟨input, mapping⟩, range⟩ := it
    cases range with
    | none =>
      rw [List.map_cons, Equistore.moveAllProperties, Equistore.moveAllProperties]
      exact ih ho
    | some se =>
      obtain ⟨s, e⟩ := se
      obtain ⟨h1, h2⟩ := h.moveSamples (input := input) (samples := mapping) (start := s) (stop := e) ho
      rw [List.map_cons, Equistore.moveAllProperties, Equistore.moveAllProperties]
      exact Res.bind_comm f h1 fun output' e => ih (h2 output' e)

theorem moveAllGradients (h : SameCallbacks f P) {build : Build} {q : String} {newSamples : Labels}
    {newComponents : List Labels} {stop : Nat}
    {items : List ((List LabelValue × TensorBlock A) × List SampleMapping)} {output : A} (ho : P output) :
    Equistore.moveAllGradients build q newSamples newComponents stop (f output)
        (items.map fun it => (mapPair f it.1, it.2)) =
      (Equistore.moveAllGradients build q newSamples newComponents stop output items).map f := by
  induction items generalizing output with
  | nil => rfl
  | cons it items ih =>
    obtain ⟨⟨key, b⟩, mapping⟩ := it
    rw [List.map_cons, mapPair, Equistore.moveAllGradients, Equistore.moveAllGradients]
    simp only [TensorBlock.mapData_gradient]
    refine Res.bind_comm (BasicBlock.mapData f) (Res.expect_map _ _ _) fun g _ => ?_
    refine Res.bind_same rfl fun _ _ => ?_
    refine Res.bind_same (gradientMapping_map _ _ _ _ _) fun gm _ => ?_
    obtain ⟨h1, h2⟩ := h.moveSamples (input := g.data) (samples := gm) (start := 0) (stop := stop) ho
    exact Res.bind_comm f h1 fun output' e => ih (h2 output' e)

theorem moveAllGradientProperties (h : SameCallbacks f P) {build : Build} {q : String} {newSamples : Labels}
    {newComponents : List Labels}
    {items : List (((List LabelValue × TensorBlock A) × List SampleMapping) × Option (Nat × Nat))}
    {output : A} (ho : P output) :
    Equistore.moveAllGradientProperties build q newSamples newComponents (f output)
        (items.map fun it => ((mapPair f it.1.1, it.1.2), it.2)) =
      (Equistore.moveAllGradientProperties build q newSamples newComponents output items).map f := by
  induction items generalizing output with
  | nil => rfl
  | cons it items ih =>
    obtain ⟨⟨⟨key, b⟩, mapping⟩, range⟩ := it
    cases range with
    | none =>
      rw [List.map_cons, mapPair, Equistore.moveAllGradientProperties, Equistore.moveAllGradientProperties]
      exact ih ho
    | some se =>
      obtain ⟨s, e⟩ := se
      rw [List.map_cons, mapPair, Equistore.moveAllGradientProperties, Equistore.moveAllGradientProperties]
      simp only [TensorBlock.mapData_gradient]
      refine Res.bind_comm (BasicBlock.mapData f) (Res.expect_map _ _ _) fun g _ => ?_
      refine Res.bind_same rfl fun _ _ => ?_
      refine Res.bind_same (gradientMapping_map _ _ _ _ _) fun gm _ => ?_
      obtain ⟨h1, h2⟩ := h.moveSamples (input := g.data) (samples := gm) (start := s) (stop := e) ho
      exact Res.bind_comm f h1 fun output' e => ih (h2 output' e)

/-! ### New blocks and gradients -/

theorem _root_.Equistore.SameViews.checkDataAndLabels (h : SameViews f) (context : String) (data : A) (samples : Labels)
    (components : List Labels) (properties : Labels) :
    Equistore.checkDataAndLabels context (f data) samples components properties =
      Equistore.checkDataAndLabels context data samples components properties := by
  unfold Equistore.checkDataAndLabels
  rw [h.shape]

theorem _root_.Equistore.SameViews.newBlock (h : SameViews f) (data : A) (samples : Labels) (components : List Labels)
    (properties : Labels) :
    TensorBlock.new (f data) samples components properties =
      (TensorBlock.new data samples components properties).map (TensorBlock.mapData f) := by
  unfold TensorBlock.new
  refine Res.bind_comm (BasicBlock.mapData f) ?_ fun b _ => rfl
  unfold BasicBlock.new
  refine Res.bind_same ?_ fun _ _ => ?_
  · first | exact h.checkDataAndLabels _ _ _ _ _ | rfl
  · refine Res.bind_same ?_ fun _ _ => rfl
    first | exact h.checkDataAndLabels _ _ _ _ _ | rfl

theorem _root_.Equistore.SameViews.checkGradient (h : SameViews f) (b : TensorBlock A) (parameter : String) (data : A)
    (samples : Labels) (components : List Labels) :
    TensorBlock.checkGradient (b.mapData f) parameter (f data) samples components =
      TensorBlock.checkGradient b parameter data samples components := by
  unfold TensorBlock.checkGradient
  have e1 : ((b.mapData f).gradients.lookup parameter).isNone = (b.gradients.lookup parameter).isNone := by
    rw [TensorBlock.mapData_gradients, lookup_map, Option.isNone_map]
  rw [e1]
  obtain ⟨g, hg, ho⟩ := h.origin
  simp only [TensorBlock.mapData_values, BasicBlock.mapData_data, BasicBlock.mapData_components,
    BasicBlock.mapData_properties, ho, h.checkDataAndLabels]
  have e2 : ∀ x y, (g x == g y) = (x == y) := fun x y => by
    rw [Bool.eq_iff_iff, beq_iff_eq, beq_iff_eq]
    exact hg.eq_iff
  cases ArrayLike.origin data with
  | ok x =>
    cases ArrayLike.origin b.values.data with
    | ok y =>
      simp only [Res.map_ok, Res.ok_bind, e2]
      rfl
    | err e => rfl
    | panic m => rfl
  | err e => rfl
  | panic m => rfl

theorem _root_.Equistore.SameViews.addGradient (h : SameViews f) (parameter : String) (data : A)
    (samples : Labels) (components : List Labels) (b : TensorBlock A) :
    TensorBlock.addGradient parameter (f data) samples components (b.mapData f) =
      ((TensorBlock.addGradient parameter data samples components b).1.mapData f,
        (TensorBlock.addGradient parameter data samples components b).2) := by
  rw [addGradient_eq, addGradient_eq, h.checkGradient]
  cases TensorBlock.checkGradient b parameter data samples components with
  | err e => rfl
  | panic m => rfl
  | ok u =>
    simp only
    split
    · simp [TensorBlock.mapData, BasicBlock.withData, TensorBlock.gradientBlock]
    · simp [TensorBlock.mapData, BasicBlock.withData, TensorBlock.gradientBlock]

theorem _root_.Equistore.SameViews.addGradientExpect (h : SameViews f) (b : TensorBlock A) (parameter : String) (data : A)
    (samples : Labels) (components : List Labels) :
    Equistore.addGradientExpect (b.mapData f) parameter (f data) samples components =
      (Equistore.addGradientExpect b parameter data samples components).map (TensorBlock.mapData f) := by
  unfold Equistore.addGradientExpect
  rw [h.addGradient]
  rcases TensorBlock.addGradient parameter data samples components b with ⟨b', r | r | r⟩ <;> rfl

/-! ### Merging blocks -/

theorem mergeGradientsAlongSamples (h : SameCallbacks f P) {build : Build} {first : TensorBlock A}
    {blocks : List (List LabelValue × TensorBlock A)} {mappings : List (List SampleMapping)} {stop : Nat}
    {gs : List (String × BasicBlock A)} (nb : TensorBlock A) :
    Equistore.mergeGradientsAlongSamples build (first.mapData f) (blocks.map (mapPair f)) mappings stop
        (nb.mapData f) (gs.map fun g => (g.1, g.2.mapData f)) =
      (Equistore.mergeGradientsAlongSamples build first blocks mappings stop nb gs).map
        (TensorBlock.mapData f) := by
  induction gs generalizing nb with
  | nil => rfl
  | cons pg gs ih =>
    obtain ⟨q, g⟩ := pg
    rw [List.map_cons, Equistore.mergeGradientsAlongSamples, Equistore.mergeGradientsAlongSamples]
    refine Res.bind_same (mergeGradientSamples_map _ _ _ _ _) fun S _ => ?_
    refine Res.bind_same (h.shape _) fun shape _ => ?_
    refine Res.bind_same rfl fun _ _ => ?_
    refine Res.bind_same rfl fun count _ => ?_
    refine Res.bind_comm f (h.create _ _) fun z hz => ?_
    rw [zip_mapPair]
    refine Res.bind_comm f (h.moveAllGradients (h.created _ _ _ hz)) fun z' _ => ?_
    refine Res.bind_comm _ (h.addGradientExpect _ _ _ _ _) fun nb' _ => ?_
    exact ih nb'

theorem mergeGradientsAlongProperties (h : SameCallbacks f P) {build : Build} {first : TensorBlock A}
    {blocks : List (List LabelValue × TensorBlock A)} {mappings : List (List SampleMapping)}
    {ranges : List (Option (Nat × Nat))} {count : Nat}
    {gs : List (String × BasicBlock A)} (nb : TensorBlock A) :
    Equistore.mergeGradientsAlongProperties build (first.mapData f) (blocks.map (mapPair f)) mappings ranges
        count (nb.mapData f) (gs.map fun g => (g.1, g.2.mapData f)) =
      (Equistore.mergeGradientsAlongProperties build first blocks mappings ranges count nb gs).map
        (TensorBlock.mapData f) := by
  induction gs generalizing nb with
  | nil => rfl
  | cons pg gs ih =>
    obtain ⟨q, g⟩ := pg
    rw [List.map_cons, Equistore.mergeGradientsAlongProperties, Equistore.mergeGradientsAlongProperties]
    refine Res.bind_same (mergeGradientSamples_map _ _ _ _ _) fun S _ => ?_
    refine Res.bind_same (h.shape _) fun shape _ => ?_
    refine Res.bind_same rfl fun _ _ => ?_
    refine Res.bind_same rfl fun count _ => ?_
    refine Res.bind_comm f (h.create _ _) fun z hz => ?_
    rw [zip_mapPair, zip_map_left']
    refine Res.bind_comm f (h.moveAllGradientProperties (h.created _ _ _ hz)) fun z' _ => ?_
    refine Res.bind_comm _ (h.addGradientExpect _ _ _ _ _) fun nb' _ => ?_
    exact ih nb'

theorem mergeBlocksAlongSamples (h : SameCallbacks f P) {build : Build} {hash : HashOrder}
    (hh : OrderByName hash) {extracted : List String} {sort : Bool}
    {blocks : List (List LabelValue × TensorBlock A)} :
    Equistore.mergeBlocksAlongSamples build hash extracted sort (blocks.map (mapPair f)) =
      (Equistore.mergeBlocksAlongSamples build hash extracted sort blocks).map (TensorBlock.mapData f) := by
  unfold Equistore.mergeBlocksAlongSamples
  rw [List.head?_map]
  refine Res.bind_comm (mapPair f) (Res.expect_map _ _ _) fun first _ => ?_
  simp only [mapPair, TensorBlock.mapData_values, BasicBlock.mapData_samples,
    BasicBlock.mapData_components, BasicBlock.mapData_properties, BasicBlock.mapData_data]
  refine Res.bind_same (checkMergeSamples_map _ _ _) fun _ _ => ?_
  refine Res.bind_same (mergeSamples_map _ _ _ _) ?_
  rintro ⟨S, mappings⟩ _
  simp only
  refine Res.bind_same (h.shape _) fun shape _ => ?_
  refine Res.bind_same rfl fun _ _ => ?_
  refine Res.bind_same rfl fun count _ => ?_
  refine Res.bind_comm f (h.create _ _) fun zeros hz => ?_
  refine Res.bind_same rfl fun stop _ => ?_
  have hz2 : ((blocks.map (mapPair f)).map fun b => b.2.values.data).zip mappings =
      ((blocks.map fun b => b.2.values.data).zip mappings).map fun it => (f it.1, it.2) := by
    rw [List.map_map, zip_map_left', zip_map_left', List.map_map]
    rfl
  rw [hz2]
  refine Res.bind_comm f (h.moveAllSamples (h.created _ _ _ hz)) fun data _ => ?_
  refine Res.bind_comm (TensorBlock.mapData f) ?_ fun nb _ => ?_
  · rw [h.newBlock, Res.expectOk_map]
  · rw [TensorBlock.mapData_gradients, hh]
    exact h.mergeGradientsAlongSamples nb

theorem mergeBlocksAlongProperties (h : SameCallbacks f P) {build : Build} {hash : HashOrder}
    (hh : OrderByName hash) {user : Option Labels} {extracted : List String} {sort : Bool}
    {blocks : List (List LabelValue × TensorBlock A)} :
    Equistore.mergeBlocksAlongProperties build hash user extracted sort (blocks.map (mapPair f)) =
      (Equistore.mergeBlocksAlongProperties build hash user extracted sort blocks).map
        (TensorBlock.mapData f) := by
  unfold Equistore.mergeBlocksAlongProperties
  rw [List.head?_map]
  refine Res.bind_comm (mapPair f) (Res.expect_map _ _ _) fun first _ => ?_
  simp only [mapPair, TensorBlock.mapData_values, BasicBlock.mapData_samples,
    BasicBlock.mapData_components, BasicBlock.mapData_properties, BasicBlock.mapData_data]
  refine Res.bind_same (checkMergeProperties_map _ _ _ _) fun _ _ => ?_
  refine Res.bind_same (mergeSamples_map _ _ _ _) ?_
  rintro ⟨S, mappings⟩ _
  simp only
  refine Res.bind_same (newPropertyEntries_map _ _ _ _) fun entries _ => ?_
  refine Res.bind_same rfl fun P' _ => ?_
  refine Res.bind_same rfl fun pcount _ => ?_
  refine Res.bind_same (h.shape _) fun shape _ => ?_
  refine Res.bind_same rfl fun _ _ => ?_
  refine Res.bind_same rfl fun count _ => ?_
  refine Res.bind_comm f (h.create _ _) fun zeros hz => ?_
  refine Res.bind_same (propertyRanges_map _ _ _) fun ranges _ => ?_
  have hz2 : (((blocks.map (mapPair f)).map fun b => b.2.values.data).zip mappings).zip ranges =
      (((blocks.map fun b => b.2.values.data).zip mappings).zip ranges).map
        fun it => ((f it.1.1, it.1.2), it.2) := by
    rw [List.map_map, zip_map_left', zip_map_left', zip_map_left', zip_map_left', List.map_map]
    rfl
  rw [hz2]
  refine Res.bind_comm f (h.moveAllProperties (h.created _ _ _ hz)) fun data _ => ?_
  refine Res.bind_comm (TensorBlock.mapData f) ?_ fun nb _ => ?_
  · rw [h.newBlock, Res.expectOk_map]
  · rw [TensorBlock.mapData_gradients, hh]
    exact h.mergeGradientsAlongProperties nb

/-! ### Tensor maps -/

theorem blocksToMerge_map (f : A → B) (t : TensorMap A) (positions indices : List Nat) :
    blocksToMerge (t.mapData f) positions indices =
      (blocksToMerge t positions indices).map (List.map (mapPair f)) := by
  unfold blocksToMerge
  refine Res.mapM_comm fun i _ => ?_
  refine Res.bind_comm (TensorBlock.mapData f) ?_ fun b _ => ?_
  · rw [TensorMap.mapData_blocks, List.getElem?_map, Res.expect_map]
  · refine Res.bind_same rfl fun key _ => ?_
    refine Res.bind_same rfl fun moved _ => rfl

theorem allBlocksToMerge_map (f : A → B) (t : TensorMap A) (positions : List Nat) :
    allBlocksToMerge (t.mapData f) positions =
      (allBlocksToMerge t positions).map (List.map (mapPair f)) := by
  unfold allBlocksToMerge
  refine Res.bind_same rfl fun keys _ => ?_
  rw [TensorMap.mapData_blocks, zip_mapData]
  generalize keys.zip t.blocks = l
  induction l with
  | nil => rfl
  | cons kb l ih =>
    rw [List.map_cons, List.mapM_cons, List.mapM_cons]
    refine Res.bind_comm (mapPair f) ?_ fun x _ => ?_
    · refine Res.bind_same rfl fun moved _ => rfl
    · refine Res.bind_comm _ ih fun xs _ => rfl

theorem blocksMatching_map (f : A → B) (t : TensorMap A) (selection : Labels) :
    (t.mapData f).blocksMatching selection = t.blocksMatching selection := by
  unfold TensorMap.blocksMatching
  simp only [TensorMap.mapData_blocks, List.length_map, TensorMap.mapData_keys]

theorem mergeForKeys (f : A → B) {t : TensorMap A} {newKeys : Labels} {positions : List Nat}
    {merge' : List (List LabelValue × TensorBlock B) → Res (TensorBlock B)}
    {merge : List (List LabelValue × TensorBlock A) → Res (TensorBlock A)}
    (hmerge : ∀ blocks, merge' (blocks.map (mapPair f)) = (merge blocks).map (TensorBlock.mapData f)) :
    Equistore.mergeForKeys (t.mapData f) newKeys positions merge' =
      (Equistore.mergeForKeys t newKeys positions merge).map (List.map (TensorBlock.mapData f)) := by
  unfold Equistore.mergeForKeys
  refine Res.bind_same rfl fun count _ => ?_
  by_cases hc : count = 1
  · simp only [hc, if_true]
    refine Res.bind_comm _ (allBlocksToMerge_map _ _ _) fun blocks _ => ?_
    exact Res.bind_comm _ (hmerge blocks) fun b _ => rfl
  · simp only [hc, if_false]
    refine Res.bind_same rfl fun entries _ => ?_
    refine Res.mapM_comm fun entry _ => ?_
    refine Res.bind_same rfl fun selection _ => ?_
    refine Res.bind_same (blocksMatching_map _ _ _) fun matching _ => ?_
    refine Res.bind_comm _ (blocksToMerge_map _ _ _ _) fun blocks _ => ?_
    exact hmerge blocks

theorem keysToSamples (h : SameCallbacks f P) {build : Build} {hash : HashOrder} (hh : OrderByName hash)
    {keysToMove : Labels} {sort : Bool} {t : TensorMap A} :
    (t.mapData f).keysToSamples build hash keysToMove sort =
      ((t.keysToSamples build hash keysToMove sort).1.mapData f,
        (t.keysToSamples build hash keysToMove sort).2) := by
  have : (t.mapData f).keysToSamplesResult build hash keysToMove sort =
      (t.keysToSamplesResult build hash keysToMove sort).map
        fun kb => (kb.1, kb.2.map (TensorBlock.mapData f)) := by
    unfold TensorMap.keysToSamplesResult
    refine Res.bind_same rfl fun count _ => ?_
    refine Res.bind_same rfl fun _ _ => ?_
    refine Res.bind_same rfl ?_
    rintro ⟨newKeys, positions⟩ _
    exact Res.bind_comm _ (mergeForKeys f fun blocks => h.mergeBlocksAlongSamples hh) fun _ _ => rfl
  rw [keysToSamples_eq, keysToSamples_eq, this]
  cases t.keysToSamplesResult build hash keysToMove sort <;> rfl

theorem keysToProperties (h : SameCallbacks f P) {build : Build} {hash : HashOrder} (hh : OrderByName hash)
    {keysToMove : Labels} {sort : Bool} {t : TensorMap A} :
    (t.mapData f).keysToProperties build hash keysToMove sort =
      ((t.keysToProperties build hash keysToMove sort).1.mapData f,
        (t.keysToProperties build hash keysToMove sort).2) := by
  have : (t.mapData f).keysToPropertiesResult build hash keysToMove sort =
      (t.keysToPropertiesResult build hash keysToMove sort).map
        fun kb => (kb.1, kb.2.map (TensorBlock.mapData f)) := by
    unfold TensorMap.keysToPropertiesResult
    refine Res.bind_same rfl ?_
    rintro ⟨newKeys, positions⟩ _
    refine Res.bind_same rfl fun count _ => ?_
    exact Res.bind_comm _ (mergeForKeys f fun blocks => h.mergeBlocksAlongProperties hh) fun _ _ => rfl
  rw [keysToProperties_eq, keysToProperties_eq, this]
  cases t.keysToPropertiesResult build hash keysToMove sort <;> rfl

theorem _root_.Equistore.SameViews.basicComponentsToProperties (h : SameViews f) {vars : List String} (b : BasicBlock A) :
    BasicBlock.componentsToProperties vars (b.mapData f) =
      ((BasicBlock.componentsToProperties vars b).1.mapData f,
        (BasicBlock.componentsToProperties vars b).2) := by
  unfold BasicBlock.componentsToProperties
  rw [Act.get_bind, Act.get_bind]
  simp only [BasicBlock.mapData_components]
  cases hf : b.components.findIdx? (fun c => c.names == vars) with
  | none => rfl
  | some axis =>
    refine Act.lift_map rfl rfl fun c _ => ?_
    refine Act.bind_map (f := BasicBlock.mapData f) rfl rfl fun _ _ => ?_
    refine Act.lift_map rfl rfl fun P' _ => ?_
    refine Act.lift_map rfl (h.shape _) fun shape _ => ?_
    refine Act.lift_map rfl rfl fun _ _ => ?_
    refine Act.lift_map rfl rfl fun count _ => ?_
    refine Act.lift_map rfl rfl fun _ _ => ?_
    refine Act.bind_map (f := BasicBlock.mapData f) rfl ?_ fun _ _ => ?_
    · unfold Act.focus
      simp only [Act.set_apply, BasicBlock.mapData_data, h.swapAxes]
      rfl
    · refine Act.bind_map (f := BasicBlock.mapData f) rfl ?_ fun _ _ => rfl
      unfold Act.focus
      simp only [BasicBlock.mapData_data, h.reshape]
      rfl

theorem setGradient (f : A → B) (name : String) (g : BasicBlock A) (b : TensorBlock A) :
    TensorBlock.setGradient name (g.mapData f) (b.mapData f) = (TensorBlock.setGradient name g b).mapData f := by
  unfold TensorBlock.setGradient TensorBlock.mapData
  simp only [List.map_map, TensorBlock.mk.injEq, true_and, and_true]
  apply List.map_congr_left
  rintro ⟨n, old⟩ _
  by_cases hn : n = name
  · simp [hn]; rfl
  · simp [hn]

theorem _root_.Equistore.SameViews.gradientsComponentsToProperties (h : SameViews f) {vars : List String}
    {gs : List (String × BasicBlock A)} (b : TensorBlock A) :
    TensorBlock.gradientsComponentsToProperties vars (gs.map fun pg => (pg.1, pg.2.mapData f)) (b.mapData f) =
      ((TensorBlock.gradientsComponentsToProperties vars gs b).1.mapData f,
        (TensorBlock.gradientsComponentsToProperties vars gs b).2) := by
  induction gs generalizing b with
  | nil => rfl
  | cons pg gs ih =>
    obtain ⟨name, g⟩ := pg
    rw [List.map_cons, TensorBlock.gradientsComponentsToProperties, TensorBlock.gradientsComponentsToProperties]
    refine Act.bind_map (f := TensorBlock.mapData f) rfl ?_ fun _ _ => ?_
    · unfold Act.focus
      rw [h.basicComponentsToProperties]
      simp only [setGradient]
    · exact ih _

theorem _root_.Equistore.SameViews.blockComponentsToProperties (h : SameViews f) {hash : HashOrder} (hh : OrderByName hash)
    {vars : List String} (b : TensorBlock A) :
    TensorBlock.componentsToProperties hash vars (b.mapData f) =
      ((TensorBlock.componentsToProperties hash vars b).1.mapData f,
        (TensorBlock.componentsToProperties hash vars b).2) := by
  unfold TensorBlock.componentsToProperties
  split
  · rfl
  · refine Act.bind_map (f := TensorBlock.mapData f) rfl ?_ fun _ h1 => ?_
    · unfold Act.focus
      simp only [TensorBlock.mapData_values]
      rw [h.basicComponentsToProperties]
      rfl
    · rw [Act.get_bind, Act.get_bind, TensorBlock.mapData_gradients, hh]
      exact h.gradientsComponentsToProperties _

theorem _root_.Equistore.SameViews.componentsToProperties (h : SameViews f) {hash : HashOrder} (hh : OrderByName hash)
    {vars : List String} {t : TensorMap A} :
    TensorMap.componentsToProperties hash vars (t.mapData f) =
      ((TensorMap.componentsToProperties hash vars t).1.mapData f,
        (TensorMap.componentsToProperties hash vars t).2) := by
  have key : ∀ bs : List (TensorBlock A),
      TensorMap.componentsToPropertiesLoop hash vars (bs.map (TensorBlock.mapData f)) =
        ((TensorMap.componentsToPropertiesLoop hash vars bs).1.map (TensorBlock.mapData f),
          (TensorMap.componentsToPropertiesLoop hash vars bs).2) := by
    intro bs
    induction bs with
    | nil => rfl
    | cons b bs ih =>
      rw [List.map_cons, TensorMap.componentsToPropertiesLoop, TensorMap.componentsToPropertiesLoop,
        h.blockComponentsToProperties hh]
      rcases TensorBlock.componentsToProperties hash vars b with ⟨b', r | r | r⟩
      · simp only [ih, List.map_cons]
      · rfl
      · rfl
  unfold TensorMap.componentsToProperties
  split
  · rfl
  · unfold Act.focus
    simp only [TensorMap.mapData_blocks]
    rw [key]
    rfl

theorem run (h : SameCallbacks f P) {build : Build} {hash : HashOrder} (hh : OrderByName hash) (op : Op)
    (t : TensorMap A) :
    op.run build hash (t.mapData f) = ((op.run build hash t).1.mapData f, (op.run build hash t).2) := by
  cases op with
  | keysToSamples k sort => exact h.keysToSamples hh
  | keysToProperties k sort => exact h.keysToProperties hh
  | componentsToProperties names => exact h.componentsToProperties hh

theorem runAll (h : SameCallbacks f P) {build : Build} {hash : Nat → HashOrder} (hh : ∀ n, OrderByName (hash n))
    (ops : List Op) (t : TensorMap A) :
    Spec.runAll build hash ops (t.mapData f) =
      ((Spec.runAll build hash ops t).1.mapData f, (Spec.runAll build hash ops t).2) := by
  induction ops generalizing hash t with
  | nil => rfl
  | cons op ops ih =>
    simp only [Spec.runAll, h.run (hh 0)]
    rcases op.run build (hash 0) t with ⟨t', r | r | r⟩
    · exact ih (fun n => hh (n + 1)) t'
    · rfl
    · rfl

end SameCallbacks
end Equistore
