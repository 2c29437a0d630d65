import Verif.Spec.Callbacks
import Verif.Lemmas.BackendInstances

/-! Operations on arrays whose callbacks may fail, compared with the same operations where they do not. -/

namespace Equistore
open Spec NdArray

/-! ### Outcomes which are the same, or report a failed callback -/

theorem Res.map_id' {α : Type} (x : Res α) : x.map id = x := by
  cases x <;> rfl

/-- Either the second outcome is the first one, with its value changed, or the first one reports a failed callback. -/
def Follows {α β : Type} (f : α → β) (x : Res α) (y : Res β) : Prop := y = x.map f ∨ Reported x

theorem Reported.err_of {α β : Type} {e : Error} (h : Reported (.err e : Res α)) : Reported (.err e : Res β) := by
  cases e <;> exact h

theorem Reported.bind {α β : Type} {x : Res α} (h : Reported x) (k : α → Res β) : Reported (x >>= k) := by
  cases x with
  | ok a => exact h.elim
  | err e => exact (Reported.err_of h)
  | panic m => exact h

theorem CallbackError.reported {α : Type} {x : Res α} (h : CallbackError x) : Reported x := by
  cases x with
  | ok a => exact h.elim
  | err e => exact h
  | panic m => exact .inl h

namespace Follows

theorem of_eq {α β : Type} {f : α → β} {x : Res α} {y : Res β} (h : y = x.map f) : Follows f x y := .inl h

theorem bind {α α' β β' : Type} {f : α → α'} {g : β → β'} {x : Res α} {y : Res α'} {k : α → Res β} {k' : α' → Res β'}
    (hx : Follows f x y) (hk : ∀ a, x = .ok a → Follows g (k a) (k' (f a))) : Follows g (x >>= k) (y >>= k') := by
  rcases hx with rfl | hx
  · cases x with
    | ok a => exact hk a rfl
    | err e => exact .inl rfl
    | panic m => exact .inl rfl
  · exact .inr (Reported.bind hx k)

theorem same {α β β' : Type} {g : β → β'} {x y : Res α} {k : α → Res β} {k' : α → Res β'} (hx : y = x)
    (hk : ∀ a, x = .ok a → Follows g (k a) (k' a)) : Follows g (x >>= k) (y >>= k') := by
  subst hx
  cases y with
  | ok a => exact hk a rfl
  | err e => exact .inl rfl
  | panic m => exact .inl rfl

theorem mapM {α β β' : Type} {g : β → β'} {l : List α} {k : α → Res β} {k' : α → Res β'}
    (hk : ∀ a ∈ l, Follows g (k a) (k' a)) : Follows (List.map g) (l.mapM k) (l.mapM k') := by
  induction l with
  | nil => exact .inl rfl
  | cons a l ih =>
    rw [List.mapM_cons, List.mapM_cons]
    refine bind (hk a List.mem_cons_self) fun b _ => ?_
    refine bind (ih fun a ha => hk a (List.mem_cons_of_mem _ ha)) fun bs _ => .inl rfl

theorem expectOk {α β : Type} {f : α → β} {x : Res α} {y : Res β} (h : Follows f x y) {m : String} (hm : m ∈ notChecked) :
    Follows f (x.expectOk m) (y.expectOk m) := by
  rcases h with rfl | h
  · exact .inl (Res.expectOk_map _ _ _)
  · cases x with
    | ok a => exact h.elim
    | err e => exact .inr (Or.inr hm : _ ∨ _)
    | panic m => exact .inr h

end Follows

/-- The same for functions which modify something. -/
def FollowsAct {σ σ' α : Type} (f : σ → σ') (x : Act σ α) (y : Act σ' α) (s : σ) : Prop :=
  y (f s) = (f (x s).1, (x s).2) ∨ Reported (x s).2

namespace FollowsAct

theorem bind {σ σ' α β : Type} {f : σ → σ'} {x : Act σ α} {y : Act σ' α} {k : α → Act σ β} {k' : α → Act σ' β} {s : σ}
    (hx : FollowsAct f x y s) (hk : ∀ a, (x s).2 = .ok a → FollowsAct f (k a) (k' a) (x s).1) :
    FollowsAct f (x >>= k) (y >>= k') s := by
  unfold FollowsAct at hx ⊢
  rw [Act.bind_apply, Act.bind_apply]
  rcases hx with hx | hx
  · rw [hx]
    rcases hr : x s with ⟨s₁, r | r | r⟩
    · rw [hr] at hk
      exact hk r rfl
    · exact .inl rfl
    · exact .inl rfl
  · rcases hr : x s with ⟨s₁, r | r | r⟩
    · rw [hr] at hx; exact hx.elim
    · rw [hr] at hx; exact .inr (Reported.err_of hx)
    · rw [hr] at hx; exact .inr hx

theorem lift {σ σ' α β : Type} {f : σ → σ'} {x y : Res α} {k : α → Act σ β} {k' : α → Act σ' β} {s : σ}
    (hx : Follows id x y) (hk : ∀ a, x = .ok a → FollowsAct f (k a) (k' a) s) :
    FollowsAct f (Act.lift x >>= k) (Act.lift y >>= k') s := by
  refine bind ?_ hk
  rcases hx with rfl | hx
  · left; cases x <;> rfl
  · exact .inr hx

end FollowsAct

/-! ### Operations on arrays with another type -/

/-- The callbacks of one type of arrays do the same as those of another one, except when they fail. -/
structure SameUnlessFailed {A A' : Type} [ArrayLike A] [ArrayLike A'] (f : A → A') : Prop where
  origin : ∀ a, Follows id (ArrayLike.origin a) (ArrayLike.origin (f a))
  shape : ∀ a, Follows id (ArrayLike.shape a) (ArrayLike.shape (f a))
  create : ∀ a shape, Follows f (ArrayLike.create a shape) (ArrayLike.create (f a) shape)
  reshape : ∀ a shape, FollowsAct f (ArrayLike.reshape · shape) (ArrayLike.reshape · shape) a
  swapAxes : ∀ a i j, FollowsAct f (ArrayLike.swapAxes · i j) (ArrayLike.swapAxes · i j) a
  move : ∀ input samples start stop output, FollowsAct f (ArrayLike.moveSamplesFrom · input samples start stop)
    (ArrayLike.moveSamplesFrom · (f input) samples start stop) output

section
variable {A : Type} [ArrayLike A] {A' : Type} [ArrayLike A'] {f : A → A'}

theorem moveSamples_follows (h : SameUnlessFailed f) (output input : A) (samples : List SampleMapping) (start stop : Nat) :
    Follows f (moveSamples output input samples start stop) (moveSamples (f output) (f input) samples start stop) := by
  unfold moveSamples
  rcases h.move input samples start stop output with e | e
  · simp only at e
    rw [e]
    rcases ArrayLike.moveSamplesFrom output input samples start stop with ⟨o, r | r | r⟩ <;> exact .inl rfl
  · simp only at e
    rcases hr : ArrayLike.moveSamplesFrom output input samples start stop with ⟨o, r | r | r⟩
    · rw [hr] at e; exact e.elim
    · rw [hr] at e; exact .inr (Reported.err_of e)
    · rw [hr] at e; exact .inr e

theorem moveAllSamples_follows (h : SameUnlessFailed f) (stop : Nat) (items : List (A × List SampleMapping)) (output : A) :
    Follows f (moveAllSamples stop output items)
      (moveAllSamples stop (f output) (items.map fun it => (f it.1, it.2))) := by
  induction items generalizing output with
  | nil => exact .inl rfl
  | cons it items ih =>
    rw [List.map_cons, moveAllSamples, moveAllSamples]
    exact (moveSamples_follows h _ _ _ _ _).bind fun o _ => ih o

theorem moveAllProperties_follows (h : SameUnlessFailed f) (items : List ((A × List SampleMapping) × Option (Nat × Nat)))
    (output : A) :
    Follows f (moveAllProperties output items)
      (moveAllProperties (f output) (items.map fun it => ((f it.1.1, it.1.2), it.2))) := by
  induction items generalizing output with
  | nil => exact .inl rfl
  | cons it items ih =>
    obtain ⟨⟨input, mapping⟩, range⟩ := it
    rw [List.map_cons]
    cases range with
    | none => exact ih output
    | some se => exact (moveSamples_follows h _ _ _ _ _).bind fun o _ => ih o

theorem moveAllGradients_follows (h : SameUnlessFailed f) (build : Build) (p : String) (newSamples : Labels)
    (newComponents : List Labels) (stop : Nat)
    (items : List ((List LabelValue × TensorBlock A) × List SampleMapping)) (output : A) :
    Follows f (moveAllGradients build p newSamples newComponents stop output items)
      (moveAllGradients build p newSamples newComponents stop (f output) (items.map fun it => (mapPair f it.1, it.2))) := by
  induction items generalizing output with
  | nil => exact .inl rfl
  | cons it items ih =>
    obtain ⟨⟨key, b⟩, mapping⟩ := it
    rw [List.map_cons, mapPair, moveAllGradients, moveAllGradients]
    simp only [TensorBlock.mapData_gradient]
    refine Follows.bind (.of_eq (Res.expect_map (BasicBlock.mapData f) _ _)) fun g _ => ?_
    refine Follows.same rfl fun _ _ => ?_
    refine Follows.same (gradientMapping_map _ _ _ _ _) fun gm _ => ?_
    exact (moveSamples_follows h _ _ _ _ _).bind fun o _ => ih o

theorem moveAllGradientProperties_follows (h : SameUnlessFailed f) (build : Build) (p : String) (newSamples : Labels)
    (newComponents : List Labels)
    (items : List (((List LabelValue × TensorBlock A) × List SampleMapping) × Option (Nat × Nat))) (output : A) :
    Follows f (moveAllGradientProperties build p newSamples newComponents output items)
      (moveAllGradientProperties build p newSamples newComponents (f output)
        (items.map fun it => ((mapPair f it.1.1, it.1.2), it.2))) := by
  induction items generalizing output with
  | nil => exact .inl rfl
  | cons it items ih =>
    obtain ⟨⟨⟨key, b⟩, mapping⟩, range⟩ := it
    rw [List.map_cons, mapPair]
    cases range with
    | none => exact ih output
    | some se =>
      simp only [moveAllGradientProperties, TensorBlock.mapData_gradient]
      refine Follows.bind (.of_eq (Res.expect_map (BasicBlock.mapData f) _ _)) fun g _ => ?_
      refine Follows.same rfl fun _ _ => ?_
      refine Follows.same (gradientMapping_map _ _ _ _ _) fun gm _ => ?_
      exact (moveSamples_follows h _ _ _ _ _).bind fun o _ => ih o

theorem checkDataAndLabels_follows (h : SameUnlessFailed f) (context : String) (data : A) (samples : Labels)
    (components : List Labels) (properties : Labels) :
    Follows id (checkDataAndLabels context data samples components properties)
      (checkDataAndLabels context (f data) samples components properties) := by
  unfold checkDataAndLabels
  refine (h.shape data).bind fun shape _ => .inl ?_
  exact (Res.map_id' _).symm

theorem TensorBlock.new_follows (h : SameUnlessFailed f) (data : A) (samples : Labels) (components : List Labels)
    (properties : Labels) :
    Follows (TensorBlock.mapData f) (TensorBlock.new data samples components properties)
      (TensorBlock.new (f data) samples components properties) := by
  unfold TensorBlock.new
  refine Follows.bind (f := BasicBlock.mapData f) ?_ fun b _ => .inl rfl
  unfold BasicBlock.new
  refine (checkDataAndLabels_follows h _ _ _ _ _).bind fun _ _ => ?_
  exact Follows.same rfl fun _ _ => .inl rfl

theorem checkGradient_follows (h : SameUnlessFailed f) (b : TensorBlock A) (parameter : String) (data : A)
    (samples : Labels) (components : List Labels) :
    Follows id (TensorBlock.checkGradient b parameter data samples components)
      (TensorBlock.checkGradient (b.mapData f) parameter (f data) samples components) := by
  unfold TensorBlock.checkGradient
  have e1 : ((b.mapData f).gradients.lookup parameter).isNone = (b.gradients.lookup parameter).isNone := by
    rw [TensorBlock.mapData_gradients, lookup_map, Option.isNone_map]
  rw [e1]
  refine Follows.same rfl fun _ _ => ?_
  refine (h.origin data).bind fun o _ => ?_
  refine (h.origin b.values.data).bind fun o' _ => ?_
  refine Follows.same rfl fun _ _ => ?_
  refine Follows.same rfl fun _ _ => ?_
  refine Follows.same rfl fun _ _ => ?_
  refine Follows.same rfl fun _ _ => ?_
  refine Follows.same rfl fun _ _ => ?_
  refine Follows.same rfl fun _ _ => ?_
  exact checkDataAndLabels_follows h _ _ _ _ _

theorem TensorBlock.addGradient_follows (h : SameUnlessFailed f) (parameter : String) (data : A)
    (samples : Labels) (components : List Labels) (b : TensorBlock A) :
    FollowsAct (TensorBlock.mapData f) (TensorBlock.addGradient parameter data samples components)
      (TensorBlock.addGradient parameter (f data) samples components) b := by
  unfold FollowsAct
  rw [addGradient_eq, addGradient_eq]
  rcases checkGradient_follows h b parameter data samples components with e | e
  · left
    rw [e]
    cases TensorBlock.checkGradient b parameter data samples components with
    | err e => rfl
    | panic m => rfl
    | ok u =>
      simp only [Res.map_ok]
      split
      · simp [TensorBlock.mapData, BasicBlock.withData, TensorBlock.gradientBlock]
      · simp [TensorBlock.mapData, BasicBlock.withData, TensorBlock.gradientBlock]
  · right
    cases hc : TensorBlock.checkGradient b parameter data samples components with
    | err e' => rw [hc] at e; exact (Reported.err_of e)
    | panic m => rw [hc] at e; exact e
    | ok u => rw [hc] at e; exact e.elim

theorem addGradientExpect_follows (h : SameUnlessFailed f) (b : TensorBlock A) (parameter : String) (data : A)
    (samples : Labels) (components : List Labels) :
    Follows (TensorBlock.mapData f) (addGradientExpect b parameter data samples components)
      (addGradientExpect (b.mapData f) parameter (f data) samples components) := by
  unfold addGradientExpect
  rcases TensorBlock.addGradient_follows h parameter data samples components b with e | e
  · rw [e]
    rcases TensorBlock.addGradient parameter data samples components b with ⟨b', r | r | r⟩ <;> exact .inl rfl
  · rcases hr : TensorBlock.addGradient parameter data samples components b with ⟨b', r | r | r⟩
    · rw [hr] at e; exact e.elim
    · exact .inr (by simp [Reported, notChecked])
    · rw [hr] at e; exact .inr e

theorem mergeGradientsAlongSamples_follows (h : SameUnlessFailed f) (build : Build) (first : TensorBlock A)
    (blocks : List (List LabelValue × TensorBlock A)) (mappings : List (List SampleMapping)) (stop : Nat)
    (gs : List (String × BasicBlock A)) (newBlock : TensorBlock A) :
    Follows (TensorBlock.mapData f) (mergeGradientsAlongSamples build first blocks mappings stop newBlock gs)
      (mergeGradientsAlongSamples build (first.mapData f) (blocks.map (mapPair f)) mappings stop (newBlock.mapData f)
        (gs.map fun pg => (pg.1, pg.2.mapData f))) := by
  induction gs generalizing newBlock with
  | nil => exact .inl rfl
  | cons pg gs ih =>
    obtain ⟨q, g⟩ := pg
    rw [List.map_cons, mergeGradientsAlongSamples, mergeGradientsAlongSamples]
    refine Follows.same (mergeGradientSamples_map _ _ _ _ _) fun newSamples _ => ?_
    refine (h.shape g.data).bind fun shape _ => ?_
    refine Follows.same rfl fun _ _ => ?_
    refine Follows.same rfl fun count _ => ?_
    refine (h.create _ _).bind fun zeros _ => ?_
    refine Follows.bind (f := f) ?_ fun data _ => ?_
    · rw [zip_mapPair]
      exact moveAllGradients_follows h _ _ _ _ _ _ _
    · exact (addGradientExpect_follows h _ _ _ _ _).bind fun nb _ => ih nb

theorem mergeGradientsAlongProperties_follows (h : SameUnlessFailed f) (build : Build) (first : TensorBlock A)
    (blocks : List (List LabelValue × TensorBlock A)) (mappings : List (List SampleMapping))
    (ranges : List (Option (Nat × Nat))) (n : Nat) (gs : List (String × BasicBlock A)) (newBlock : TensorBlock A) :
    Follows (TensorBlock.mapData f) (mergeGradientsAlongProperties build first blocks mappings ranges n newBlock gs)
      (mergeGradientsAlongProperties build (first.mapData f) (blocks.map (mapPair f)) mappings ranges n
        (newBlock.mapData f) (gs.map fun pg => (pg.1, pg.2.mapData f))) := by
  induction gs generalizing newBlock with
  | nil => exact .inl rfl
  | cons pg gs ih =>
    obtain ⟨q, g⟩ := pg
    rw [List.map_cons, mergeGradientsAlongProperties, mergeGradientsAlongProperties]
    refine Follows.same (mergeGradientSamples_map _ _ _ _ _) fun newSamples _ => ?_
    refine (h.shape g.data).bind fun shape _ => ?_
    refine Follows.same rfl fun _ _ => ?_
    refine Follows.same rfl fun count _ => ?_
    refine (h.create _ _).bind fun zeros _ => ?_
    refine Follows.bind (f := f) ?_ fun data _ => ?_
    · rw [zip_mapPair, zip_map_left']
      exact moveAllGradientProperties_follows h _ _ _ _ _ _
    · exact (addGradientExpect_follows h _ _ _ _ _).bind fun nb _ => ih nb

theorem mergeBlocksAlongSamples_follows (h : SameUnlessFailed f) (build : Build) {hash : HashOrder}
    (hh : OrderByName hash) (extracted : List String) (sort : Bool)
    (blocks : List (List LabelValue × TensorBlock A)) :
    Follows (TensorBlock.mapData f) (mergeBlocksAlongSamples build hash extracted sort blocks)
      (mergeBlocksAlongSamples build hash extracted sort (blocks.map (mapPair f))) := by
  unfold mergeBlocksAlongSamples
  rw [List.head?_map]
  refine Follows.bind (.of_eq (Res.expect_map (mapPair f) _ _)) fun first _ => ?_
  simp only [mapPair, TensorBlock.mapData_values, BasicBlock.mapData_samples,
    BasicBlock.mapData_components, BasicBlock.mapData_properties, BasicBlock.mapData_data]
  refine Follows.same (checkMergeSamples_map _ _ _) fun _ _ => ?_
  refine Follows.same (mergeSamples_map _ _ _ _) ?_
  rintro ⟨S, mappings⟩ _
  refine (h.shape _).bind fun shape _ => ?_
  refine Follows.same rfl fun _ _ => ?_
  refine Follows.same rfl fun count _ => ?_
  refine (h.create _ _).bind fun zeros _ => ?_
  refine Follows.same rfl fun stop _ => ?_
  have hz : ((blocks.map (mapPair f)).map fun b => b.2.values.data).zip mappings =
      ((blocks.map fun b => b.2.values.data).zip mappings).map fun it => (f it.1, it.2) := by
    rw [List.map_map, zip_map_left', zip_map_left', List.map_map]
    rfl
  rw [hz]
  refine (moveAllSamples_follows h _ _ _).bind fun data _ => ?_
  refine ((TensorBlock.new_follows h _ _ _ _).expectOk (by simp [notChecked])).bind fun nb _ => ?_
  rw [TensorBlock.mapData_gradients, hh]
  exact mergeGradientsAlongSamples_follows h _ _ _ _ _ _ _

theorem mergeBlocksAlongProperties_follows (h : SameUnlessFailed f) (build : Build) {hash : HashOrder}
    (hh : OrderByName hash) (user : Option Labels) (extracted : List String) (sort : Bool)
    (blocks : List (List LabelValue × TensorBlock A)) :
    Follows (TensorBlock.mapData f) (mergeBlocksAlongProperties build hash user extracted sort blocks)
      (mergeBlocksAlongProperties build hash user extracted sort (blocks.map (mapPair f))) := by
  unfold mergeBlocksAlongProperties
  rw [List.head?_map]
  refine Follows.bind (.of_eq (Res.expect_map (mapPair f) _ _)) fun first _ => ?_
  simp only [mapPair, TensorBlock.mapData_values, BasicBlock.mapData_samples,
    BasicBlock.mapData_components, BasicBlock.mapData_properties, BasicBlock.mapData_data]
  refine Follows.same (checkMergeProperties_map _ _ _ _) fun _ _ => ?_
  refine Follows.same (mergeSamples_map _ _ _ _) ?_
  rintro ⟨S, mappings⟩ _
  refine Follows.same (newPropertyEntries_map _ _ _ _) fun entries _ => ?_
  refine Follows.same rfl fun P' _ => ?_
  refine Follows.same rfl fun n _ => ?_
  refine (h.shape _).bind fun shape _ => ?_
  refine Follows.same rfl fun _ _ => ?_
  refine Follows.same rfl fun count _ => ?_
  refine (h.create _ _).bind fun zeros _ => ?_
  refine Follows.same (propertyRanges_map _ _ _) fun ranges _ => ?_
  have hz : (((blocks.map (mapPair f)).map fun b => b.2.values.data).zip mappings).zip ranges =
      (((blocks.map fun b => b.2.values.data).zip mappings).zip ranges).map
        fun it => ((f it.1.1, it.1.2), it.2) := by
    rw [List.map_map, zip_map_left', zip_map_left', zip_map_left', zip_map_left', List.map_map]
    rfl
  rw [hz]
  refine (moveAllProperties_follows h _ _).bind fun data _ => ?_
  refine ((TensorBlock.new_follows h _ _ _ _).expectOk (by simp [notChecked])).bind fun nb _ => ?_
  rw [TensorBlock.mapData_gradients, hh]
  exact mergeGradientsAlongProperties_follows h _ _ _ _ _ _ _ _

theorem allBlocksToMerge_map (f : A → A') (t : TensorMap A) (positions : List Nat) :
    allBlocksToMerge (t.mapData f) positions = (allBlocksToMerge t positions).map (List.map (mapPair f)) := by
  unfold allBlocksToMerge
  refine Res.bind_same rfl fun keys _ => ?_
  rw [TensorMap.mapData_blocks, zip_mapData]
  generalize keys.zip t.blocks = l
  induction l with
  | nil => rfl
  | cons kb l ih =>
    obtain ⟨key, b⟩ := kb
    rw [List.map_cons, List.mapM_cons, List.mapM_cons]
    refine Res.bind_comm (mapPair f) ?_ fun x _ => ?_
    · exact Res.bind_same rfl fun _ _ => rfl
    · exact Res.bind_comm _ ih fun xs _ => rfl

theorem blocksToMerge_map (f : A → A') (t : TensorMap A) (positions indices : List Nat) :
    blocksToMerge (t.mapData f) positions indices = (blocksToMerge t positions indices).map (List.map (mapPair f)) := by
  unfold blocksToMerge
  refine Res.mapM_comm fun i _ => ?_
  refine Res.bind_comm (TensorBlock.mapData f) ?_ fun b _ => ?_
  · rw [TensorMap.mapData_blocks, List.getElem?_map]
    exact Res.expect_map _ _ _
  · refine Res.bind_same rfl fun key _ => ?_
    exact Res.bind_same rfl fun _ _ => rfl

theorem mergeForKeys_follows {merge : List (List LabelValue × TensorBlock A) → Res (TensorBlock A)}
    {merge' : List (List LabelValue × TensorBlock A') → Res (TensorBlock A')}
    (hm : ∀ blocks, Follows (TensorBlock.mapData f) (merge blocks) (merge' (blocks.map (mapPair f)))) (t : TensorMap A)
    (newKeys : Labels) (positions : List Nat) :
    Follows (List.map (TensorBlock.mapData f)) (mergeForKeys t newKeys positions merge)
      (mergeForKeys (t.mapData f) newKeys positions merge') := by
  unfold mergeForKeys
  refine Follows.same rfl fun count _ => ?_
  split
  · refine Follows.bind (.of_eq (allBlocksToMerge_map f t positions)) fun blocks _ => ?_
    exact (hm blocks).bind fun b _ => .inl rfl
  · refine Follows.same rfl fun entries _ => ?_
    refine Follows.mapM fun entry _ => ?_
    refine Follows.same rfl fun selection _ => ?_
    refine Follows.same ?_ fun matching _ => ?_
    · unfold TensorMap.blocksMatching
      rw [TensorMap.mapData_blocks, List.length_map]
      rfl
    refine Follows.bind (.of_eq (blocksToMerge_map f t positions matching)) fun blocks _ => ?_
    exact hm blocks

theorem TensorMap.keysToSamples_follows (h : SameUnlessFailed f) (build : Build) {hash : HashOrder}
    (hh : OrderByName hash) (keysToMove : Labels) (sort : Bool) (t : TensorMap A) :
    FollowsAct (TensorMap.mapData f) (TensorMap.keysToSamples build hash keysToMove sort)
      (TensorMap.keysToSamples build hash keysToMove sort) t := by
  have key : Follows (fun kb : Labels × List (TensorBlock A) => (kb.1, kb.2.map (TensorBlock.mapData f)))
      (t.keysToSamplesResult build hash keysToMove sort)
      ((t.mapData f).keysToSamplesResult build hash keysToMove sort) := by
    unfold TensorMap.keysToSamplesResult
    refine Follows.same rfl fun count _ => ?_
    refine Follows.same rfl fun _ _ => ?_
    refine Follows.same rfl ?_
    rintro ⟨newKeys, positions⟩ _
    refine (mergeForKeys_follows (fun blocks => mergeBlocksAlongSamples_follows h _ hh _ _ _) _ _ _).bind fun bs _ => .inl rfl
  unfold FollowsAct
  rw [keysToSamples_eq, keysToSamples_eq]
  rcases key with e | e
  · left
    rw [e]
    cases t.keysToSamplesResult build hash keysToMove sort <;> rfl
  · right
    cases hr : t.keysToSamplesResult build hash keysToMove sort with
    | ok x => rw [hr] at e; exact e.elim
    | err x => rw [hr] at e; exact (Reported.err_of e)
    | panic x => rw [hr] at e; exact e

theorem TensorMap.keysToProperties_follows (h : SameUnlessFailed f) (build : Build) {hash : HashOrder}
    (hh : OrderByName hash) (keysToMove : Labels) (sort : Bool) (t : TensorMap A) :
    FollowsAct (TensorMap.mapData f) (TensorMap.keysToProperties build hash keysToMove sort)
      (TensorMap.keysToProperties build hash keysToMove sort) t := by
  have key : Follows (fun kb : Labels × List (TensorBlock A) => (kb.1, kb.2.map (TensorBlock.mapData f)))
      (t.keysToPropertiesResult build hash keysToMove sort)
      ((t.mapData f).keysToPropertiesResult build hash keysToMove sort) := by
    unfold TensorMap.keysToPropertiesResult
    refine Follows.same rfl ?_
    rintro ⟨newKeys, positions⟩ _
    refine Follows.same rfl fun count _ => ?_
    refine (mergeForKeys_follows (fun blocks => mergeBlocksAlongProperties_follows h _ hh _ _ _ _) _ _ _).bind
      fun bs _ => .inl rfl
  unfold FollowsAct
  rw [keysToProperties_eq, keysToProperties_eq]
  rcases key with e | e
  · left
    rw [e]
    cases t.keysToPropertiesResult build hash keysToMove sort <;> rfl
  · right
    cases hr : t.keysToPropertiesResult build hash keysToMove sort with
    | ok x => rw [hr] at e; exact e.elim
    | err x => rw [hr] at e; exact (Reported.err_of e)
    | panic x => rw [hr] at e; exact e

/-! ### `components_to_properties` -/

theorem focusData_follows {x : Act A Unit} {y : Act A' Unit} {b : BasicBlock A} (h : FollowsAct f x y b.data) :
    FollowsAct (BasicBlock.mapData f)
      (Act.focus (·.data) (fun data b => { b with data }) x)
      (Act.focus (·.data) (fun data b => { b with data }) y) b := by
  unfold FollowsAct Act.focus at *
  rcases h with h | h
  · left
    simp only [BasicBlock.mapData_data, h]
    rfl
  · exact .inr h

theorem BasicBlock.componentsToProperties_follows (h : SameUnlessFailed f) (vars : List String) (b : BasicBlock A) :
    FollowsAct (BasicBlock.mapData f) (BasicBlock.componentsToProperties vars)
      (BasicBlock.componentsToProperties vars) b := by
  unfold FollowsAct BasicBlock.componentsToProperties
  rw [Act.get_bind, Act.get_bind]
  change FollowsAct _ _ _ _
  simp only [BasicBlock.mapData_components]
  cases hf : b.components.findIdx? (fun c => c.names == vars) with
  | none => exact .inl rfl
  | some axis =>
    simp only
    refine FollowsAct.lift (.inl (Res.map_id' _).symm) fun c _ => ?_
    refine FollowsAct.bind (.inl rfl) fun _ _ => ?_
    refine FollowsAct.lift (.inl (Res.map_id' _).symm) fun P' _ => ?_
    refine FollowsAct.lift (h.shape _) fun shape _ => ?_
    refine FollowsAct.lift (.inl (Res.map_id' _).symm) fun _ _ => ?_
    refine FollowsAct.lift (.inl (Res.map_id' _).symm) fun count _ => ?_
    refine FollowsAct.lift (.inl (Res.map_id' _).symm) fun _ _ => ?_
    refine FollowsAct.bind (focusData_follows (h.swapAxes _ _ _)) fun _ _ => ?_
    refine FollowsAct.bind (focusData_follows (h.reshape _ _)) fun _ _ => ?_
    exact .inl rfl

theorem TensorBlock.setGradient_mapData (f : A → A') (name : String) (g : BasicBlock A) (b : TensorBlock A) :
    TensorBlock.setGradient name (g.mapData f) (b.mapData f) = (TensorBlock.setGradient name g b).mapData f := by
  unfold TensorBlock.setGradient TensorBlock.mapData
  simp only [List.map_map, TensorBlock.mk.injEq, true_and, and_true]
  apply List.map_congr_left
  rintro ⟨n, old⟩ _
  by_cases hn : n = name
  · simp [hn]; rfl
  · simp [hn]

theorem TensorBlock.gradientsComponentsToProperties_follows (h : SameUnlessFailed f) (vars : List String)
    (gs : List (String × BasicBlock A)) (b : TensorBlock A) :
    FollowsAct (TensorBlock.mapData f) (TensorBlock.gradientsComponentsToProperties vars gs)
      (TensorBlock.gradientsComponentsToProperties vars (gs.map fun pg => (pg.1, pg.2.mapData f))) b := by
  induction gs generalizing b with
  | nil => exact .inl rfl
  | cons pg gs ih =>
    obtain ⟨name, g⟩ := pg
    rw [List.map_cons, gradientsComponentsToProperties, gradientsComponentsToProperties]
    refine FollowsAct.bind ?_ fun _ _ => ih _
    unfold FollowsAct Act.focus
    rcases BasicBlock.componentsToProperties_follows h vars g with e | e
    · left
      simp only [e, TensorBlock.setGradient_mapData]
    · exact .inr e

theorem TensorBlock.componentsToProperties_follows (h : SameUnlessFailed f) {hash : HashOrder} (hh : OrderByName hash)
    (vars : List String) (b : TensorBlock A) :
    FollowsAct (TensorBlock.mapData f) (TensorBlock.componentsToProperties hash vars)
      (TensorBlock.componentsToProperties hash vars) b := by
  unfold TensorBlock.componentsToProperties
  split
  · exact .inl rfl
  · refine FollowsAct.bind ?_ fun _ _ => ?_
    · unfold FollowsAct Act.focus
      rcases BasicBlock.componentsToProperties_follows h vars b.values with e | e
      · left
        simp only [TensorBlock.mapData_values, e]
        rfl
      · exact .inr e
    · unfold FollowsAct
      rw [Act.get_bind, Act.get_bind, TensorBlock.mapData_gradients, hh]
      exact TensorBlock.gradientsComponentsToProperties_follows h vars _ _

theorem TensorMap.componentsToProperties_follows (h : SameUnlessFailed f) {hash : HashOrder} (hh : OrderByName hash)
    (vars : List String) (t : TensorMap A) :
    FollowsAct (TensorMap.mapData f) (TensorMap.componentsToProperties hash vars)
      (TensorMap.componentsToProperties hash vars) t := by
  have key : ∀ bs : List (TensorBlock A), FollowsAct (List.map (TensorBlock.mapData f))
      (componentsToPropertiesLoop hash vars) (componentsToPropertiesLoop hash vars) bs := by
    intro bs
    induction bs with
    | nil => exact .inl rfl
    | cons b bs ih =>
      unfold FollowsAct at ih ⊢
      rw [List.map_cons, componentsToPropertiesLoop, componentsToPropertiesLoop]
      rcases TensorBlock.componentsToProperties_follows h hh vars b with e | e
      · rw [e]
        rcases TensorBlock.componentsToProperties hash vars b with ⟨b', r | r | r⟩
        · rcases ih with ih | ih
          · left; simp only [ih, List.map_cons]
          · exact .inr ih
        · exact .inl rfl
        · exact .inl rfl
      · rcases hr : TensorBlock.componentsToProperties hash vars b with ⟨b', r | r | r⟩
        · rw [hr] at e; exact e.elim
        · rw [hr] at e; exact .inr e
        · rw [hr] at e; exact .inr e
  unfold TensorMap.componentsToProperties
  split
  · exact .inl rfl
  · unfold FollowsAct Act.focus
    rcases key t.blocks with e | e
    · left
      simp only [TensorMap.mapData_blocks, e]
      rfl
    · exact .inr e

theorem Op.run_follows (h : SameUnlessFailed f) (build : Build) {hash : HashOrder} (hh : OrderByName hash) (op : Op)
    (t : TensorMap A) : FollowsAct (TensorMap.mapData f) (op.run build hash) (op.run build hash) t := by
  cases op with
  | keysToSamples k sort => exact TensorMap.keysToSamples_follows h build hh k sort t
  | keysToProperties k sort => exact TensorMap.keysToProperties_follows h build hh k sort t
  | componentsToProperties names => exact TensorMap.componentsToProperties_follows h hh names t

end

/-! ### Repairing callbacks which fail -/

section
variable {A : Type} [ArrayLike A] {view : A → NdArray}

/-- Arrays where `ndarray` is used whenever a callback fails. -/
def Repaired (_ : MayFail view) : Type := A ⊕ RustArray

namespace Repaired

/-- The shape and elements. -/
def view' {h : MayFail view} : Repaired h → NdArray
  | .inl a => view a
  | .inr r => r.array

/-- The same content, with `ndarray`. -/
def rust {h : MayFail view} (a : Repaired h) : RustArray :=
  ⟨a.view', match a with
    | .inl a => h.elements a
    | .inr r => r.complete⟩

/-- Use the callback, or `ndarray` if it failed. -/
noncomputable def orElse {h : MayFail view} (r : A × Res Unit) (other : RustArray × Res Unit) : Repaired h × Res Unit :=
  if CallbackError r.2 then (.inr other.1, other.2) else (.inl r.1, r.2)

/-- Create an array with the callback, or `ndarray` if it failed. -/
def createOrElse {h : MayFail view} (r : Res A) (other : Res RustArray) : Res (Repaired h) :=
  match r with
  | .ok a' => .ok (.inl a')
  | _ => other.map .inr

noncomputable instance {h : MayFail view} : ArrayLike (Repaired h) where
  origin _ := .ok h.origin.choose
  data a := ArrayLike.data a.rust
  shape a := .ok a.view'.shape
  create a shape := match a with
    | .inl b => createOrElse (ArrayLike.create b shape) (ArrayLike.create a.rust shape)
    | .inr r => (ArrayLike.create r shape).map .inr
  reshape a shape := match a with
    | .inl b => orElse (ArrayLike.reshape b shape) (ArrayLike.reshape a.rust shape)
    | .inr r => (.inr (ArrayLike.reshape r shape).1, (ArrayLike.reshape r shape).2)
  swapAxes a i j := match a with
    | .inl b => orElse (ArrayLike.swapAxes b i j) (ArrayLike.swapAxes a.rust i j)
    | .inr r => (.inr (ArrayLike.swapAxes r i j).1, (ArrayLike.swapAxes r i j).2)
  moveSamplesFrom output input samples start stop :=
    let other := ArrayLike.moveSamplesFrom output.rust input.rust samples start stop
    match output, input with
    | .inl o, .inl i => orElse (ArrayLike.moveSamplesFrom o i samples start stop) other
    | _, _ => (.inr other.1, other.2)

theorem orElse_ok {h : MayFail view} {r : A × Res Unit} {other : RustArray × Res Unit} {P : NdArray → Prop}
    (h1 : (∃ a, r = (a, .ok ()) ∧ P (view a)) ∨ CallbackError r.2)
    (h2 : ∃ a, other = (a, .ok ()) ∧ P a.array) :
    ∃ a : Repaired h, orElse r other = (a, .ok ()) ∧ P a.view' := by
  unfold orElse
  rcases h1 with ⟨a, rfl, hp⟩ | he
  · rw [if_neg (by simp [CallbackError])]
    exact ⟨.inl a, rfl, hp⟩
  · obtain ⟨a, rfl, hp⟩ := h2
    rw [if_pos he]
    exact ⟨.inr a, rfl, hp⟩

theorem implements (h : MayFail view) : Implements (view' (h := h)) where
  origin := ⟨_, fun _ => rfl⟩
  elements a := a.rust.complete
  shape a := rfl
  create a shape := by
    have key : ∃ a' : Repaired h, (ArrayLike.create a.rust shape).map .inr = .ok a' ∧ a'.view'.shape = shape ∧
        ∀ idx, InShape shape idx → a'.view'.get idx = 0 := by
      obtain ⟨r, h1, h2, h3⟩ := implements_rust.create a.rust shape
      exact ⟨.inr r, by rw [h1]; rfl, h2, h3⟩
    cases a with
    | inr r => exact key
    | inl b =>
      change ∃ a' : Repaired h,
        createOrElse (ArrayLike.create b shape) (ArrayLike.create (rust (h := h) (.inl b)) shape) = _ ∧ _
      rcases h.create b shape with ⟨a', h1, h2⟩ | h1
      · rw [h1]
        exact ⟨.inl a', rfl, h2⟩
      · cases hc : ArrayLike.create b shape with
        | ok a' => rw [hc] at h1; exact h1.elim
        | err e => exact key
        | panic m => exact key
  reshape a shape hs := by
    have key := implements_rust.reshape a.rust shape hs
    cases a with
    | inr r =>
      obtain ⟨r', h1, h2⟩ := key
      refine ⟨.inr r', ?_, h2⟩
      change ((.inr (ArrayLike.reshape r shape).1, (ArrayLike.reshape r shape).2) : Repaired h × Res Unit) = _
      have h1 : ArrayLike.reshape r shape = (r', .ok ()) := h1
      rw [h1]
    | inl b =>
      exact orElse_ok (P := fun x => x.shape = shape ∧ x.elements = (view b).elements)
        (h.reshape b shape hs) key
  swapAxes a i j hs := by
    have key := implements_rust.swapAxes a.rust i j hs
    cases a with
    | inr r =>
      obtain ⟨r', h1, h2⟩ := key
      refine ⟨.inr r', ?_, h2⟩
      change ((.inr (ArrayLike.swapAxes r i j).1, (ArrayLike.swapAxes r i j).2) : Repaired h × Res Unit) = _
      have h1 : ArrayLike.swapAxes r i j = (r', .ok ()) := h1
      rw [h1]
    | inl b =>
      exact orElse_ok (P := fun x => x.shape = swapList (view b).shape i j ∧
        ∀ idx, InShape (swapList (view b).shape i j) idx → x.get idx = (view b).get (swapList idx i j))
        (h.swapAxes b i j hs) key
  move output input samples start stop hm := by
    have key := implements_rust.move output.rust input.rust samples start stop hm
    rcases output with o | o
    · rcases input with i | i
      · exact orElse_ok (P := fun x => x.shape = (view o).shape ∧
          ∀ i' between j, InShape (view o).shape (i' :: between ++ [j]) →
            (∀ m ∈ samples, m.output = i' → start ≤ j → j < stop →
              x.get (i' :: between ++ [j]) = (view i).get (m.input :: between ++ [j - start])) ∧
            ((∀ m ∈ samples, m.output = i' → ¬ (start ≤ j ∧ j < stop)) →
              x.get (i' :: between ++ [j]) = (view o).get (i' :: between ++ [j])))
          (h.move o i samples start stop hm) key
      · obtain ⟨r', h1, h2⟩ := key
        refine ⟨.inr r', ?_, h2⟩
        exact congrArg (fun x : RustArray × Res Unit => ((.inr x.1, x.2) : Repaired h × Res Unit)) h1
    · obtain ⟨r', h1, h2⟩ := key
      refine ⟨.inr r', ?_, h2⟩
      exact congrArg (fun x : RustArray × Res Unit => ((.inr x.1, x.2) : Repaired h × Res Unit)) h1

/-- An array whose callbacks may fail, as one whose callbacks do not. -/
def repair (h : MayFail view) (a : A) : Repaired h := .inl a

theorem orElse_follows {h : MayFail view} {x : Act A Unit} {y : Act (Repaired h) Unit} {a : A} {other : RustArray × Res Unit}
    (hy : y (repair h a) = orElse (x a) other) : FollowsAct (repair h) x y a := by
  unfold FollowsAct
  rw [hy]
  unfold orElse
  by_cases hc : CallbackError (x a).2
  · exact .inr (CallbackError.reported hc)
  · rw [if_neg hc]
    exact .inl rfl

theorem same (h : MayFail view) : SameUnlessFailed (repair h) where
  origin a := by
    rcases h.origin.choose_spec a with e | e
    · left; rw [e]; rfl
    · exact .inr (CallbackError.reported e)
  shape a := by
    rcases h.shape a with e | e
    · left; rw [e]; rfl
    · exact .inr (CallbackError.reported e)
  create a shape := by
    rcases h.create a shape with ⟨a', e, -⟩ | e
    · left
      change createOrElse (ArrayLike.create a shape) _ = _
      rw [e]
      rfl
    · exact .inr (CallbackError.reported e)
  reshape a shape := orElse_follows rfl
  swapAxes a i j := orElse_follows rfl
  move input samples start stop output := orElse_follows rfl

end Repaired
end

/-! ### Functions where the status of callbacks is always reported -/

theorem CallbackError.err_of {α β : Type} {e : Error} (h : CallbackError (.err e : Res α)) :
    CallbackError (.err e : Res β) := by
  cases e <;> exact h

theorem CallbackError.bind {α β : Type} {x : Res α} (h : CallbackError x) (k : α → Res β) : CallbackError (x >>= k) := by
  cases x with
  | ok a => exact h.elim
  | err e => exact CallbackError.err_of h
  | panic m => exact h

/-- The same outcome, or the status of a callback. -/
def UnlessError {α : Type} (x y : Res α) : Prop := CallbackError x ∨ y = x

theorem UnlessError.bind {α β : Type} {x y : Res α} {k k' : α → Res β} (hx : UnlessError x y)
    (hk : ∀ a, UnlessError (k a) (k' a)) : UnlessError (x >>= k) (y >>= k') := by
  rcases hx with hx | rfl
  · exact .inl (CallbackError.bind hx k)
  · cases y with
    | ok a => exact hk a
    | err e => exact .inr rfl
    | panic m => exact .inr rfl

section
variable {A : Type} [ArrayLike A] {view : A → NdArray}

theorem checkDataAndLabels_unlessError (h : MayFail view) (context : String) (data : A) (samples : Labels)
    (components : List Labels) (properties : Labels) :
    UnlessError (checkDataAndLabels context data samples components properties)
      (checkDataAndLabels context (view data) samples components properties) := by
  unfold checkDataAndLabels
  refine UnlessError.bind ?_ fun shape => .inr rfl
  rcases h.shape data with e | e
  · right; rw [e]; rfl
  · exact .inl e

theorem checkGradient_unlessError (h : MayFail view) (b : TensorBlock A) (parameter : String) (data : A)
    (samples : Labels) (components : List Labels) :
    UnlessError (TensorBlock.checkGradient b parameter data samples components)
      (TensorBlock.checkGradient (b.mapData view) parameter (view data) samples components) := by
  unfold TensorBlock.checkGradient
  have e1 : ((b.mapData view).gradients.lookup parameter).isNone = (b.gradients.lookup parameter).isNone := by
    rw [TensorBlock.mapData_gradients, lookup_map, Option.isNone_map]
  rw [e1]
  refine UnlessError.bind (.inr rfl) fun _ => ?_
  obtain ⟨o, ho⟩ := h.origin
  rcases ho data with h1 | h1
  swap
  · exact .inl (CallbackError.bind h1 _)
  rcases ho b.values.data with h2 | h2
  swap
  · rw [h1]
    exact .inl (CallbackError.bind h2 _)
  obtain ⟨o', ho'⟩ : ∃ o', ∀ a : NdArray, ArrayLike.origin a = .ok o' := ⟨_, fun _ => rfl⟩
  rw [h1, h2, ho', ho']
  simp only [Res.ok_bind, beq_self_eq_true]
  refine UnlessError.bind (.inr rfl) fun _ => ?_
  refine UnlessError.bind (.inr rfl) fun _ => ?_
  refine UnlessError.bind (.inr rfl) fun _ => ?_
  refine UnlessError.bind (.inr rfl) fun _ => ?_
  refine UnlessError.bind (.inr rfl) fun _ => ?_
  refine UnlessError.bind (.inr rfl) fun _ => ?_
  exact checkDataAndLabels_unlessError h _ _ _ _ _

end

end Equistore
