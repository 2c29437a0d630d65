import Verif.Spec.Backend
import Verif.Lemmas.MergeTensor
import Verif.Lemmas.CHeap

/-! Operations on another type of arrays: the parts which only use labels. -/

namespace Equistore
open Spec

/-- Change the value of an outcome. -/
def Res.map {α β : Type} (f : α → β) : Res α → Res β
  | .ok a => .ok (f a)
  | .err e => .err e
  | .panic m => .panic m

@[simp] theorem Res.map_ok {α β : Type} (f : α → β) (a : α) : (Res.ok a).map f = .ok (f a) := rfl
@[simp] theorem Res.map_err {α β : Type} (f : α → β) (e : Error) : (Res.err e : Res α).map f = .err e := rfl
@[simp] theorem Res.map_panic {α β : Type} (f : α → β) (m : String) : (Res.panic m : Res α).map f = .panic m := rfl

theorem Res.map_eq_ok {α β : Type} {f : α → β} {x : Res α} {b : β} :
    x.map f = .ok b ↔ ∃ a, x = .ok a ∧ f a = b := by
  cases x <;> simp [Res.map]

theorem Res.bind_comm {α α' β β' : Type} {x' : Res α'} {x : Res α} (f : α → α') {g' : α' → Res β'}
    {g : α → Res β} {h : β → β'} (hx : x' = x.map f) (hg : ∀ a, x = .ok a → g' (f a) = (g a).map h) :
    (x' >>= g') = (x >>= g).map h := by
  subst hx
  cases x with
  | ok a => exact hg a rfl
  | err e => rfl
  | panic m => rfl

theorem Res.bind_same {α β β' : Type} {x' x : Res α} {g' : α → Res β'} {g : α → Res β} {h : β → β'}
    (hx : x' = x) (hg : ∀ a, x = .ok a → g' a = (g a).map h) : (x' >>= g') = (x >>= g).map h := by
  subst hx
  cases x' with
  | ok a => exact hg a rfl
  | err e => rfl
  | panic m => rfl

theorem Res.mapM_comm {α β β' : Type} {l : List α} {g' : α → Res β'} {g : α → Res β} {h : β → β'}
    (hg : ∀ a ∈ l, g' a = (g a).map h) : l.mapM g' = (l.mapM g).map (List.map h) := by
  induction l with
  | nil => rfl
  | cons a l ih =>
    rw [List.mapM_cons, List.mapM_cons]
    refine Res.bind_comm h (hg a List.mem_cons_self) fun b _ => ?_
    refine Res.bind_comm _ (ih fun a ha => hg a (List.mem_cons_of_mem _ ha)) fun bs _ => rfl

variable {A : Type} [ArrayLike A] {A' : Type} [ArrayLike A'] (f : A → A')

/-- Change the array of a basic block. -/
def BasicBlock.mapData (b : BasicBlock A) : BasicBlock A' := b.withData (f b.data)

/-- Change the arrays of the block of a pair. -/
def mapPair {κ : Type} (kb : κ × TensorBlock A) : κ × TensorBlock A' := (kb.1, kb.2.mapData f)

@[simp] theorem BasicBlock.mapData_samples (b : BasicBlock A) : (b.mapData f).samples = b.samples := rfl
@[simp] theorem BasicBlock.mapData_components (b : BasicBlock A) : (b.mapData f).components = b.components := rfl
@[simp] theorem BasicBlock.mapData_properties (b : BasicBlock A) : (b.mapData f).properties = b.properties := rfl
@[simp] theorem BasicBlock.mapData_data (b : BasicBlock A) : (b.mapData f).data = f b.data := rfl
@[simp] theorem TensorBlock.mapData_values (b : TensorBlock A) : (b.mapData f).values = b.values.mapData f := rfl
@[simp] theorem TensorBlock.mapData_gradients (b : TensorBlock A) :
    (b.mapData f).gradients = b.gradients.map fun g => (g.1, g.2.mapData f) := rfl
@[simp] theorem TensorBlock.mapData_parameters (b : TensorBlock A) :
    (b.mapData f).gradientParameters = b.gradientParameters := rfl
@[simp] theorem TensorMap.mapData_keys (t : TensorMap A) : (t.mapData f).keys = t.keys := rfl
@[simp] theorem TensorMap.mapData_blocks (t : TensorMap A) :
    (t.mapData f).blocks = t.blocks.map (TensorBlock.mapData f) := rfl

theorem lookup_map {β γ : Type} (g : β → γ) (l : List (String × β)) (p : String) :
    (l.map fun x => (x.1, g x.2)).lookup p = (l.lookup p).map g := by
  induction l with
  | nil => rfl
  | cons x l ih =>
    obtain ⟨n, b⟩ := x
    simp only [List.map_cons, List.lookup_cons, ih]
    cases p == n <;> rfl

@[simp] theorem TensorBlock.mapData_gradient (b : TensorBlock A) (p : String) :
    (b.mapData f).gradient p = (b.gradient p).map (BasicBlock.mapData f) := by
  unfold TensorBlock.gradient
  rw [mapData_gradients, lookup_map]

theorem Res.expect_map {α β : Type} (g : α → β) (x : Option α) (m : String) :
    Res.expect (x.map g) m = (Res.expect x m).map g := by
  cases x <;> rfl

theorem collectSamples_map (addKey : Bool) (blocks : List (List LabelValue × TensorBlock A)) :
    collectSamples addKey (blocks.map (mapPair f)) = collectSamples addKey blocks := by
  induction blocks with
  | nil => rfl
  | cons kb blocks ih =>
    obtain ⟨key, b⟩ := kb
    simp only [List.map_cons, mapPair, collectSamples] at ih ⊢
    rw [ih]
    rfl

theorem mapM_mapPair {κ β : Type} {g : κ × TensorBlock A → Res β} {g' : κ × TensorBlock A' → Res β}
    {l : List (κ × TensorBlock A)} (hg : ∀ kb ∈ l, g' (mapPair f kb) = g kb) :
    (l.map (mapPair f)).mapM g' = l.mapM g := by
  induction l with
  | nil => rfl
  | cons a l ih =>
    rw [List.map_cons, List.mapM_cons, List.mapM_cons, hg a List.mem_cons_self,
      ih fun kb h => hg kb (List.mem_cons_of_mem _ h)]

theorem mergeSamples_map (blocks : List (List LabelValue × TensorBlock A)) (names : List String) (sort : Bool) :
    mergeSamples (blocks.map (mapPair f)) names sort = mergeSamples blocks names sort := by
  unfold mergeSamples
  rw [List.head?_map]
  cases blocks with
  | nil => rfl
  | cons first rest =>
    have hm : ∀ merged addKey, ((first :: rest).map (mapPair f)).mapM
        (fun x : List LabelValue × TensorBlock A' => sampleMapping merged addKey x.1 x.2) =
        (first :: rest).mapM
        (fun x : List LabelValue × TensorBlock A => sampleMapping merged addKey x.1 x.2) := by
      intro merged addKey
      exact mapM_mapPair f fun kb _ => rfl
    simp only [List.head?_cons, Option.map_some, Res.expect_some, Res.ok_bind, collectSamples_map]
    have e : (mapPair f first).2.values.samples = first.2.values.samples := rfl
    rw [e]
    simp only [hm]

theorem checkMergeSamples_map (first : TensorBlock A) (blocks : List (List LabelValue × TensorBlock A)) :
    checkMergeSamples (first.mapData f) (blocks.map (mapPair f)) = checkMergeSamples first blocks := by
  induction blocks with
  | nil => rfl
  | cons kb blocks ih =>
    obtain ⟨key, b⟩ := kb
    rw [List.map_cons, mapPair, checkMergeSamples, checkMergeSamples, ih]
    rfl

theorem checkMergeProperties_map (user : Bool) (first : TensorBlock A)
    (blocks : List (List LabelValue × TensorBlock A)) :
    checkMergeProperties user (first.mapData f) (blocks.map (mapPair f)) = checkMergeProperties user first blocks := by
  induction blocks with
  | nil => rfl
  | cons kb blocks ih =>
    obtain ⟨key, b⟩ := kb
    rw [List.map_cons, mapPair, checkMergeProperties, checkMergeProperties, ih]
    rfl

theorem collectProperties_map (key : List LabelValue → List LabelValue)
    (blocks : List (List LabelValue × TensorBlock A)) :
    collectProperties key (blocks.map (mapPair f)) = collectProperties key blocks := by
  induction blocks with
  | nil => rfl
  | cons kb blocks ih =>
    obtain ⟨key, b⟩ := kb
    rw [List.map_cons, mapPair, collectProperties, collectProperties, ih]
    rfl

theorem collectUserProperties_map (blocks : List (List LabelValue × TensorBlock A))
    (entries : List (List LabelValue)) :
    collectUserProperties (blocks.map (mapPair f)) entries = collectUserProperties blocks entries := by
  induction entries with
  | nil => rfl
  | cons e entries ih => rw [collectUserProperties, collectUserProperties, ih, collectProperties_map]

theorem newPropertyEntries_map (user : Option Labels) (blocks : List (List LabelValue × TensorBlock A))
    (P : Labels) :
    newPropertyEntries user (blocks.map (mapPair f)) P = newPropertyEntries user blocks P := by
  unfold newPropertyEntries
  cases user with
  | none => simp only [collectProperties_map]
  | some u => simp only [collectUserProperties_map]

theorem propertyRanges_map (P : Labels) (blocks : List (List LabelValue × TensorBlock A)) :
    ((blocks.map (mapPair f)).mapM fun (moved, block) => propertyRange P moved block) =
      blocks.mapM fun (moved, block) => propertyRange P moved block :=
  mapM_mapPair f fun kb _ => rfl

theorem zip_mapPair {κ β : Type} (l : List (κ × TensorBlock A)) (r : List β) :
    (l.map (mapPair f)).zip r = (l.zip r).map fun x => (mapPair f x.1, x.2) := zip_map_left' _ l r

theorem collectGradientSamples_map (build : Build) (p : String)
    (items : List ((List LabelValue × TensorBlock A) × List SampleMapping)) :
    collectGradientSamples build p (items.map fun x => (mapPair f x.1, x.2)) =
      collectGradientSamples build p items := by
  induction items with
  | nil => rfl
  | cons it items ih =>
    obtain ⟨⟨key, b⟩, m⟩ := it
    rw [List.map_cons, mapPair, collectGradientSamples, collectGradientSamples, ih,
      TensorBlock.mapData_gradient]
    cases b.gradient p with
    | none => rfl
    | some g => rfl

theorem mergeGradientSamples_map (build : Build) (blocks : List (List LabelValue × TensorBlock A)) (p : String)
    (mappings : List (List SampleMapping)) :
    mergeGradientSamples build (blocks.map (mapPair f)) p mappings =
      mergeGradientSamples build blocks p mappings := by
  unfold mergeGradientSamples
  rw [zip_mapPair, collectGradientSamples_map, List.head?_map]
  cases (blocks.zip mappings).head? with
  | none => rfl
  | some it =>
    simp only [Option.map_some, Res.expect_some, Res.ok_bind, mapPair, TensorBlock.mapData_gradient]
    cases it.1.2.gradient p with
    | none => rfl
    | some g => rfl

theorem gradientMapping_map (build : Build) (mapping : List SampleMapping) (newSamples : Labels)
    (g : BasicBlock A) :
    gradientMapping build mapping newSamples (g.mapData f) = gradientMapping build mapping newSamples g := rfl

theorem zip_mapData (keys : List (List LabelValue)) (blocks : List (TensorBlock A)) :
    keys.zip (blocks.map (TensorBlock.mapData f)) = (keys.zip blocks).map (mapPair f) := by
  induction keys generalizing blocks with
  | nil => rfl
  | cons k ks ih =>
    cases blocks with
    | nil => rfl
    | cons b bs => simp [ih, mapPair]

theorem group_map (names moved : List String) (pairs : List (List LabelValue × TensorBlock A))
    (key' : List LabelValue) :
    group names moved (pairs.map (mapPair f)) key' = (group names moved pairs key').map (mapPair f) := by
  unfold group
  rw [List.filter_map]
  rfl

theorem toMerge_map (names moved : List String) (pairs : List (List LabelValue × TensorBlock A)) :
    (pairs.map (mapPair f)).map (toMerge names moved) = (pairs.map (toMerge names moved)).map (mapPair f) := by
  rw [List.map_map, List.map_map]
  rfl

end Equistore
