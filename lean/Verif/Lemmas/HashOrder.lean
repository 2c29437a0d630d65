import Verif.Spec.History
import Verif.Lemmas.ComponentsOutcome
import Verif.Lemmas.KeysToProperties
import Mathlib.Data.List.Perm.Basic

/-! Independence from the iteration order of hash maps. -/

namespace Equistore
open Spec

variable {A : Type} [ArrayLike A]

/-- The same block up to the order of gradients. -/
structure PermBlock (b b' : TensorBlock A) : Prop where
  values : b.values = b'.values
  perm : b.gradients.Perm b'.gradients
  nodup : (b.gradients.map Prod.fst).Nodup
  list : b.gradientParameters.Perm b'.gradientParameters

theorem PermBlock.gradient {b b' : TensorBlock A} (h : PermBlock b b') (p : String) :
    b.gradient p = b'.gradient p := by
  have h1 : b.GradientsNodup := h.nodup
  have h2 : b'.GradientsNodup := (h.perm.map Prod.fst).nodup_iff.1 h.nodup
  apply Option.ext
  intro g
  rw [gradient_eq_some h1, gradient_eq_some h2, h.perm.mem_iff]

theorem PermBlock.same {b b' : TensorBlock A} (h : PermBlock b b') : SameBlock b b' :=
  ⟨h.values, h.gradient, h.list⟩

theorem Spec.SameBlock.perm {b b' : TensorBlock A} (h : SameBlock b b') (hb : BlockValid b)
    (hb' : BlockValid b') : PermBlock b b' := by
  refine ⟨h.values, ?_, hb.names, h.list⟩
  rw [List.perm_ext_iff_of_nodup (List.Nodup.of_map _ hb.names) (List.Nodup.of_map _ hb'.names)]
  rintro ⟨p, g⟩
  have h1 : b.GradientsNodup := hb.names
  have h2 : b'.GradientsNodup := hb'.names
  rw [← gradient_eq_some h1, ← gradient_eq_some h2, h.gradients]

/-! ### Adding gradients one by one -/

/-- The common structure of the two loops adding gradients. -/
def addGradients (step : String → BasicBlock A → Res (A × Labels × List Labels)) :
    TensorBlock A → List (String × BasicBlock A) → Res (TensorBlock A)
  | b, [] => .ok b
  | b, (p, g) :: rest => do
    let dsc ← step p g
    let b ← addGradientExpect b p dsc.1 dsc.2.1 dsc.2.2
    addGradients step b rest

/-- The condition for `add_gradient`, except that the gradient does not exist yet. -/
structure AcceptableFor (values : BasicBlock A) (parameter : String) (data : A)
    (samples : Labels) (components : List Labels) : Prop where
  reserved : parameter ≠ "values"
  origin : ∃ o, ArrayLike.origin data = .ok o ∧ ArrayLike.origin values.data = .ok o
  sampleName : samples.names.head? = some "sample"
  suffix : ∃ extra, components = extra ++ values.components
  componentsOk : ComponentsOk components
  shape : ∃ shape, ArrayLike.shape data = .ok shape ∧
    ShapeMatches shape samples components values.properties

theorem acceptable_iff {b : TensorBlock A} {parameter : String} {data : A}
    {samples : Labels} {components : List Labels} :
    GradientAcceptable b parameter data samples components ↔
      parameter ∉ b.gradients.map Prod.fst ∧ AcceptableFor b.values parameter data samples components := by
  constructor
  · intro h
    exact ⟨lookup_eq_none_iff_not_mem.1 h.fresh, h.reserved, h.origin, h.sampleName, h.suffix,
      h.componentsOk, h.shape⟩
  · rintro ⟨h0, h⟩
    exact ⟨lookup_eq_none_iff_not_mem.2 h0, h.reserved, h.origin, h.sampleName, h.suffix,
      h.componentsOk, h.shape⟩

/-- One gradient added. -/
def Added (step : String → BasicBlock A → Res (A × Labels × List Labels)) (values : BasicBlock A)
    (pg pg' : String × BasicBlock A) : Prop :=
  pg'.1 = pg.1 ∧ ∃ d s c, step pg.1 pg.2 = .ok (d, s, c) ∧ AcceptableFor values pg.1 d s c ∧
    '\x00' ∉ pg.1.toList ∧ pg'.2 = ⟨d, s, c, values.properties⟩

theorem Added.fst_eq {step : String → BasicBlock A → Res (A × Labels × List Labels)}
    {values : BasicBlock A} {l gs : List (String × BasicBlock A)}
    (h : List.Forall₂ (Added step values) l gs) : gs.map Prod.fst = l.map Prod.fst := by
  induction h with
  | nil => rfl
  | cons h _ ih => rw [List.map_cons, List.map_cons, h.1, ih]

theorem addGradients_ok {step : String → BasicBlock A → Res (A × Labels × List Labels)}
    {b b' : TensorBlock A} {l : List (String × BasicBlock A)} :
    addGradients step b l = .ok b' ↔
      ∃ gs, List.Forall₂ (Added step b.values) l gs ∧ (l.map Prod.fst).Nodup ∧
        (∀ p ∈ l.map Prod.fst, p ∉ b.gradients.map Prod.fst) ∧
        b' = { b with gradients := b.gradients ++ gs
                      gradientParameters := b.gradientParameters ++ gs.map Prod.fst } := by
  induction l generalizing b with
  | nil =>
    simp only [addGradients, Res.ok.injEq]
    constructor
    · rintro rfl; exact ⟨[], .nil, by simp⟩
    · rintro ⟨gs, h, -, -, rfl⟩; cases h; simp
  | cons pg l ih =>
    obtain ⟨p, g⟩ := pg
    simp only [addGradients, Res.bind_eq_ok, ih, addGradientExpect_eq_ok, acceptable_iff]
    constructor
    · rintro ⟨⟨d, s, c⟩, h1, b₁, ⟨⟨h2, h3⟩, h4, rfl⟩, gs, h5, h6, h7, rfl⟩
      refine ⟨(p, ⟨d, s, c, b.values.properties⟩) :: gs, .cons ⟨rfl, d, s, c, h1, h3, h4, rfl⟩ h5, ?_, ?_, ?_⟩
      · rw [List.map_cons, List.nodup_cons]
        refine ⟨fun hp => ?_, h6⟩
        exact h7 p hp (by simp)
      · intro q hq
        rw [List.map_cons, List.mem_cons] at hq
        rcases hq with rfl | hq
        · exact h2
        · intro hm
          exact h7 q hq (by rw [List.map_append]; exact List.mem_append_left _ hm)
      · simp [TensorBlock.gradientBlock]
    · rintro ⟨gs, h1, h2, h3, rfl⟩
      cases h1 with
      | @cons _ pg' _ gs ha h5 =>
        obtain ⟨p', g'⟩ := pg'
        obtain ⟨e, d, s, c, h6, h7, h8, e'⟩ := ha
        simp only at e e' h6 h7 h8
        subst e e'
        rw [List.map_cons, List.nodup_cons] at h2
        refine ⟨(d, s, c), h6, _, ⟨⟨h3 p' (by simp), h7⟩, h8, rfl⟩, gs, h5, h2.2, ?_, ?_⟩
        · intro q hq hm
          simp only [List.map_append, List.map_cons, List.map_nil, List.mem_append, List.mem_singleton] at hm
          rcases hm with hm | rfl
          · exact h3 q (by rw [List.map_cons]; exact List.mem_cons_of_mem _ hq) hm
          · exact h2.1 hq
        · simp [TensorBlock.gradientBlock]

/-- The order only changes the order of the result. -/
theorem addGradients_perm {step : String → BasicBlock A → Res (A × Labels × List Labels)}
    {b b' : TensorBlock A} {l l' : List (String × BasicBlock A)} (hl : l.Perm l')
    (hn : (b.gradients.map Prod.fst).Nodup)
    (h : addGradients step b l = .ok b') :
    ∃ b'', addGradients step b l' = .ok b'' ∧ PermBlock b' b'' := by
  obtain ⟨gs, h1, h2, h3, rfl⟩ := addGradients_ok.1 h
  have hcomp : Relation.Comp List.Perm (List.Forall₂ (Added step b.values)) l' gs := ⟨l, hl.symm, h1⟩
  rw [← List.forall₂_comp_perm_eq_perm_comp_forall₂] at hcomp
  obtain ⟨gs', h4, h5⟩ := hcomp
  refine ⟨_, addGradients_ok.2 ⟨gs', h4, (hl.map Prod.fst).nodup_iff.1 h2, ?_, rfl⟩, rfl, ?_, ?_, ?_⟩
  · intro p hp
    exact h3 p ((hl.map Prod.fst).mem_iff.2 hp)
  · exact (List.Perm.refl _).append h5.symm
  · simp only
    rw [List.map_append, Added.fst_eq h1, List.nodup_append]
    refine ⟨hn, h2, ?_⟩
    rintro a ha c hc rfl
    exact h3 _ hc ha
  · exact (List.Perm.refl _).append (h5.symm.map Prod.fst)

/-! ### The two loops -/

/-- Body of the loop in `merge_blocks_along_samples`. -/
def samplesStep (build : Build) (values : A)
    (blocks : List (List LabelValue × TensorBlock A)) (mappings : List (List SampleMapping))
    (stop : Nat) (parameter : String) (firstGradient : BasicBlock A) : Res (A × Labels × List Labels) := do
    let newSamples ← mergeGradientSamples build blocks parameter mappings
    let shape ← ArrayLike.shape firstGradient.data
    Res.assert (!shape.isEmpty) "index out of bounds"
    let count ← newSamples.count
    let newGradient ← ArrayLike.create values (shape.set 0 count)
    let newGradient ← moveAllGradients build parameter newSamples firstGradient.components stop
      newGradient (blocks.zip mappings)
    return (newGradient, newSamples, firstGradient.components)

theorem mergeGradientsAlongSamples_add (build : Build) (firstBlock : TensorBlock A)
    (blocks : List (List LabelValue × TensorBlock A)) (mappings : List (List SampleMapping))
    (stop : Nat) (b : TensorBlock A) (l : List (String × BasicBlock A)) :
    mergeGradientsAlongSamples build firstBlock blocks mappings stop b l =
      addGradients (samplesStep build firstBlock.values.data blocks mappings stop) b l := by
  induction l generalizing b with
  | nil => rfl
  | cons pg l ih =>
    obtain ⟨p, g⟩ := pg
    simp only [mergeGradientsAlongSamples, addGradients, samplesStep, bind_assoc, pure_bind, ih]

/-- Body of the loop in `merge_blocks_along_properties`. -/
def propertiesStep (build : Build) (values : A)
    (blocks : List (List LabelValue × TensorBlock A)) (mappings : List (List SampleMapping))
    (ranges : List (Option (Nat × Nat))) (propertiesCount : Nat)
    (parameter : String) (firstGradient : BasicBlock A) : Res (A × Labels × List Labels) := do
    let newSamples ← mergeGradientSamples build blocks parameter mappings
    let shape ← ArrayLike.shape firstGradient.data
    Res.assert (!shape.isEmpty) "index out of bounds"
    let count ← newSamples.count
    let newShape := (shape.set 0 count).set (shape.length - 1) propertiesCount
    let newGradient ← ArrayLike.create values newShape
    let newGradient ← moveAllGradientProperties build parameter newSamples
      firstGradient.components newGradient ((blocks.zip mappings).zip ranges)
    return (newGradient, newSamples, firstGradient.components)

theorem mergeGradientsAlongProperties_add (build : Build) (firstBlock : TensorBlock A)
    (blocks : List (List LabelValue × TensorBlock A)) (mappings : List (List SampleMapping))
    (ranges : List (Option (Nat × Nat))) (propertiesCount : Nat) (b : TensorBlock A)
    (l : List (String × BasicBlock A)) :
    mergeGradientsAlongProperties build firstBlock blocks mappings ranges propertiesCount b l =
      addGradients (propertiesStep build firstBlock.values.data blocks mappings ranges propertiesCount) b l := by
  induction l generalizing b with
  | nil => rfl
  | cons pg l ih =>
    obtain ⟨p, g⟩ := pg
    simp only [mergeGradientsAlongProperties, addGradients, propertiesStep, bind_assoc, pure_bind, ih]

/-! ### Blocks which are the same up to the order of gradients -/

/-- Pairs of the same key and the same block up to the order of gradients. -/
def PermPair (kb kb' : List LabelValue × TensorBlock A) : Prop := kb.1 = kb'.1 ∧ PermBlock kb.2 kb'.2

variable {blocks blocks' : List (List LabelValue × TensorBlock A)}

theorem checkMergeSamples_perm (h : List.Forall₂ PermPair blocks blocks') {f f' : TensorBlock A}
    (hf : f.values = f'.values) : checkMergeSamples f blocks = checkMergeSamples f' blocks' := by
  induction h with
  | nil => rfl
  | @cons a a' _ _ h _ ih =>
    obtain ⟨k, b⟩ := a
    obtain ⟨k', b'⟩ := a'
    obtain ⟨-, (h : PermBlock b b')⟩ := h
    simp only [checkMergeSamples, ih, hf, h.values]

theorem checkMergeProperties_perm (h : List.Forall₂ PermPair blocks blocks') {f f' : TensorBlock A}
    (user : Bool) (hf : f.values = f'.values) :
    checkMergeProperties user f blocks = checkMergeProperties user f' blocks' := by
  induction h with
  | nil => rfl
  | @cons a a' _ _ h _ ih =>
    obtain ⟨k, b⟩ := a
    obtain ⟨k', b'⟩ := a'
    obtain ⟨-, (h : PermBlock b b')⟩ := h
    simp only [checkMergeProperties, ih, hf, h.values]

theorem values_perm (h : List.Forall₂ PermPair blocks blocks') :
    (blocks.map fun b => (b.1, b.2.values)) = blocks'.map fun b => (b.1, b.2.values) := by
  induction h with
  | nil => rfl
  | cons h _ ih => rw [List.map_cons, List.map_cons, h.1, h.2.values, ih]

theorem data_perm (h : List.Forall₂ PermPair blocks blocks') :
    (blocks.map fun b => b.2.values.data) = blocks'.map fun b => b.2.values.data := by
  have := congrArg (List.map fun kv : List LabelValue × BasicBlock A => kv.2.data) (values_perm h)
  simpa [List.map_map, Function.comp_def] using this

theorem collectSamples_perm (h : List.Forall₂ PermPair blocks blocks') (addKey : Bool) :
    collectSamples addKey blocks = collectSamples addKey blocks' := by
  induction h with
  | nil => rfl
  | @cons a a' _ _ h _ ih =>
    obtain ⟨k, b⟩ := a
    obtain ⟨k', b'⟩ := a'
    obtain ⟨(rfl : k = k'), (h : PermBlock b b')⟩ := h
    simp only [collectSamples, ih, h.values]

theorem mapM_perm {β : Type} (h : List.Forall₂ PermPair blocks blocks')
    {f : List LabelValue × TensorBlock A → Res β} (hf : ∀ kb kb', PermPair kb kb' → f kb = f kb') :
    blocks.mapM f = blocks'.mapM f := by
  induction h with
  | nil => rfl
  | cons h _ ih => rw [List.mapM_cons, List.mapM_cons, hf _ _ h, ih]

theorem head_perm (h : List.Forall₂ PermPair blocks blocks') :
    (blocks = [] ∧ blocks' = []) ∨ ∃ a a', blocks.head? = some a ∧ blocks'.head? = some a' ∧
      PermPair a a' := by
  cases h with
  | nil => exact .inl ⟨rfl, rfl⟩
  | cons h _ => exact .inr ⟨_, _, rfl, rfl, h⟩

theorem mergeSamples_perm (h : List.Forall₂ PermPair blocks blocks') (names : List String)
    (sort : Bool) : mergeSamples blocks names sort = mergeSamples blocks' names sort := by
  unfold mergeSamples
  rcases head_perm h with ⟨rfl, rfl⟩ | ⟨a, a', h1, h2, h3⟩
  · rfl
  · simp only [h1, h2, Res.expect_some, Res.ok_bind, h3.2.values]
    have : ∀ addKey merged, (blocks.mapM fun x : List LabelValue × TensorBlock A =>
        sampleMapping merged addKey x.1 x.2) =
        blocks'.mapM fun x : List LabelValue × TensorBlock A => sampleMapping merged addKey x.1 x.2 := by
      intro addKey merged
      apply mapM_perm h
      rintro ⟨k, b⟩ ⟨k', b'⟩ ⟨e, hb⟩
      simp only [sampleMapping] at e ⊢
      rw [e, hb.values]
    simp only [collectSamples_perm h, this]

theorem collectProperties_perm (h : List.Forall₂ PermPair blocks blocks')
    (key : List LabelValue → List LabelValue) :
    collectProperties key blocks = collectProperties key blocks' := by
  induction h with
  | nil => rfl
  | @cons a a' _ _ h _ ih =>
    obtain ⟨k, b⟩ := a
    obtain ⟨k', b'⟩ := a'
    obtain ⟨(rfl : k = k'), (h : PermBlock b b')⟩ := h
    simp only [collectProperties, ih, h.values]

theorem collectUserProperties_perm (h : List.Forall₂ PermPair blocks blocks')
    (entries : List (List LabelValue)) :
    collectUserProperties blocks entries = collectUserProperties blocks' entries := by
  induction entries with
  | nil => rfl
  | cons e l ih => simp only [collectUserProperties, ih, collectProperties_perm h]

theorem newPropertyEntries_perm (h : List.Forall₂ PermPair blocks blocks') (user : Option Labels)
    (P : Labels) : newPropertyEntries user blocks P = newPropertyEntries user blocks' P := by
  unfold newPropertyEntries
  cases user with
  | none => simp only [collectProperties_perm h]
  | some k => simp only [collectUserProperties_perm h]

theorem propertyRanges_perm (h : List.Forall₂ PermPair blocks blocks') (P : Labels) :
    (blocks.mapM fun x : List LabelValue × TensorBlock A => propertyRange P x.1 x.2) =
    blocks'.mapM fun x : List LabelValue × TensorBlock A => propertyRange P x.1 x.2 := by
  apply mapM_perm h
  rintro ⟨k, b⟩ ⟨k', b'⟩ ⟨e, hb⟩
  simp only [propertyRange] at e ⊢
  rw [e, hb.values]

theorem collectGradientSamples_perm (build : Build) (h : List.Forall₂ PermPair blocks blocks')
    (parameter : String) (mappings : List (List SampleMapping)) :
    collectGradientSamples build parameter (blocks.zip mappings) =
      collectGradientSamples build parameter (blocks'.zip mappings) := by
  induction h generalizing mappings with
  | nil => rfl
  | @cons a a' _ _ h _ ih =>
    obtain ⟨k, b⟩ := a
    obtain ⟨k', b'⟩ := a'
    obtain ⟨(rfl : k = k'), (h : PermBlock b b')⟩ := h
    cases mappings with
    | nil => rfl
    | cons m ms =>
      simp only [List.zip_cons_cons, collectGradientSamples, ih, h.gradient]

theorem mergeGradientSamples_perm (build : Build) (h : List.Forall₂ PermPair blocks blocks')
    (parameter : String) (mappings : List (List SampleMapping)) :
    mergeGradientSamples build blocks parameter mappings =
      mergeGradientSamples build blocks' parameter mappings := by
  unfold mergeGradientSamples
  rw [collectGradientSamples_perm build h]
  cases h with
  | nil => rfl
  | @cons a a' _ _ h _ =>
    cases mappings with
    | nil => rfl
    | cons m ms =>
      simp only [List.zip_cons_cons, List.head?_cons, Res.expect_some, Res.ok_bind, h.2.gradient]

theorem moveAllGradients_perm (build : Build) (h : List.Forall₂ PermPair blocks blocks')
    (parameter : String) (newSamples : Labels) (comps : List Labels) (stop : Nat) (output : A)
    (mappings : List (List SampleMapping)) :
    moveAllGradients build parameter newSamples comps stop output (blocks.zip mappings) =
      moveAllGradients build parameter newSamples comps stop output (blocks'.zip mappings) := by
  induction h generalizing mappings output with
  | nil => rfl
  | @cons a a' _ _ h _ ih =>
    obtain ⟨k, b⟩ := a
    obtain ⟨k', b'⟩ := a'
    obtain ⟨(rfl : k = k'), (h : PermBlock b b')⟩ := h
    cases mappings with
    | nil => rfl
    | cons m ms =>
      simp only [List.zip_cons_cons, moveAllGradients, ih, h.gradient]

theorem moveAllGradientProperties_perm (build : Build) (h : List.Forall₂ PermPair blocks blocks')
    (parameter : String) (newSamples : Labels) (comps : List Labels) (output : A)
    (mappings : List (List SampleMapping)) (ranges : List (Option (Nat × Nat))) :
    moveAllGradientProperties build parameter newSamples comps output ((blocks.zip mappings).zip ranges) =
      moveAllGradientProperties build parameter newSamples comps output ((blocks'.zip mappings).zip ranges) := by
  induction h generalizing mappings output ranges with
  | nil => rfl
  | @cons a a' _ _ h _ ih =>
    obtain ⟨k, b⟩ := a
    obtain ⟨k', b'⟩ := a'
    obtain ⟨(rfl : k = k'), (h : PermBlock b b')⟩ := h
    cases mappings with
    | nil => rfl
    | cons m ms =>
      cases ranges with
      | nil => rfl
      | cons r rs =>
        cases r with
        | none => simp only [List.zip_cons_cons, moveAllGradientProperties, ih]
        | some r => simp only [List.zip_cons_cons, moveAllGradientProperties, ih, h.gradient]

theorem samplesStep_perm (build : Build) (h : List.Forall₂ PermPair blocks blocks') (values : A)
    (mappings : List (List SampleMapping)) (stop : Nat) :
    samplesStep build values blocks mappings stop = samplesStep build values blocks' mappings stop := by
  funext p g
  unfold samplesStep
  simp only [mergeGradientSamples_perm build h, moveAllGradients_perm build h]

theorem propertiesStep_perm (build : Build) (h : List.Forall₂ PermPair blocks blocks') (values : A)
    (mappings : List (List SampleMapping)) (ranges : List (Option (Nat × Nat))) (n : Nat) :
    propertiesStep build values blocks mappings ranges n =
      propertiesStep build values blocks' mappings ranges n := by
  funext p g
  unfold propertiesStep
  simp only [mergeGradientSamples_perm build h, moveAllGradientProperties_perm build h]

theorem TensorBlock.new_gradients {data : A} {s : Labels} {c : List Labels} {p : Labels} {b : TensorBlock A}
    (h : TensorBlock.new data s c p = .ok b) : b.gradients = [] := by
  simp only [TensorBlock.new, Res.bind_eq_ok] at h
  obtain ⟨v, _, h⟩ := h
  simp only [Res.pure_eq, Res.ok.injEq] at h
  rw [← h]

/-- Merging along samples, with two different orders. -/
theorem mergeBlocksAlongSamples_perm {build : Build} {hash hash' : HashOrder} {names : List String}
    {sort : Bool} (h : List.Forall₂ PermPair blocks blocks') {b : TensorBlock A}
    (hb : mergeBlocksAlongSamples build hash names sort blocks = .ok b) :
    ∃ b', mergeBlocksAlongSamples build hash' names sort blocks' = .ok b' ∧ PermBlock b b' := by
  rcases head_perm h with ⟨rfl, rfl⟩ | ⟨⟨k, f⟩, ⟨k', f'⟩, e1, e2, -, hp⟩
  · simp [mergeBlocksAlongSamples, Res.expect] at hb
  · unfold mergeBlocksAlongSamples at hb ⊢
    simp only [e1, e2, Res.expect_some, Res.ok_bind] at hb ⊢
    simp only [Res.bind_eq_ok] at hb ⊢
    simp only at hp
    obtain ⟨u, h1, ⟨merged, mappings⟩, h2, shape, h3, u', h4, count, h5, zeros, h6, stop, h7, data, h8,
      nb, h9, h10⟩ := hb
    rw [mergeGradientsAlongSamples_add] at h10
    have hnb : nb.gradients = [] := by
      cases hnew : TensorBlock.new data merged f.values.components f.values.properties with
      | ok nb' =>
        rw [hnew] at h9
        simp only [Res.expectOk, Res.ok.injEq] at h9
        rw [← h9]; exact TensorBlock.new_gradients hnew
      | err e => rw [hnew] at h9; simp [Res.expectOk] at h9
      | panic m => rw [hnew] at h9; simp [Res.expectOk] at h9
    have hord : (hash.order f.gradients).Perm (hash'.order f'.gradients) :=
      ((hash.perm _).trans hp.perm).trans (hash'.perm _).symm
    obtain ⟨b', h11, h12⟩ := addGradients_perm hord (by rw [hnb]; simp) h10
    refine ⟨b', ⟨u, ?_, (merged, mappings), ?_, shape, ?_, u', h4, count, h5, zeros, ?_, stop, ?_, data, ?_,
      nb, ?_, ?_⟩, h12⟩
    · rw [← checkMergeSamples_perm h hp.values]; exact h1
    · rw [← mergeSamples_perm h, ← hp.values]; exact h2
    · rw [← hp.values]; exact h3
    · rw [← hp.values]; exact h6
    · rw [← hp.values]; exact h7
    · rw [← data_perm h]; exact h8
    · rw [← hp.values]; exact h9
    · rw [mergeGradientsAlongSamples_add, ← samplesStep_perm build h, ← hp.values]; exact h11

/-- Merging along properties, with two different orders. -/
theorem mergeBlocksAlongProperties_perm {build : Build} {hash hash' : HashOrder} {user : Option Labels}
    {names : List String}
    {sort : Bool} (h : List.Forall₂ PermPair blocks blocks') {b : TensorBlock A}
    (hb : mergeBlocksAlongProperties build hash user names sort blocks = .ok b) :
    ∃ b', mergeBlocksAlongProperties build hash' user names sort blocks' = .ok b' ∧ PermBlock b b' := by
  rcases head_perm h with ⟨rfl, rfl⟩ | ⟨⟨k, f⟩, ⟨k', f'⟩, e1, e2, -, hp⟩
  · simp [mergeBlocksAlongProperties, Res.expect] at hb
  · unfold mergeBlocksAlongProperties at hb ⊢
    simp only [e1, e2, Res.expect_some, Res.ok_bind] at hb ⊢
    simp only [Res.bind_eq_ok] at hb ⊢
    simp only at hp
    obtain ⟨u, h1, ⟨merged, mappings⟩, h2, entries, h2', props, h2'', pc, h2''', shape, h3, u', h4, count, h5,
      zeros, h6, ranges, h7, data, h8, nb, h9, h10⟩ := hb
    rw [mergeGradientsAlongProperties_add] at h10
    have hnb : nb.gradients = [] := by
      cases hnew : TensorBlock.new data merged f.values.components props with
      | ok nb' =>
        rw [hnew] at h9
        simp only [Res.expectOk, Res.ok.injEq] at h9
        rw [← h9]; exact TensorBlock.new_gradients hnew
      | err e => rw [hnew] at h9; simp [Res.expectOk] at h9
      | panic m => rw [hnew] at h9; simp [Res.expectOk] at h9
    have hord : (hash.order f.gradients).Perm (hash'.order f'.gradients) :=
      ((hash.perm _).trans hp.perm).trans (hash'.perm _).symm
    obtain ⟨b', h11, h12⟩ := addGradients_perm hord (by rw [hnb]; simp) h10
    refine ⟨b', ⟨u, ?_, (merged, mappings), ?_, entries, ?_, props, ?_, pc, h2''', shape, ?_, u', h4, count, h5,
      zeros, ?_, ranges, ?_, data, ?_, nb, ?_, ?_⟩, h12⟩
    · rw [← checkMergeProperties_perm h _ hp.values]; exact h1
    · rw [← mergeSamples_perm h, ← hp.values]; exact h2
    · rw [← newPropertyEntries_perm h, ← hp.values]; exact h2'
    · rw [← hp.values]; exact h2''
    · rw [← hp.values]; exact h3
    · rw [← hp.values]; exact h6
    · rw [← propertyRanges_perm h]; exact h7
    · rw [← data_perm h]; exact h8
    · rw [← hp.values]; exact h9
    · rw [mergeGradientsAlongProperties_add, ← propertiesStep_perm build h, ← hp.values]; exact h11

/-! ### Tensor maps -/

/-- The same tensor map up to the order of gradients. -/
structure PermTensor (t t' : TensorMap A) : Prop where
  keys : t.keys = t'.keys
  blocks : List.Forall₂ PermBlock t.blocks t'.blocks

theorem Spec.SameTensor.perm {t t' : TensorMap A} (h : SameTensor t t') (ht : TensorValid t)
    (ht' : TensorValid t') : PermTensor t t' := by
  refine ⟨h.keys, ?_⟩
  have h1 := h.blocks
  have h2 := ht.blocks
  have h3 := ht'.blocks
  generalize t.blocks = l at h1 h2
  generalize t'.blocks = l' at h1 h3
  induction h1 with
  | nil => exact .nil
  | cons h _ ih =>
    rw [List.forall_mem_cons] at h2 h3
    exact .cons (h.perm h2.1 h3.1) (ih h2.2 h3.2)

theorem PermTensor.same {t t' : TensorMap A} (h : PermTensor t t') : SameTensor t t' :=
  ⟨h.keys, h.blocks.imp fun _ _ h => h.same⟩

theorem group_perm {names moved : List String} {keys : List (List LabelValue)}
    {bs bs' : List (TensorBlock A)} (h : List.Forall₂ PermBlock bs bs') (key' : List LabelValue) :
    List.Forall₂ PermPair ((group names moved (keys.zip bs) key').map (toMerge names moved))
      ((group names moved (keys.zip bs') key').map (toMerge names moved)) := by
  unfold group
  induction h generalizing keys with
  | nil => simp
  | cons h _ ih =>
    cases keys with
    | nil => simp
    | cons k ks =>
      simp only [List.zip_cons_cons, List.filter_cons]
      split
      · rw [List.map_cons, List.map_cons]
        exact .cons ⟨rfl, h⟩ ih
      · exact ih

theorem KeysMoved.perm {moved : List String} {t t₁ t' : TensorMap A}
    {merge merge' : List (List LabelValue × TensorBlock A) → Res (TensorBlock A)}
    (hp : PermTensor t t₁)
    (hm : ∀ blocks blocks' b, List.Forall₂ PermPair blocks blocks' → merge blocks = .ok b →
      ∃ b', merge' blocks' = .ok b' ∧ PermBlock b b')
    (h : KeysMoved moved t t' merge) :
    ∃ t₁', KeysMoved moved t₁ t₁' merge' ∧ PermTensor t' t₁' := by
  have hb := h.blocks
  obtain ⟨bs, h1, h2⟩ : ∃ bs, List.Forall₂ (fun key' b => merge' ((group t₁.keys.names moved
        (t₁.keys.rows.zip t₁.blocks) key').map (toMerge t₁.keys.names moved)) = .ok b)
        t'.keys.rows bs ∧ List.Forall₂ PermBlock t'.blocks bs := by
    generalize t'.keys.rows = rows at hb
    generalize t'.blocks = bs at hb
    clear h
    induction hb with
    | nil => exact ⟨[], .nil, .nil⟩
    | @cons key b _ _ h _ ih =>
      obtain ⟨bs, h1, h2⟩ := ih
      obtain ⟨b', h3, h4⟩ := hm _ _ _ (group_perm hp.blocks key) h
      refine ⟨b' :: bs, .cons ?_ h1, .cons h4 h2⟩
      rw [← hp.keys]; exact h3
  refine ⟨⟨t'.keys, bs⟩, ⟨?_, ?_, h1⟩, rfl, h2⟩
  · rw [← hp.keys]; exact h.names
  · rw [← hp.keys]; exact h.keys

theorem TensorBlock.componentsToProperties_perm {hash hash' : HashOrder} {vars : List String}
    {b b₁ c : TensorBlock A} (hv : vars ≠ []) (hp : PermBlock b b₁)
    (h : TensorBlock.componentsToProperties hash vars b = (c, .ok ())) :
    ∃ c₁, TensorBlock.componentsToProperties hash' vars b₁ = (c₁, .ok ()) ∧ PermBlock c c₁ := by
  obtain ⟨h1, h2, h3⟩ := (TensorBlock.componentsToProperties_ok hp.nodup hv).1 h
  have hcomp : Relation.Comp List.Perm (List.Forall₂ fun (p p' : String × BasicBlock A) => p'.1 = p.1 ∧
      BasicBlock.componentsToProperties vars p.2 = (p'.2, .ok ())) b₁.gradients c.gradients :=
    ⟨b.gradients, hp.perm.symm, h3⟩
  rw [← List.forall₂_comp_perm_eq_perm_comp_forall₂] at hcomp
  obtain ⟨gs, h4, h5⟩ := hcomp
  have hfst : c.gradients.map Prod.fst = b.gradients.map Prod.fst := by
    generalize c.gradients = gs at h3
    generalize b.gradients = gs' at h3
    clear h4 h5
    induction h3 with
    | nil => rfl
    | cons h _ ih => rw [List.map_cons, List.map_cons, h.1, ih]
  refine ⟨⟨c.values, gs, b₁.gradientParameters⟩,
    (TensorBlock.componentsToProperties_ok ((hp.perm.map Prod.fst).nodup_iff.1 hp.nodup) hv).2
      ⟨by rw [← hp.values]; exact h1, rfl, h4⟩, rfl, h5.symm, by rw [hfst]; exact hp.nodup, ?_⟩
  rw [h2]; exact hp.list

theorem TensorMap.componentsToProperties_perm {hash hash' : HashOrder} {vars : List String}
    {t t₁ t' : TensorMap A} (hp : PermTensor t t₁)
    (h : TensorMap.componentsToProperties hash vars t = (t', .ok ())) :
    ∃ t₁', TensorMap.componentsToProperties hash' vars t₁ = (t₁', .ok ()) ∧ PermTensor t' t₁' := by
  by_cases hv : vars = []
  · subst hv
    rw [TensorMap.componentsToProperties_nil, Prod.mk.injEq] at h
    obtain ⟨rfl, -⟩ := h
    exact ⟨t₁, TensorMap.componentsToProperties_nil, hp⟩
  · obtain ⟨h1, h2⟩ := (TensorMap.componentsToProperties_ok hv).1 h
    obtain ⟨bs, h3, h4⟩ : ∃ bs, List.Forall₂ (fun b b' =>
        TensorBlock.componentsToProperties hash' vars b = (b', .ok ())) t₁.blocks bs ∧
        List.Forall₂ PermBlock t'.blocks bs := by
      have hb := hp.blocks
      generalize t.blocks = l at hb h2
      generalize t₁.blocks = l₁ at hb
      generalize t'.blocks = l' at h2
      clear h h1 hp
      induction hb generalizing l' with
      | nil => cases h2; exact ⟨[], .nil, .nil⟩
      | cons h _ ih =>
        cases h2 with
        | cons h5 h6 =>
          obtain ⟨bs, h7, h8⟩ := ih _ h6
          obtain ⟨c, h9, h10⟩ := TensorBlock.componentsToProperties_perm (hash' := hash') hv h h5
          exact ⟨c :: bs, .cons h9 h7, .cons h10 h8⟩
    exact ⟨⟨t₁.keys, bs⟩, (TensorMap.componentsToProperties_ok hv).2 ⟨rfl, h3⟩,
      h1.trans hp.keys, h4⟩

end Equistore
