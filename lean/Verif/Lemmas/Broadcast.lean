import Verif.Lemmas.KeysToProperties
import Verif.Lemmas.MergeOutcome
import Verif.Lemmas.MoveOutcome

/-! Merging gradients with components of different sizes: `ndarray` repeats the values of components with a single
entry. -/

namespace Equistore
open Spec

theorem NdArray.build_congr {shape : List Nat} {f g : List Nat → Elt} (h : ∀ idx, ValidIdx shape idx → f idx = g idx) :
    NdArray.build shape f = NdArray.build shape g := by
  unfold NdArray.build
  congr 1
  exact List.map_congr_left fun idx hi => h idx (mem_allIdx.1 hi)

theorem broadcastIdx_append {src k : List Nat} {w j : Nat} (hl : src.length = k.length) (hj : j < w) :
    NdArray.broadcastIdx (src ++ [w]) (k ++ [j]) = broadcastPositions src k ++ [j] := by
  unfold NdArray.broadcastIdx broadcastPositions
  have h0 : (k ++ [j]).length - (src ++ [w]).length = 0 := by simp [hl]
  rw [h0, List.drop_zero, List.zipWith_append hl]
  congr 1
  simp only [List.zipWith_cons_cons, List.zipWith_nil_left, List.cons.injEq, and_true]
  split
  · omega
  · rfl

/-- An array with the same values as another one, repeated for other sizes of the components. -/
structure Stretches (n w : Nat) (src mid : List Nat) (input input₂ : NdArray) : Prop where
  length : src.length = mid.length
  shape : input.shape = n :: src ++ [w]
  shape₂ : input₂.shape = n :: mid ++ [w]
  get : ∀ i k j, i < n → ValidIdx mid k → j < w →
    input₂.get (i :: k ++ [j]) = input.get (i :: broadcastPositions src k ++ [j])

theorem moveOne_stretch {output input input₂ out : NdArray} {m : SampleMapping} {s e nIn nOut p : Nat} {src mid : List Nat}
    (hs : Stretches nIn (e - s) src mid input input₂) (ho : output.shape = nOut :: mid ++ [p])
    (h : NdArray.moveOne output input m s e = some out) :
    NdArray.moveOne output input₂ m s e = some out ∧ out.shape = output.shape := by
  unfold NdArray.moveOne at h ⊢
  rw [hs.shape, ho] at h
  rw [hs.shape₂, ho]
  simp only [List.cons_append, List.getLast?_append, List.getLast?_singleton, Option.some_or, List.dropLast_concat] at h ⊢
  split at h
  · next h1 =>
    rw [if_pos h1]
    split at h
    · next h2 =>
      rw [if_pos ⟨h2.1, h2.2.1, NdArray.canBroadcast_self _⟩]
      simp only [Option.some.injEq] at h ⊢
      subst h
      refine ⟨?_, rfl⟩
      refine NdArray.build_congr fun idx hi => ?_
      obtain ⟨i, k, j, rfl, hi', hk, hj⟩ := NdArray.validIdx_split (n := nOut) (mid := mid) hi
      have hlast : (i :: k ++ [j]).getLastD 0 = j := by
        rw [List.getLastD_eq_getLast?, List.getLast?_concat]; rfl
      rw [hlast]
      simp only [List.cons_append, List.head?_cons, Option.some.injEq, List.tail_cons, List.dropLast_concat]
      by_cases hc : i = m.output ∧ s ≤ j ∧ j < e
      · rw [if_pos hc, if_pos hc, NdArray.broadcastIdx_self (NdArray.validIdx_append hk (.cons (by omega) .nil)),
          broadcastIdx_append (hs.length.trans hk.length_eq) (by omega)]
        exact hs.get _ _ _ h1.1 hk (by omega)
      · rw [if_neg hc, if_neg hc]
    · simp at h
  · simp at h

theorem moveLoop_stretch {output input input₂ out : NdArray} {ms : List SampleMapping} {s e nIn nOut p : Nat}
    {src mid : List Nat} (hs : Stretches nIn (e - s) src mid input input₂) (ho : output.shape = nOut :: mid ++ [p])
    (h : NdArray.moveLoop input s e output ms = (out, .ok ())) :
    NdArray.moveLoop input₂ s e output ms = (out, .ok ()) ∧ out.shape = output.shape := by
  induction ms generalizing output with
  | nil =>
    simp only [NdArray.moveLoop, Prod.mk.injEq, and_true] at h ⊢
    subst h
    exact ⟨rfl, rfl⟩
  | cons m ms ih =>
    rw [NdArray.moveLoop] at h ⊢
    cases h1 : NdArray.moveOne output input m s e with
    | none => rw [h1] at h; simp at h
    | some out1 =>
      rw [h1] at h
      obtain ⟨h2, h3⟩ := moveOne_stretch hs ho h1
      rw [h2]
      obtain ⟨h4, h5⟩ := ih (h3.trans ho) h
      exact ⟨h4, h5.trans h3⟩

theorem moveSamples_stretch {output input input₂ out : NdArray} {ms : List SampleMapping} {s e nIn nOut p : Nat}
    {src mid : List Nat} (hs : Stretches nIn (e - s) src mid input input₂) (ho : output.shape = nOut :: mid ++ [p])
    (h : moveSamples output input ms s e = .ok out) :
    moveSamples output input₂ ms s e = .ok out ∧ out.shape = output.shape := by
  have hl : 2 ≤ output.shape.length := by rw [ho]; simp
  have key : ∀ a : NdArray, moveSamples output a ms s e = .ok out ↔ NdArray.moveLoop a s e output ms = (out, .ok ()) := by
    intro a
    unfold moveSamples
    have : ArrayLike.moveSamplesFrom output a ms s e = NdArray.moveLoop a s e output ms := by
      show NdArray.moveSamplesFrom output a ms s e = _
      unfold NdArray.moveSamplesFrom
      rw [if_pos hl]
    rw [this]
    rcases NdArray.moveLoop a s e output ms with ⟨o, r | r | r⟩ <;> simp
  rw [key] at h
  rw [key]
  exact moveLoop_stretch hs ho h

theorem canBroadcast_append {src mid : List Nat} {w : Nat} (hl : src.length = mid.length) :
    NdArray.canBroadcast (src ++ [w]) (mid ++ [w]) = true ↔ List.Forall₂ (fun s d => s = d ∨ s = 1) src mid := by
  unfold NdArray.canBroadcast
  have h0 : (mid ++ [w]).length - (src ++ [w]).length = 0 := by simp [hl]
  rw [h0, List.drop_zero, List.zip_append hl, List.forall₂_iff_zip]
  simp only [List.length_append, hl, Nat.le_refl, decide_true, Bool.true_and, List.all_append, List.zip_cons_cons,
    List.zip_nil_right, List.all_cons, List.all_nil, beq_self_eq_true, Bool.true_or, Bool.and_true, List.all_eq_true,
    Bool.or_eq_true, beq_iff_eq, Prod.forall, true_and]

theorem moveOne_sizes {output input out : NdArray} {m : SampleMapping} {s e nIn nOut p : Nat} {src mid : List Nat}
    (hl : src.length = mid.length) (hi : input.shape = nIn :: src ++ [e - s]) (ho : output.shape = nOut :: mid ++ [p])
    (h : NdArray.moveOne output input m s e = some out) : List.Forall₂ (fun s d => s = d ∨ s = 1) src mid := by
  unfold NdArray.moveOne at h
  rw [hi, ho] at h
  simp only [List.cons_append, List.getLast?_append, List.getLast?_singleton, Option.some_or, List.dropLast_concat] at h
  split at h
  · split at h
    · next h2 => exact (canBroadcast_append hl).1 h2.2.2
    · simp at h
  · simp at h

theorem moveSamples_sizes {output input out : NdArray} {ms : List SampleMapping} {s e nIn nOut p : Nat} {src mid : List Nat}
    (hl : src.length = mid.length) (hi : input.shape = nIn :: src ++ [e - s]) (ho : output.shape = nOut :: mid ++ [p])
    (hms : ms ≠ []) (h : moveSamples output input ms s e = .ok out) :
    List.Forall₂ (fun s d => s = d ∨ s = 1) src mid := by
  have h2 : 2 ≤ output.shape.length := by rw [ho]; simp
  have h3 : ArrayLike.moveSamplesFrom output input ms s e = NdArray.moveLoop input s e output ms := by
    show NdArray.moveSamplesFrom output input ms s e = _
    unfold NdArray.moveSamplesFrom
    rw [if_pos h2]
  unfold moveSamples at h
  rw [h3] at h
  cases ms with
  | nil => exact absurd rfl hms
  | cons m ms =>
    rw [NdArray.moveLoop] at h
    cases h1 : NdArray.moveOne output input m s e with
    | none => rw [h1] at h; simp at h
    | some out1 => exact moveOne_sizes hl hi ho h1

/-- A gradient with other components, and values repeated where its components have a single entry. -/
def stretch (C : List Labels) (g : BasicBlock NdArray) : BasicBlock NdArray :=
  { g with
    components := C
    data := NdArray.build (g.samples.rows.length :: (C.map fun c => c.rows.length) ++ [g.properties.rows.length]) fun idx =>
      g.data.get (idx.headD 0 :: broadcastPositions (g.components.map fun c => c.rows.length) idx.tail.dropLast ++
        [idx.getLastD 0]) }

theorem stretch_get {C : List Labels} {g : BasicBlock NdArray} {i j : Nat} {k : List Nat}
    (hi : i < g.samples.rows.length) (hk : ValidIdx (C.map fun c => c.rows.length) k) (hj : j < g.properties.rows.length) :
    (stretch C g).data.get (i :: k ++ [j]) =
      g.data.get (i :: broadcastPositions (g.components.map fun c => c.rows.length) k ++ [j]) := by
  unfold stretch
  simp only
  rw [NdArray.get_build (NdArray.validIdx_mk hi hk hj)]
  have hlast : (i :: k ++ [j]).getLastD 0 = j := by
    rw [List.getLastD_eq_getLast?, List.getLast?_concat]; rfl
  rw [hlast]
  simp only [List.cons_append, List.headD_cons, List.tail_cons, List.dropLast_concat]

theorem stretch_stretches {C : List Labels} {g : BasicBlock NdArray} (hg : BlockWF g) (hb : BasicValid g)
    (hl : g.components.length = C.length) :
    Stretches g.samples.rows.length g.properties.rows.length (g.components.map fun c => c.rows.length)
      (C.map fun c => c.rows.length) g.data (stretch C g).data := by
  obtain ⟨shape, h1, h2⟩ := hb.shape
  have h3 := shapeMatches_eq hg.samples hg.components hg.properties h2
  simp only [ArrayLike.shape, Res.ok.injEq] at h1
  exact ⟨by simp [hl], h1.trans h3, rfl, fun i k j hi hk hj => stretch_get hi hk hj⟩

theorem hasValue_stretch {C : List Labels} (hC : ∀ c ∈ C, c.WF) {g : BasicBlock NdArray} (hg : BlockWF g)
    {r : List LabelValue} {cs : List (List LabelValue)} {p : List LabelValue} {x : Elt} :
    HasValue (stretch C g) r cs p x ↔ HasBroadcastValue C g r cs p x := by
  have hsize : (g.components.map fun c => (entriesOf c).length) = g.components.map fun c => c.rows.length :=
    List.map_congr_left fun c hc => by rw [entriesOf_wf (hg.components c hc)]
  rw [hasValue_iff (b := stretch C g) ⟨hg.samples, hC, hg.properties⟩]
  unfold HasBroadcastValue
  simp only [hsize, entryAt_iff hg.samples, entryAt_iff hg.properties]
  constructor
  · rintro ⟨i, k, j, h1, h2, h3, h4⟩
    refine ⟨i, k, j, h1, h2.1, h2.2, h3, ?_⟩
    rw [← stretch_get (C := C) (g := g) (List.getElem?_eq_some_iff.1 h1).1 (h2.valid hC) (List.getElem?_eq_some_iff.1 h3).1]
    exact h4
  · rintro ⟨i, k, j, h1, h2, h2', h3, h4⟩
    refine ⟨i, k, j, h1, ⟨h2, h2'⟩, h3, ?_⟩
    rw [stretch_get (List.getElem?_eq_some_iff.1 h1).1 (CompAt.valid hC ⟨h2, h2'⟩) (List.getElem?_eq_some_iff.1 h3).1]
    exact h4

/-- A block with only one of its gradients, stretched. -/
def stretchBlock (q : String) (C : List Labels) (b : TensorBlock NdArray) : TensorBlock NdArray :=
  match b.gradient q with
  | some g => { values := b.values, gradients := [(q, stretch C g)], gradientParameters := [q] }
  | none => { values := b.values, gradients := [], gradientParameters := [] }

theorem stretchBlock_values (q : String) (C : List Labels) (b : TensorBlock NdArray) :
    (stretchBlock q C b).values = b.values := by
  unfold stretchBlock; split <;> rfl

theorem stretchBlock_gradient (q : String) (C : List Labels) (b : TensorBlock NdArray) :
    (stretchBlock q C b).gradient q = (b.gradient q).map (stretch C) := by
  unfold stretchBlock
  split
  · next g h => simp [TensorBlock.gradient] at h ⊢; rw [h]; rfl
  · next h => simp [TensorBlock.gradient] at h ⊢; rw [List.lookup_eq_none_iff.2 (by simpa using h)]; rfl

theorem stretchBlock_other {q p : String} (hp : p ≠ q) (C : List Labels) (b : TensorBlock NdArray) :
    (stretchBlock q C b).gradient p = none := by
  unfold stretchBlock
  split
  · simp [TensorBlock.gradient, hp]
  · rfl

section
variable {w : Nat} {blocks : List (List LabelValue × TensorBlock NdArray)} {q : String}
  {first : List LabelValue × TensorBlock NdArray} {fg : BasicBlock NdArray}

/-- The blocks with their stretched gradient. -/
def stretchAll (q : String) (C : List Labels) (kb : List LabelValue × TensorBlock NdArray) :
    List LabelValue × TensorBlock NdArray := (kb.1, stretchBlock q C kb.2)

theorem components_length (hg : GroupOk w blocks) (hf : first ∈ blocks) (hfg : first.2.gradient q = some fg)
    {kb : List LabelValue × TensorBlock NdArray} (hkb : kb ∈ blocks) {g : BasicBlock NdArray}
    (h : kb.2.gradient q = some g) : g.components.length = fg.components.length := by
  have := congrArg List.length (((hg.consistent kb hkb first hf).gradients q g fg h hfg).2)
  simpa using this

theorem stretch_groupOk (hg : GroupOk w blocks) (hf : first ∈ blocks) (hfg : first.2.gradient q = some fg)
    (hc : ∀ kb ∈ blocks, kb.2.values.components = first.2.values.components) :
    GroupOk w (blocks.map (stretchAll q fg.components)) := by
  have hfv := (hg.valid first hf).gradient_valid hfg
  refine ⟨?_, ?_, ?_, ?_⟩
  · intro kb₂ hkb₂
    obtain ⟨kb, hkb, rfl⟩ := List.mem_map.1 hkb₂
    have hv := hg.valid kb hkb
    simp only [stretchAll]
    unfold stretchBlock
    cases h : kb.2.gradient q with
    | none => exact ⟨hv.values, by simp, by simp, by simp, rfl⟩
    | some g =>
      have hgv := hv.gradient_valid h
      have hq : q ∈ kb.2.gradients.map Prod.fst := List.mem_map_of_mem ((gradient_eq_some hv.names).1 h)
      refine ⟨hv.values, ?_, by simp, ?_, rfl⟩
      · intro name g' hm
        simp only [List.mem_singleton, Prod.mk.injEq] at hm
        obtain ⟨rfl, rfl⟩ := hm
        refine ⟨⟨⟨_, rfl, shapeMatches_of_wf hgv.wf.samples hfv.wf.components hgv.wf.properties⟩, hfv.basic.components, ?_⟩,
          hgv.properties, ?_, hgv.samples, ⟨_, rfl, rfl⟩⟩
        · intro l hl
          simp only [stretch, List.cons_append, List.mem_cons, List.mem_append, List.not_mem_nil, or_false] at hl
          rcases hl with rfl | hl | rfl
          · exact hgv.basic.labels _ (by simp)
          · exact hfv.basic.labels _ (by simp [hl])
          · exact hgv.basic.labels _ (by simp)
        · obtain ⟨extra, he⟩ := hfv.components
          exact ⟨extra, by rw [hc kb hkb]; exact he⟩
      · simp only [List.map_cons, List.map_nil, List.mem_singleton]
        rintro rfl
        exact hv.reserved hq
  · intro a₂ ha₂ b₂ hb₂
    obtain ⟨a, ha, rfl⟩ := List.mem_map.1 ha₂
    obtain ⟨b, hb, rfl⟩ := List.mem_map.1 hb₂
    have hab := hg.consistent a ha b hb
    simp only [stretchAll]
    refine ⟨by rw [stretchBlock_values, stretchBlock_values]; exact hab.values,
      by rw [stretchBlock_values, stretchBlock_values]; exact hab.properties, ?_, ?_⟩
    · intro p
      by_cases hp : p = q
      · subst hp
        rw [stretchBlock_gradient, stretchBlock_gradient, Option.isSome_map, Option.isSome_map]
        exact hab.parameters p
      · rw [stretchBlock_other hp, stretchBlock_other hp]
    · intro p g g' h1 h2
      by_cases hp : p = q
      · subst hp
        rw [stretchBlock_gradient, Option.map_eq_some_iff] at h1 h2
        obtain ⟨ga, ha', rfl⟩ := h1
        obtain ⟨gb, hb', rfl⟩ := h2
        exact ⟨(hab.gradients p ga gb ha' hb').1, rfl⟩
      · rw [stretchBlock_other hp] at h1; simp at h1
  · intro kb₂ hkb₂
    obtain ⟨kb, hkb, rfl⟩ := List.mem_map.1 hkb₂
    exact hg.width kb hkb
  · rw [List.pairwise_map]
    exact hg.distinct

variable {build : Build}

theorem collectGradientSamples_stretch (C : List Labels)
    (items : List ((List LabelValue × TensorBlock NdArray) × List SampleMapping)) :
    collectGradientSamples build q (items.map fun it => (stretchAll q C it.1, it.2)) =
      collectGradientSamples build q items := by
  induction items with
  | nil => rfl
  | cons it items ih =>
    obtain ⟨⟨key, b⟩, m⟩ := it
    simp only [List.map_cons, stretchAll, collectGradientSamples]
    simp only [stretchAll] at ih
    rw [stretchBlock_gradient, ih]
    cases b.gradient q <;> rfl

theorem mergeGradientSamples_stretch (C : List Labels) (mappings : List (List SampleMapping)) :
    mergeGradientSamples build (blocks.map (stretchAll q C)) q mappings = mergeGradientSamples build blocks q mappings := by
  unfold mergeGradientSamples
  rw [zip_map_left', collectGradientSamples_stretch]
  congr 1
  funext collected
  rw [List.head?_map]
  cases (blocks.zip mappings).head? with
  | none => rfl
  | some it =>
    obtain ⟨⟨key, b⟩, m⟩ := it
    simp only [Option.map_some, Res.expect, Res.ok_bind, stretchAll]
    rw [stretchBlock_gradient]
    cases b.gradient q <;> rfl

theorem gradientMapping_stretch (C : List Labels) (mapping : List SampleMapping) (S : Labels) (g : BasicBlock NdArray) :
    gradientMapping build mapping S (stretch C g) = gradientMapping build mapping S g := rfl

theorem moveAllGradientProperties_stretch {C : List Labels} {S : Labels} {nOut p : Nat}
    {items : List (((List LabelValue × TensorBlock NdArray) × List SampleMapping) × Option (Nat × Nat))}
    (hi : ∀ it ∈ items, ∀ g, it.1.1.2.gradient q = some g → ∀ s e, it.2 = some (s, e) →
      Stretches g.samples.rows.length (e - s) (g.components.map fun c => c.rows.length) (C.map fun c => c.rows.length)
        g.data (stretch C g).data)
    {output out : NdArray} (ho : output.shape = nOut :: (C.map fun c => c.rows.length) ++ [p])
    (h : moveAllGradientProperties build q S C output items = .ok out) :
    moveAllGradientProperties build q S C output
      (items.map fun it => ((stretchAll q C it.1.1, it.1.2), it.2)) = .ok out := by
  induction items generalizing output with
  | nil => exact h
  | cons it items ih =>
    obtain ⟨⟨⟨key, b⟩, m⟩, range⟩ := it
    have ih' := fun {output} => ih (fun it hit => hi it (List.mem_cons_of_mem _ hit)) (output := output)
    cases range with
    | none =>
      simp only [List.map_cons, stretchAll, moveAllGradientProperties] at h ⊢
      exact ih' ho h
    | some r =>
      obtain ⟨s, e⟩ := r
      simp only [List.map_cons, stretchAll, moveAllGradientProperties, Res.bind_eq_ok, Res.expect_eq_ok,
        Build.debugAssert_eq_ok, beq_iff_eq] at h ⊢
      obtain ⟨g, h1, _, h2, gm, h3, out1, h4, h5⟩ := h
      obtain ⟨h6, h7⟩ := moveSamples_stretch (hi _ List.mem_cons_self g h1 s e rfl) ho h4
      refine ⟨stretch C g, ?_, (), fun _ => rfl, gm, ?_, out1, h6, ih' (h7.trans ho) h5⟩
      · rw [stretchBlock_gradient, h1]; rfl
      · rw [gradientMapping_stretch]; exact h3

theorem moveAllGradientProperties_sizes {C : List Labels} {S : Labels} {nOut p : Nat}
    {items : List (((List LabelValue × TensorBlock NdArray) × List SampleMapping) × Option (Nat × Nat))}
    (hi : ∀ it ∈ items, ∀ g, it.1.1.2.gradient q = some g → ∀ s e, it.2 = some (s, e) →
      Stretches g.samples.rows.length (e - s) (g.components.map fun c => c.rows.length) (C.map fun c => c.rows.length)
        g.data (stretch C g).data)
    {output out : NdArray} (ho : output.shape = nOut :: (C.map fun c => c.rows.length) ++ [p])
    (h : moveAllGradientProperties build q S C output items = .ok out) :
    ∀ it ∈ items, ∀ g, it.1.1.2.gradient q = some g → it.2 ≠ none →
      (∀ gm, gradientMapping build it.1.2 S g = .ok gm → gm ≠ []) →
      List.Forall₂ (fun s d => s = d ∨ s = 1) (g.components.map fun c => c.rows.length) (C.map fun c => c.rows.length) := by
  induction items generalizing output with
  | nil => intro it hit; cases hit
  | cons it items ih =>
    obtain ⟨⟨⟨key, b⟩, m⟩, range⟩ := it
    have ih' := fun {output} => ih (fun it hit => hi it (List.mem_cons_of_mem _ hit)) (output := output)
    cases range with
    | none =>
      simp only [moveAllGradientProperties] at h
      intro it hit g hg hne
      rcases List.mem_cons.1 hit with rfl | hit
      · exact absurd rfl hne
      · exact ih' ho h it hit g hg hne
    | some r =>
      obtain ⟨s, e⟩ := r
      simp only [moveAllGradientProperties, Res.bind_eq_ok, Res.expect_eq_ok, Build.debugAssert_eq_ok, beq_iff_eq] at h
      obtain ⟨g, h1, _, h2, gm, h3, out1, h4, h5⟩ := h
      have hst := hi _ List.mem_cons_self g h1 s e rfl
      obtain ⟨h6, h7⟩ := moveSamples_stretch hst ho h4
      intro it hit g₂ hg hne hgm
      rcases List.mem_cons.1 hit with rfl | hit
      · simp only at hg hgm
        rw [h1, Option.some.injEq] at hg
        subst hg
        exact moveSamples_sizes hst.length hst.shape ho (hgm gm h3) h4
      · exact ih' (h7.trans ho) h5 it hit g₂ hg hne hgm

/-- Sizes of the gradient components of merged blocks. -/
theorem MergedBlock.gradient_sizes {hash : HashOrder} {sort addKey : Bool} {names : List String}
    {mappings : List (List SampleMapping)} {ranges : List (Option (Nat × Nat))} {b' : TensorBlock NdArray}
    {rename : List LabelValue → List LabelValue → List LabelValue} {listed : List LabelValue → Prop}
    (hg : GroupOk w blocks) (h : MergedBlock build hash sort addKey names first blocks mappings ranges b')
    (hr : RangesOk rename listed b'.values.properties blocks ranges)
    {g' : BasicBlock NdArray} (hq : b'.gradient q = some g')
    {kb : List LabelValue × TensorBlock NdArray} (hkb : kb ∈ blocks) (hlist : listed kb.1) {g : BasicBlock NdArray}
    (hkg : kb.2.gradient q = some g) (hne : g.samples.rows ≠ []) :
    BroadcastsTo g.components g'.components := by
  obtain ⟨fg, hfg, hgm⟩ := h.gradient_some hg hq
  have hf := h.first_mem
  have hfv := (hg.valid first hf).gradient_valid hfg
  have hl1 := h.mapping.length_eq
  have hl2 := hr.1.length_eq
  obtain ⟨hms, -⟩ := gradientMerged_samples hg h.samples.wf h.mapping h.head hfg hgm
  obtain ⟨shape, count, zeros, hs1, hs2, hs3, hs4⟩ := hgm.data
  obtain ⟨shape', ht1, ht2⟩ := hfv.basic.shape
  have ht3 := shapeMatches_eq hfv.wf.samples hfv.wf.components hfv.wf.properties ht2
  rw [hs1, Res.ok.injEq] at ht1
  subst ht1
  obtain ⟨i, hi, rfl⟩ := List.getElem_of_mem hkb
  have hmem : ((blocks[i], mappings[i]'(by omega)), ranges[i]'(by omega)) ∈ (blocks.zip mappings).zip ranges :=
    List.mem_iff_getElem.2 ⟨i, by rw [List.length_zip, List.length_zip]; omega, by simp only [List.getElem_zip]⟩
  have hmem' := (List.of_mem_zip hmem).1
  have hgv := (hg.valid _ hkb).gradient_valid hkg
  have key := moveAllGradientProperties_sizes (C := fg.components) (nOut := count) (p := b'.values.properties.rows.length)
    (fun it hit g h1 s e hse => by
      obtain ⟨i, hi, rfl⟩ := List.getElem_of_mem hit
      rw [List.length_zip, List.length_zip] at hi
      simp only [List.getElem_zip] at h1 hse
      have hkb : blocks[i] ∈ blocks := List.getElem_mem _
      have hgv := (hg.valid _ hkb).gradient_valid h1
      have he := ((List.forall₂_iff_get.1 hr.1).2 i (by omega) (by omega) s e hse).1
      have := stretch_stretches hgv.wf hgv.basic (components_length hg hf hfg hkb h1)
      have hw : g.properties.rows.length = e - s := by
        rw [hgv.properties, he]
        simp
      rwa [hw] at this)
    (by
      simp only [ArrayLike.create, Res.ok.injEq] at hs3
      rw [← hs3, ht3]
      simp [NdArray.create, NdArray.build]) hs4 _ hmem g hkg
    (((List.forall₂_iff_get.1 hr.2).2 i (by omega) (by omega)).2 hlist)
    (by
      intro gm hgm'
      obtain ⟨g2, h5, h6⟩ := hms.every _ hmem'
      simp only at h5 hgm'
      rw [hkg, Option.some.injEq] at h5
      subst h5
      obtain ⟨gm', h7, h8⟩ := gradientMapping_ok (build := build) hms.holds hgv.wf.samples
        (forall₂_zip h.mapping _ hmem').input h6
      simp only at h7
      rw [hgm', Res.ok.injEq] at h7
      subst h7
      rintro rfl
      exact hne (List.eq_nil_of_length_eq_zero h8.length.symm))
  rw [hgm.components]
  rw [List.forall₂_map_left_iff, List.forall₂_map_right_iff] at key
  have hwf1 := hgv.wf.components
  have hwf2 := hfv.wf.components
  unfold BroadcastsTo
  rw [List.forall₂_iff_get] at key ⊢
  refine ⟨key.1, fun n h1 h2 => ?_⟩
  rw [entriesOf_wf (hwf1 _ (List.get_mem _ _)), entriesOf_wf (hwf2 _ (List.get_mem _ _))]
  exact key.2 n h1 h2

/-- Gradients of merged blocks, whatever the sizes of components. -/
theorem MergedBlock.gradient_broadcast {hash : HashOrder} {sort addKey : Bool} {names : List String}
    {mappings : List (List SampleMapping)} {ranges : List (Option (Nat × Nat))} {b' : TensorBlock NdArray}
    {rename : List LabelValue → List LabelValue → List LabelValue} {listed : List LabelValue → Prop}
    (hg : GroupOk w blocks) (h : MergedBlock build hash sort addKey names first blocks mappings ranges b')
    (hr : RangesOk rename listed b'.values.properties blocks ranges)
    (hap : addKey = true ∨ ∀ a b : List LabelValue, a.length = w → b.length = w → a ≠ b →
      ∀ p p', rename a p ≠ rename b p')
    {g' : BasicBlock NdArray} (hq : b'.gradient q = some g') :
    g'.data.WF ∧
    ∀ r' cs p' x, HasValue g' r' cs p' x ↔
      ((∃ kb ∈ blocks, listed kb.1 ∧ ∃ g, kb.2.gradient q = some g ∧
        ∃ r p, SampleRenumbered kb.2.values.samples b'.values.samples (extendSample addKey kb.1) r r' ∧
          rename kb.1 p = p' ∧ HasBroadcastValue g'.components g r cs p x) ∨
      (x = 0 ∧ r' ∈ g'.samples.rows ∧ HasEntries g'.components cs ∧ p' ∈ b'.values.properties.rows ∧
        ∀ kb ∈ blocks, listed kb.1 → ∀ g, kb.2.gradient q = some g →
          ∀ r ∈ g.samples.rows, ∀ p ∈ g.properties.rows,
            SampleRenumbered kb.2.values.samples b'.values.samples (extendSample addKey kb.1) r r' →
              rename kb.1 p ≠ p')) := by
  obtain ⟨fg, hfg, hgm⟩ := h.gradient_some hg hq
  have hf := h.first_mem
  have hfv := (hg.valid first hf).gradient_valid hfg
  have hg₂ := stretch_groupOk hg hf hfg h.all_components
  have hl1 := h.mapping.length_eq
  have hl2 := hr.1.length_eq
  -- the merge of the stretched gradients
  have hgm₂ : GradientMerged build (stretchBlock q fg.components first.2) (blocks.map (stretchAll q fg.components)) mappings
      ranges b'.values.properties.rows.length q (stretch fg.components fg) b'.values.properties g' := by
    obtain ⟨shape, count, zeros, hs1, hs2, hs3, hs4⟩ := hgm.data
    obtain ⟨shape', ht1, ht2⟩ := hfv.basic.shape
    have ht3 := shapeMatches_eq hfv.wf.samples hfv.wf.components hfv.wf.properties ht2
    rw [hs1, Res.ok.injEq] at ht1
    subst ht1
    refine ⟨by rw [mergeGradientSamples_stretch]; exact hgm.samples, hgm.components, hgm.properties_eq, ?_, hgm.no_nul⟩
    refine ⟨shape, count, zeros, ?_, hs2, by rw [stretchBlock_values]; exact hs3, ?_⟩
    · rw [ht3]; rfl
    · rw [zip_map_left', zip_map_left']
      refine moveAllGradientProperties_stretch (C := fg.components) (nOut := count) (p := b'.values.properties.rows.length)
        ?_ ?_ hs4
      · intro it hit g h1 s e hse
        obtain ⟨i, hi, rfl⟩ := List.getElem_of_mem hit
        rw [List.length_zip, List.length_zip] at hi
        simp only [List.getElem_zip] at h1 hse
        have hkb : blocks[i] ∈ blocks := List.getElem_mem _
        have hgv := (hg.valid _ hkb).gradient_valid h1
        have he := ((List.forall₂_iff_get.1 hr.1).2 i (by omega) (by omega) s e hse).1
        have := stretch_stretches hgv.wf hgv.basic (components_length hg hf hfg hkb h1)
        have hw : g.properties.rows.length = e - s := by
          rw [hgv.properties, he]
          simp
        rwa [hw] at this
      · simp only [ArrayLike.create, Res.ok.injEq] at hs3
        rw [← hs3, ht3]
        simp [NdArray.create, NdArray.build]
  have hm₂ : List.Forall₂ (fun kb mapping => MapsTo (Extends addKey kb.1) kb.2.values.samples.rows
      b'.values.samples.rows mapping) (blocks.map (stretchAll q fg.components)) mappings := by
    rw [List.forall₂_map_left_iff]
    simp only [stretchAll, stretchBlock_values]
    exact h.mapping
  have hr₂ := hr
  have hvals := gradientMerged_values (first := stretchAll q fg.components first) hg₂ h.samples.wf
    (BasicValid.wf h.valid.values).properties hm₂ (rename := rename) (listed := listed) (ranges := ranges)
    (by rw [List.forall₂_map_left_iff]; simp only [stretchAll, stretchBlock_values]; exact hr.1)
    (by rw [List.forall₂_map_left_iff]; exact hr.2) hap
    (by rw [List.head?_map, h.head]; rfl)
    (by simp only [stretchAll]; rw [stretchBlock_gradient, hfg]; rfl) hgm₂
    (.inr (by
      intro kb₂ hkb₂ g₂ h1
      obtain ⟨kb, hkb, rfl⟩ := List.mem_map.1 hkb₂
      simp only [stretchAll] at h1
      rw [stretchBlock_gradient, Option.map_eq_some_iff] at h1
      obtain ⟨g, -, rfl⟩ := h1
      rfl))
  refine ⟨hvals.1, fun r' cs p' x => ?_⟩
  rw [hvals.2 r' cs p' x, hgm.components]
  have hv : ∀ kb ∈ blocks, ∀ g, kb.2.gradient q = some g → ∀ r p, HasValue (withComponents fg.components
      (stretch fg.components g)) r cs p x ↔ HasBroadcastValue fg.components g r cs p x := fun kb hkb g h1 r p =>
    hasValue_stretch hfv.wf.components ((hg.valid kb hkb).gradient_valid h1).wf
  constructor
  · rintro (⟨kb₂, hkb₂, h1, g₂, h2, r, p, h3, h4, h5⟩ | ⟨h1, h2, h3, h4, h5⟩)
    · obtain ⟨kb, hkb, rfl⟩ := List.mem_map.1 hkb₂
      simp only [stretchAll] at h1 h2 h3 h4
      rw [stretchBlock_gradient, Option.map_eq_some_iff] at h2
      obtain ⟨g, h2, rfl⟩ := h2
      rw [stretchBlock_values] at h3
      exact .inl ⟨kb, hkb, h1, g, h2, r, p, h3, h4, (hv kb hkb g h2 r p).1 h5⟩
    · refine .inr ⟨h1, h2, h3, h4, ?_⟩
      intro kb hkb hl g h6 r hr p hp h7
      refine h5 _ (List.mem_map_of_mem hkb) hl (stretch fg.components g) ?_ r hr p hp ?_
      · simp only [stretchAll]; rw [stretchBlock_gradient, h6]; rfl
      · simp only [stretchAll]; rw [stretchBlock_values]; exact h7
  · rintro (⟨kb, hkb, h1, g, h2, r, p, h3, h4, h5⟩ | ⟨h1, h2, h3, h4, h5⟩)
    · refine .inl ⟨_, List.mem_map_of_mem hkb, h1, stretch fg.components g, ?_, r, p, ?_, h4, (hv kb hkb g h2 r p).2 h5⟩
      · simp only [stretchAll]; rw [stretchBlock_gradient, h2]; rfl
      · simp only [stretchAll]; rw [stretchBlock_values]; exact h3
    · refine .inr ⟨h1, h2, h3, h4, ?_⟩
      intro kb₂ hkb₂ hl g₂ h6 r hr p hp h7
      obtain ⟨kb, hkb, rfl⟩ := List.mem_map.1 hkb₂
      simp only [stretchAll] at hl h6 h7
      rw [stretchBlock_gradient, Option.map_eq_some_iff] at h6
      obtain ⟨g, h6, rfl⟩ := h6
      rw [stretchBlock_values] at h7
      exact h5 kb hkb hl g h6 r hr p hp h7

end

/-- Gradients of a merge along samples, whatever the sizes of components. -/
theorem mergeBlocksAlongSamples_broadcast {w : Nat} {blocks : List (List LabelValue × TensorBlock NdArray)} {build : Build}
    {hash : HashOrder} {extracted : List String} {sort : Bool} {b' : TensorBlock NdArray}
    (hg : GroupOk w blocks) (hw : extracted.length = w) (hpos : 0 < w)
    (h : mergeBlocksAlongSamples build hash extracted sort blocks = .ok b') {q : String}
    {g' : BasicBlock NdArray} (hq : b'.gradient q = some g') :
    ArrayOk g'.data ∧
    ∀ r' cs p x, HasValue g' r' cs p x ↔
      ∃ kb ∈ blocks, ∃ g, kb.2.gradient q = some g ∧ ∃ r,
        SampleRenumbered kb.2.values.samples b'.values.samples (· ++ kb.1) r r' ∧
        HasBroadcastValue g'.components g r cs p x := by
  obtain ⟨first, mappings, stop, hm, hs, hstop⟩ := mergeBlocksAlongSamples_merged hg hw hpos h
  have hp : ∀ kb ∈ blocks, kb.2.values.properties = b'.values.properties := fun kb hkb => by
    rw [hs.properties]; exact (hs.compatible kb hkb).2
  subst hstop
  obtain ⟨fg, _, hl⟩ := hm.gradient_labels hg hq
  obtain ⟨e1, e2⟩ := hm.gradient_broadcast hg (fullRanges_ok hp) (Or.inl rfl) hq
  refine ⟨e1, fun r' cs p x => ?_⟩
  rw [e2 r' cs p x]
  have hext : ∀ key : List LabelValue, extendSample true key = (· ++ key) := fun key => by
    funext s; simp [extendSample]
  simp only [hext]
  constructor
  · rintro (⟨kb, hkb, _, g, h1, r, p, h2, rfl, h3⟩ | ⟨_, h6, _, h7, h8⟩)
    · exact ⟨kb, hkb, g, h1, r, h2, h3⟩
    · exfalso
      rw [hl.rows] at h6
      obtain ⟨kb, hkb, g, h1, r, hr, h2⟩ := h6
      refine h8 kb hkb trivial g h1 r hr p ?_ ?_ rfl
      · rw [((hg.valid kb hkb).gradient_valid h1).properties, hp kb hkb]; exact h7
      · rwa [hext] at h2
  · rintro ⟨kb, hkb, g, h1, r, h2, h3⟩
    exact Or.inl ⟨kb, hkb, trivial, g, h1, r, p, h2, rfl, h3⟩

/-- Gradients of a merge along properties, whatever the sizes of components. -/
theorem mergeBlocksAlongProperties_broadcast {w : Nat} {blocks : List (List LabelValue × TensorBlock NdArray)}
    {build : Build} {hash : HashOrder} {user : Option Labels} {extracted : List String} {sort : Bool}
    {b' : TensorBlock NdArray} (hg : GroupOk w blocks) (hu : UserOk w user)
    (h : mergeBlocksAlongProperties build hash user extracted sort blocks = .ok b') {q : String}
    {g' : BasicBlock NdArray} (hq : b'.gradient q = some g') :
    ArrayOk g'.data ∧
    ∀ r' cs p' x, HasValue g' r' cs p' x ↔
      ((∃ kb ∈ blocks, Listed user kb.1 ∧ ∃ g, kb.2.gradient q = some g ∧ ∃ r p,
        SampleRenumbered kb.2.values.samples b'.values.samples id r r' ∧ p' = kb.1 ++ p ∧
        HasBroadcastValue g'.components g r cs p x) ∨
      (x = 0 ∧ r' ∈ g'.samples.rows ∧ HasEntries g'.components cs ∧
        p' ∈ b'.values.properties.rows ∧ ∀ kb ∈ blocks, Listed user kb.1 →
          ∀ g, kb.2.gradient q = some g → ∀ r ∈ g.samples.rows, ∀ p ∈ g.properties.rows,
            SampleRenumbered kb.2.values.samples b'.values.samples id r r' → p' ≠ kb.1 ++ p)) := by
  obtain ⟨first, mappings, ranges, hm, hs, hph⟩ := mergeBlocksAlongProperties_merged hg hu h
  have hr := propertyRange_spec hg hu hph (fun hu kb hkb => (hs.compatible kb hkb).2 hu) hs.ranges_eq
  obtain ⟨e1, e2⟩ := hm.gradient_broadcast hg hr (Or.inr (prefix_apart w)) hq
  refine ⟨e1, fun r' cs p x => ?_⟩
  rw [e2 r' cs p x]
  have hext : ∀ key : List LabelValue, extendSample false key = id := fun key => by
    funext s; simp [extendSample]
  simp only [hext, eq_comm, ne_eq]

theorem mergeBlocksAlongSamples_sizes {w : Nat} {blocks : List (List LabelValue × TensorBlock NdArray)} {build : Build}
    {hash : HashOrder} {extracted : List String} {sort : Bool} {b' : TensorBlock NdArray}
    (hg : GroupOk w blocks) (hw : extracted.length = w) (hpos : 0 < w)
    (h : mergeBlocksAlongSamples build hash extracted sort blocks = .ok b') {q : String}
    {g' : BasicBlock NdArray} (hq : b'.gradient q = some g') {kb : List LabelValue × TensorBlock NdArray}
    (hkb : kb ∈ blocks) {g : BasicBlock NdArray} (hkg : kb.2.gradient q = some g) (hne : g.samples.rows ≠ []) :
    BroadcastsTo g.components g'.components := by
  obtain ⟨first, mappings, stop, hm, hs, hstop⟩ := mergeBlocksAlongSamples_merged hg hw hpos h
  have hp : ∀ kb ∈ blocks, kb.2.values.properties = b'.values.properties := fun kb hkb => by
    rw [hs.properties]; exact (hs.compatible kb hkb).2
  subst hstop
  exact hm.gradient_sizes hg (fullRanges_ok hp) hq hkb trivial hkg hne

theorem mergeBlocksAlongProperties_sizes {w : Nat} {blocks : List (List LabelValue × TensorBlock NdArray)}
    {build : Build} {hash : HashOrder} {user : Option Labels} {extracted : List String} {sort : Bool}
    {b' : TensorBlock NdArray} (hg : GroupOk w blocks) (hu : UserOk w user)
    (h : mergeBlocksAlongProperties build hash user extracted sort blocks = .ok b') {q : String}
    {g' : BasicBlock NdArray} (hq : b'.gradient q = some g') {kb : List LabelValue × TensorBlock NdArray}
    (hkb : kb ∈ blocks) (hl : Listed user kb.1) {g : BasicBlock NdArray} (hkg : kb.2.gradient q = some g)
    (hne : g.samples.rows ≠ []) : BroadcastsTo g.components g'.components := by
  obtain ⟨first, mappings, ranges, hm, hs, hph⟩ := mergeBlocksAlongProperties_merged hg hu h
  have hr := propertyRange_spec hg hu hph (fun hu kb hkb => (hs.compatible kb hkb).2 hu) hs.ranges_eq
  exact hm.gradient_sizes hg hr hq hkb hl hkg hne

end Equistore
