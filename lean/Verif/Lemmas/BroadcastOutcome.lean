import Verif.Lemmas.Broadcast
import Verif.Lemmas.BackendInstances
import Verif.Lemmas.Numpy
import Verif.Spec.Outcome

/-! When moving keys succeeds, with gradient components of different sizes. -/

namespace Equistore
open Spec

theorem NdArray.moveOne_accepts {output input : NdArray} {m : SampleMapping} {s e nIn nOut p : Nat} {src mid : List Nat}
    (hl : src.length = mid.length) (hi : input.shape = nIn :: src ++ [e - s]) (ho : output.shape = nOut :: mid ++ [p])
    (hse : s ≤ e) (hp : e ≤ p) (hm : m.input < nIn ∧ m.output < nOut)
    (hb : List.Forall₂ (fun s d => s = d ∨ s = 1) src mid) :
    ∃ out, NdArray.moveOne output input m s e = some out ∧ out.shape = output.shape := by
  unfold NdArray.moveOne
  rw [hi, ho]
  simp only [List.cons_append, List.getLast?_append, List.getLast?_singleton, Option.some_or, List.dropLast_concat]
  rw [if_pos hm, if_pos ⟨by omega, hp, (canBroadcast_append hl).2 hb⟩]
  exact ⟨_, rfl, rfl⟩

theorem NdArray.moveLoop_accepts {input : NdArray} {s e nIn nOut p : Nat} {src mid : List Nat}
    (hl : src.length = mid.length) (hi : input.shape = nIn :: src ++ [e - s]) (hse : s ≤ e) (hp : e ≤ p)
    (hb : List.Forall₂ (fun s d => s = d ∨ s = 1) src mid) {ms : List SampleMapping}
    (hm : ∀ m ∈ ms, m.input < nIn ∧ m.output < nOut) {output : NdArray} (ho : output.shape = nOut :: mid ++ [p]) :
    ∃ out, NdArray.moveLoop input s e output ms = (out, .ok ()) ∧ out.shape = output.shape := by
  induction ms generalizing output with
  | nil => exact ⟨output, rfl, rfl⟩
  | cons m ms ih =>
    obtain ⟨out₁, e1, s1⟩ := moveOne_accepts hl hi ho hse hp (hm m List.mem_cons_self) hb
    obtain ⟨out, e2, s2⟩ := ih (fun m h => hm m (List.mem_cons_of_mem _ h)) (s1.trans ho)
    exact ⟨out, by simp [moveLoop, e1, e2], s2.trans s1⟩

theorem broadcasts_rust : Broadcasts RustArray.array false where
  accepts output input samples s e nOut nIn p src dst ho hi hl hse hp hm hb := by
    have key : ∃ out, NdArray.moveSamplesFrom output.array input.array samples s e = (out, .ok ()) ∧
        out.shape = output.array.shape := by
      unfold NdArray.moveSamplesFrom
      rw [if_pos (by rw [ho]; simp)]
      rcases hb with ⟨rfl, _⟩ | hb
      · exact ⟨_, rfl, rfl⟩
      · exact NdArray.moveLoop_accepts hl hi hse hp hb hm ho
    obtain ⟨out, e1, e2⟩ := key
    refine ⟨(ArrayLike.moveSamplesFrom output input samples s e).1, Prod.ext rfl ?_, ?_⟩
    · have h' := congrArg Prod.snd e1; exact h'
    · have h' := congrArg Prod.fst e1
      have h'' : (ArrayLike.moveSamplesFrom output input samples s e).1.array = out := h'
      rw [h'', e2]
  refuses output input samples s e nOut nIn p src dst ho hi hl hse hp hm hne hb h := by
    refine hb (moveSamples_sizes (out := (NdArray.moveSamplesFrom output.array input.array samples s e).1) hl hi ho
      (hne.resolve_right (by simp)) ?_)
    unfold moveSamples
    have h' : (NdArray.moveSamplesFrom output.array input.array samples s e).2 = .ok () := h
    have h'' : ArrayLike.moveSamplesFrom output.array input.array samples s e =
      ((NdArray.moveSamplesFrom output.array input.array samples s e).1, .ok ()) := Prod.ext rfl h'
    rw [h'']

theorem canBroadcast_cons_append {src mid : List Nat} {n w : Nat} (hl : src.length = mid.length) :
    NdArray.canBroadcast (n :: (src ++ [w])) (n :: (mid ++ [w])) = true ↔
      List.Forall₂ (fun s d => s = d ∨ s = 1) src mid := by
  rw [← List.cons_append, ← List.cons_append, canBroadcast_append (by simp [hl])]
  simp

theorem broadcasts_numpy : Broadcasts NumpyArray.array true where
  accepts output input samples s e nOut nIn p src dst ho hi hl hse hp hm hb := by
    have hb := hb.resolve_left (by simp)
    change ∃ output', NumpyArray.moveSamplesFrom output input samples s e = (output', .ok ()) ∧ _
    have hall : (samples.all fun m => decide (m.input < nIn) && decide (m.output < nOut)) = true := by
      simpa using hm
    have e1 : min s p = s := by omega
    have e2 : max s (min e p) = e := by omega
    have e3 : NumpyArray.dropOnes (samples.length :: (dst ++ [e - s])).length (samples.length :: (src ++ [e - s])) =
        samples.length :: (src ++ [e - s]) := by
      have : (samples.length :: (dst ++ [e - s])).length = (samples.length :: (src ++ [e - s])).length := by simp [hl]
      rw [this, NumpyArray.dropOnes_self]
    unfold NumpyArray.moveSamplesFrom
    rw [ho, hi]
    simp only [List.cons_append, List.getLast?_append, List.getLast?_singleton, Option.some_or,
      List.dropLast_concat, hall, if_true, e1, e2, e3, (canBroadcast_cons_append hl).2 hb]
    exact ⟨_, rfl, by rw [NumpyArray.build_eq]; rfl⟩
  refuses output input samples s e nOut nIn p src dst ho hi hl hse hp hm hne hb := by
    change (NumpyArray.moveSamplesFrom output input samples s e).2 ≠ _
    have hall : (samples.all fun m => decide (m.input < nIn) && decide (m.output < nOut)) = true := by
      simpa using hm
    have e1 : min s p = s := by omega
    have e2 : max s (min e p) = e := by omega
    have e3 : NumpyArray.dropOnes (samples.length :: (dst ++ [e - s])).length (samples.length :: (src ++ [e - s])) =
        samples.length :: (src ++ [e - s]) := by
      have : (samples.length :: (dst ++ [e - s])).length = (samples.length :: (src ++ [e - s])).length := by simp [hl]
      rw [this, NumpyArray.dropOnes_self]
    have e4 := Bool.eq_false_iff.2 fun h => hb ((canBroadcast_cons_append (n := samples.length) (w := e - s) hl).1 h)
    unfold NumpyArray.moveSamplesFrom
    rw [ho, hi]
    simp only [List.cons_append, List.getLast?_append, List.getLast?_singleton, Option.some_or,
      List.dropLast_concat, hall, if_true, e1, e2, e3, e4]
    simp

section
variable {A : Type} [ArrayLike A] {view : A → NdArray} {checksEmpty : Bool}

theorem moveSamples_eq_ok {output out input : A} {ms : List SampleMapping} {s e : Nat} :
    moveSamples output input ms s e = .ok out ↔ ArrayLike.moveSamplesFrom output input ms s e = (out, .ok ()) := by
  unfold moveSamples
  rcases ArrayLike.moveSamplesFrom output input ms s e with ⟨o, r | r | r⟩ <;> simp

theorem Spec.Broadcasts.moves (hB : Broadcasts view checksEmpty) (h : Implements view) {g : BasicBlock A} (hg : BlockWF g)
    (hb : BasicValid g) {C : List Labels} (hC : ∀ c ∈ C, c.WF) (hl : g.components.length = C.length)
    (hbr : (entriesOf g.samples ≠ [] ∨ checksEmpty = true) → BroadcastsTo g.components C) :
    GradientMoves view g (C.map fun c => c.rows.length) := by
  intro T outRows gm hm hT s e p he hp output ho
  obtain ⟨shape, h1, h2⟩ := hb.shape
  have h3 := shapeMatches_eq hg.samples hg.components hg.properties h2
  rw [h.shape, Res.ok.injEq] at h1
  rw [← h1] at h3
  obtain ⟨out, e1, e2⟩ := hB.accepts output g.data gm s e outRows.length g.samples.rows.length p
    (g.components.map fun c => c.rows.length) (C.map fun c => c.rows.length) ho
    (by rw [h3, he]; simp) (by simp [hl]) (by omega) hp (by
      intro m hmem
      obtain ⟨-, r, r', h4, h5, -⟩ := hm.mem hmem
      exact ⟨(List.getElem?_eq_some_iff.1 h4).1, (List.getElem?_eq_some_iff.1 h5).1⟩) (by
      by_cases hc : entriesOf g.samples ≠ [] ∨ checksEmpty = true
      · right
        have := hbr hc
        unfold BroadcastsTo at this
        rw [List.forall₂_map_left_iff, List.forall₂_map_right_iff]
        rw [List.forall₂_iff_get] at this ⊢
        refine ⟨this.1, fun n h6 h7 => ?_⟩
        have h8 := this.2 n h6 h7
        rwa [entriesOf_wf (hg.components _ (List.get_mem _ _)), entriesOf_wf (hC _ (List.get_mem _ _))] at h8
      · left
        rw [not_or, not_not, entriesOf_wf hg.samples] at hc
        refine ⟨List.eq_nil_of_length_eq_zero ?_, by simpa using hc.2⟩
        rw [hm.length, hc.1]; rfl)
  exact ⟨out, moveSamples_eq_ok.2 e1, e2.trans ho⟩

variable {w : Nat} {blocks : List (List LabelValue × TensorBlock A)} {q : String}
  {first : List LabelValue × TensorBlock A} {fg : BasicBlock A} {build : Build}

theorem gradient_components_length (hg : GroupOk w blocks) (hf : first ∈ blocks) (hfg : first.2.gradient q = some fg)
    {kb : List LabelValue × TensorBlock A} (hkb : kb ∈ blocks) {g : BasicBlock A}
    (h : kb.2.gradient q = some g) : g.components.length = fg.components.length := by
  have := congrArg List.length (((hg.consistent kb hkb first hf).gradients q g fg h hfg).2)
  simpa using this

theorem Spec.Broadcasts.group_moves (hB : Broadcasts view checksEmpty) (h : Implements view) (hg : GroupOk w blocks)
    {debug : Bool} {listed : List LabelValue → Prop}
    (hbr : ∀ first, blocks.head? = some first → ∀ kb ∈ blocks, listed kb.1 → GradientsBroadcast checksEmpty kb.2 first.2) :
    GroupMoves view debug listed blocks := by
  intro first hf q fg hfg kb hkb hl g hgq _
  have hgv := (hg.valid kb hkb).gradient_valid hgq
  have hfm := List.mem_of_mem_head? hf
  exact hB.moves h hgv.wf hgv.basic ((hg.valid first hfm).gradient_valid hfg).wf.components
    (gradient_components_length hg hfm hfg hkb hgq) fun hne => hbr first hf kb hkb hl q g fg hgq hfg hne

/-- All moved gradients have sizes for which values can be repeated. -/
theorem Spec.Broadcasts.moveAll_sizes (hB : Broadcasts view checksEmpty) {C : List Labels} {S : Labels} {nOut p : Nat}
    {items : List (((List LabelValue × TensorBlock A) × List SampleMapping) × Option (Nat × Nat))}
    (hi : ∀ it ∈ items, ∀ g, it.1.1.2.gradient q = some g → ∀ s e, it.2 = some (s, e) →
      ∀ gm, gradientMapping build it.1.2 S g = .ok gm → s ≤ e ∧ e ≤ p ∧ g.components.length = C.length ∧
        gm.length = g.samples.rows.length ∧ (∀ m ∈ gm, m.input < g.samples.rows.length ∧ m.output < nOut) ∧
        (view g.data).shape = g.samples.rows.length :: (g.components.map fun c => c.rows.length) ++ [e - s])
    {output out : A} (ho : (view output).shape = nOut :: (C.map fun c => c.rows.length) ++ [p])
    (h : moveAllGradientProperties build q S C output items = .ok out) :
    ∀ it ∈ items, ∀ g, it.1.1.2.gradient q = some g → it.2 ≠ none → (g.samples.rows ≠ [] ∨ checksEmpty = true) →
      List.Forall₂ (fun s d => s = d ∨ s = 1) (g.components.map fun c => c.rows.length) (C.map fun c => c.rows.length) := by
  induction items generalizing output with
  | nil => intro it hit; cases hit
  | cons it items ih =>
    obtain ⟨⟨⟨key, b⟩, m⟩, range⟩ := it
    have ih' := fun {output} => ih (fun it hit => hi it (List.mem_cons_of_mem _ hit)) (output := output)
    cases range with
    | none =>
      simp only [moveAllGradientProperties] at h
      intro it hit g hg hne
      rcases List.mem_cons.1 hit with rfl | hit
      · exact absurd rfl hne
      · exact ih' ho h it hit g hg hne
    | some r =>
      obtain ⟨s, e⟩ := r
      simp only [moveAllGradientProperties, Res.bind_eq_ok, Res.expect_eq_ok, Build.debugAssert_eq_ok, beq_iff_eq] at h
      obtain ⟨g, h1, _, h2, gm, h3, out1, h4, h5⟩ := h
      obtain ⟨hse, hep, hl, hgl, hgm, hsh⟩ := hi _ List.mem_cons_self g h1 s e rfl gm h3
      rw [moveSamples_eq_ok] at h4
      have hcase : (g.samples.rows ≠ [] ∨ checksEmpty = true) → List.Forall₂ (fun s d => s = d ∨ s = 1)
          (g.components.map fun c => c.rows.length) (C.map fun c => c.rows.length) := by
        intro hne
        by_contra hno
        refine hB.refuses output g.data gm s e _ _ p _ _ ho hsh (by simp [hl]) hse hep hgm
          (hne.imp_left fun hne hgm0 => hne (List.eq_nil_of_length_eq_zero (by rw [← hgl, hgm0]; rfl))) hno ?_
        rw [h4]
      have hshape : (view out1).shape = (view output).shape := by
        obtain ⟨out2, h6, h7⟩ := hB.accepts output g.data gm s e _ _ p _ _ ho hsh (by simp [hl]) hse hep hgm (by
          by_cases hc : g.samples.rows ≠ [] ∨ checksEmpty = true
          · exact .inr (hcase hc)
          · rw [not_or, not_not] at hc
            exact .inl ⟨List.eq_nil_of_length_eq_zero (by rw [hgl, hc.1]; rfl), by simpa using hc.2⟩)
        rw [h4, Prod.mk.injEq] at h6
        rw [h6.1, h7]
      intro it hit g₂ hg hne hgm
      rcases List.mem_cons.1 hit with rfl | hit
      · simp only at hg
        rw [h1, Option.some.injEq] at hg
        subst hg
        exact hcase hgm
      · exact ih' (hshape.trans ho) h5 it hit g₂ hg hne hgm

/-- Sizes of the gradient components of merged blocks, for arrays which repeat values. -/
theorem Spec.Broadcasts.merged_sizes (hB : Broadcasts view checksEmpty) (hV : Implements view) {hash : HashOrder}
    {sort addKey : Bool} {names : List String}
    {mappings : List (List SampleMapping)} {ranges : List (Option (Nat × Nat))} {b' : TensorBlock A}
    {rename : List LabelValue → List LabelValue → List LabelValue} {listed : List LabelValue → Prop}
    (hg : GroupOk w blocks) (h : MergedBlock build hash sort addKey names first blocks mappings ranges b')
    (hr : RangesOk rename listed b'.values.properties blocks ranges)
    {kb : List LabelValue × TensorBlock A} (hkb : kb ∈ blocks) (hlist : listed kb.1) :
    GradientsBroadcast checksEmpty kb.2 first.2 := by
  intro q g fg hkg hfg hne
  have hsome : (b'.gradient q).isSome = true := by rw [h.gradient_isSome, hfg]; rfl
  obtain ⟨g', hq⟩ := Option.isSome_iff_exists.1 hsome
  obtain ⟨fg', hfg', hgm⟩ := h.gradient_some hg hq
  rw [hfg, Option.some.injEq] at hfg'
  subst hfg'
  have hf := h.first_mem
  have hfv := (hg.valid first hf).gradient_valid hfg
  have hl1 := h.mapping.length_eq
  have hl2 := hr.1.length_eq
  obtain ⟨hms, -⟩ := gradientMerged_samples hg h.samples.wf h.mapping h.head hfg hgm
  obtain ⟨shape, count, zeros, hs1, hs2, hs3, hs4⟩ := hgm.data
  obtain ⟨shape', ht1, ht2⟩ := hfv.basic.shape
  have ht3 := shapeMatches_eq hfv.wf.samples hfv.wf.components hfv.wf.properties ht2
  rw [hs1, Res.ok.injEq] at ht1
  subst ht1
  have hcount : count = g'.samples.rows.length := by
    have := hms.holds.wf.count_eq
    rw [hs2, Res.ok.injEq] at this
    exact this
  obtain ⟨i, hi, rfl⟩ := List.getElem_of_mem hkb
  have hmem : ((blocks[i], mappings[i]'(by omega)), ranges[i]'(by omega)) ∈ (blocks.zip mappings).zip ranges :=
    List.mem_iff_getElem.2 ⟨i, by rw [List.length_zip, List.length_zip]; omega, by simp only [List.getElem_zip]⟩
  have hgv := (hg.valid _ hkb).gradient_valid hkg
  obtain ⟨zeros', hz1, hz2, -⟩ := hV.create first.2.values.data
    ((shape.set 0 count).set (shape.length - 1) b'.values.properties.rows.length)
  rw [hs3, Res.ok.injEq] at hz1
  subst hz1
  have key := hB.moveAll_sizes (C := fg.components) (nOut := count) (p := b'.values.properties.rows.length)
    (fun it hit g h1 s e hse gm hgm' => by
      have hit' := (List.of_mem_zip (a := it.1) (b := it.2) hit).1
      obtain ⟨i, hi, rfl⟩ := List.getElem_of_mem hit
      rw [List.length_zip, List.length_zip] at hi
      simp only [List.getElem_zip] at h1 hse hgm' hit'
      have hkb : blocks[i] ∈ blocks := List.getElem_mem _
      have hgv := (hg.valid _ hkb).gradient_valid h1
      have he := (List.forall₂_iff_get.1 hr.1).2 i (by omega) (by omega) s e hse
      obtain ⟨g2, h5, h6⟩ := hms.every _ hit'
      simp only at h5
      rw [h1, Option.some.injEq] at h5
      subst h5
      obtain ⟨gm', h7, h8⟩ := gradientMapping_ok (build := build) hms.holds hgv.wf.samples
        (forall₂_zip h.mapping _ hit').input h6
      simp only at h7
      rw [hgm', Res.ok.injEq] at h7
      subst h7
      obtain ⟨shape₂, hu1, hu2⟩ := hgv.basic.shape
      have hu3 := shapeMatches_eq hgv.wf.samples hgv.wf.components hgv.wf.properties hu2
      rw [hV.shape, Res.ok.injEq] at hu1
      have hw : g.properties.rows.length = e - s := by
        rw [hgv.properties, he.1]
        simp
      refine ⟨?_, ?_, gradient_components_length hg hf hfg hkb h1, h8.length, ?_, ?_⟩
      · rw [he.1]; omega
      · exact he.2.1
      · intro m hm
        obtain ⟨-, r, r', h9, h10, -⟩ := h8.mem hm
        refine ⟨(List.getElem?_eq_some_iff.1 h9).1, ?_⟩
        rw [hcount]
        exact (List.getElem?_eq_some_iff.1 h10).1
      · rw [hu1, hu3, hw])
    (by
      rw [hz2, ht3]
      simp) hs4 _ hmem g hkg
    (((List.forall₂_iff_get.1 hr.2).2 i (by omega) (by omega)).2 hlist)
    (by rwa [entriesOf_wf hgv.wf.samples] at hne)
  rw [List.forall₂_map_left_iff, List.forall₂_map_right_iff] at key
  unfold BroadcastsTo
  rw [List.forall₂_iff_get] at key ⊢
  refine ⟨key.1, fun n h1 h2 => ?_⟩
  rw [entriesOf_wf (hgv.wf.components _ (List.get_mem _ _)), entriesOf_wf (hfv.wf.components _ (List.get_mem _ _))]
  exact key.2 n h1 h2

variable {t : TensorMap A} {hash : HashOrder} {keysToMove : Labels} {sort : Bool}

theorem group_broadcast (ht : TensorValid t) {moved : List String} {listed : List LabelValue → Prop}
    (h : ∀ first kb, FirstMergedWith t moved first kb → listed (movedKey t.keys.names moved kb.1) →
      GradientsBroadcast checksEmpty kb.2 first.2) (key' : List LabelValue) :
    ∀ first, (mergedFor t moved key').head? = some first → ∀ kb ∈ mergedFor t moved key', listed kb.1 →
      GradientsBroadcast checksEmpty kb.2 first.2 := by
  intro first hf kb hkb hl
  unfold mergedFor at hf hkb
  rw [List.head?_map, Option.map_eq_some_iff] at hf
  obtain ⟨first₀, hf, rfl⟩ := hf
  obtain ⟨kb₀, hkb₀, rfl⟩ := List.mem_map.1 hkb
  obtain ⟨h1, h2⟩ := List.mem_filter.1 hkb₀
  rw [decide_eq_true_iff] at h2
  exact h first₀ kb₀ ⟨_, ht.iter_eq, h1, by rw [h2]; exact hf⟩ hl

theorem firstMerged_group (ht : TensorValid t) {moved : List String} {first kb : List LabelValue × TensorBlock A}
    (h : FirstMergedWith t moved first kb) :
    remainingKey t.keys.names moved kb.1 ∈ newKeyRows t moved ∧
    (mergedFor t moved (remainingKey t.keys.names moved kb.1)).head? = some (toMerge t.keys.names moved first) := by
  obtain ⟨pairs, h1, h2, h3⟩ := h
  rw [ht.iter_eq, Res.ok.injEq] at h1
  subst h1
  refine ⟨mem_newKeyRows (List.of_mem_zip (a := kb.1) (b := kb.2) h2).1, ?_⟩
  unfold mergedFor
  rw [List.head?_map, h3]
  rfl

theorem keysToSamples_broadcast_of_ok (h : Implements view) (hB : Broadcasts view checksEmpty) (ht : TensorValid t)
    (hm : keysToMove.FromBuilder) (hok : ∃ t', t.keysToSamples build hash keysToMove sort = (t', .ok ())) :
    ∀ first kb, FirstMergedWith t keysToMove.names first kb → GradientsBroadcast checksEmpty kb.2 first.2 := by
  have hok' := hok
  simp only [keysToSamples_ok_iff ht hm, exists_and_left, keysMoved_exists ht] at hok'
  obtain ⟨hw, -, hs, hmerge⟩ := hok'
  intro first kb hf
  obtain ⟨h1, h2⟩ := firstMerged_group ht hf
  obtain ⟨b', hb'⟩ := hmerge _ h1
  have hg := group_ok ht (Labels.Holds.names_ok hw).2 hs (remainingKey t.keys.names keysToMove.names kb.1)
  obtain ⟨first', mappings, stop, hM, hS, hstop⟩ :=
    mergeBlocksAlongSamples_merged hg rfl (Labels.Holds.names_pos hw) hb'
  have hp : ∀ kb₂ ∈ mergedFor t keysToMove.names (remainingKey t.keys.names keysToMove.names kb.1),
      kb₂.2.values.properties = b'.values.properties := fun kb₂ hkb₂ => by
    rw [hS.properties]; exact (hS.compatible kb₂ hkb₂).2
  subst hstop
  have hh := hM.head
  rw [← mergedFor, h2, Option.some.injEq] at hh
  have := hB.merged_sizes h hg hM (fullRanges_ok hp) (FirstMergedWith.self_mem ht hf) trivial
  rw [← hh] at this
  exact this

theorem keysToSamples_succeeds_iff_broadcast (h : Implements view) (hB : Broadcasts view checksEmpty) (ht : TensorValid t)
    (hm : keysToMove.FromBuilder) (hfit : SamplesFit t keysToMove.names) :
    (∃ t', t.keysToSamples build hash keysToMove sort = (t', .ok ())) ↔ CanMoveToSamples build t keysToMove ∧
      ∀ first kb, FirstMergedWith t keysToMove.names first kb → GradientsBroadcast checksEmpty kb.2 first.2 := by
  have hback : (∀ first kb, FirstMergedWith t keysToMove.names first kb → GradientsBroadcast checksEmpty kb.2 first.2) →
      keysToMove.WF → (∀ n ∈ keysToMove.names, n ∈ t.keys.names) → ∀ key',
        GroupMoves view build.debug (fun _ => True) (mergedFor t keysToMove.names key') := fun hbr hw hs key' =>
    hB.group_moves h (group_ok ht (Labels.Holds.names_ok hw).2 hs key')
      (group_broadcast ht (listed := fun _ => True) (fun first kb hf _ => hbr first kb hf) key')
  constructor
  · intro hok
    have hbr := keysToSamples_broadcast_of_ok h hB ht hm hok
    exact ⟨(keysToSamples_succeeds_iff_moves h ht hm (hback hbr) hfit).1 hok, hbr⟩
  · rintro ⟨hc, hbr⟩
    exact (keysToSamples_succeeds_iff_moves h ht hm (hback hbr) hfit).2 hc

theorem keysToProperties_broadcast_of_ok (h : Implements view) (hB : Broadcasts view checksEmpty)
    (ht : TensorValid t) (hm : keysToMove.FromBuilder)
    (hok : ∃ t', t.keysToProperties build hash keysToMove sort = (t', .ok ())) :
    ∀ first kb, FirstMergedWith t keysToMove.names first kb → Requested t.keys.names keysToMove kb.1 →
      GradientsBroadcast checksEmpty kb.2 first.2 := by
  have hreq : keysToMove.WF → ∀ key, (Requested t.keys.names keysToMove key ↔
      Listed (userKeys keysToMove) (movedKey t.keys.names keysToMove.names key)) := by
    intro hw key
    rw [listed_userKeys]
    unfold Requested
    rw [entriesOf_wf hw]
  have hok' := hok
  simp only [keysToProperties_ok_iff ht hm, exists_and_left, keysMoved_exists ht] at hok'
  obtain ⟨hw, hs, hmerge⟩ := hok'
  intro first kb hf hl
  obtain ⟨h1, h2⟩ := firstMerged_group ht hf
  obtain ⟨b', hb'⟩ := hmerge _ h1
  have hg := group_ok ht (Labels.Holds.names_ok hw).2 hs (remainingKey t.keys.names keysToMove.names kb.1)
  obtain ⟨first', mappings, ranges, hM, hS, hph⟩ := mergeBlocksAlongProperties_merged hg (userKeys_ok hw) hb'
  have hr := propertyRange_spec hg (userKeys_ok hw) hph (fun hu kb hkb => (hS.compatible kb hkb).2 hu) hS.ranges_eq
  have hh := hM.head
  rw [← mergedFor, h2, Option.some.injEq] at hh
  have := hB.merged_sizes h hg hM hr (FirstMergedWith.self_mem ht hf) ((hreq hw kb.1).1 hl)
  rw [← hh] at this
  exact this

theorem keysToProperties_succeeds_iff_broadcast (h : Implements view) (hB : Broadcasts view checksEmpty)
    (ht : TensorValid t) (hm : keysToMove.FromBuilder) (hfit : SamplesFit t keysToMove.names) :
    (∃ t', t.keysToProperties build hash keysToMove sort = (t', .ok ())) ↔ CanMoveToProperties build t keysToMove ∧
      ∀ first kb, FirstMergedWith t keysToMove.names first kb → Requested t.keys.names keysToMove kb.1 →
        GradientsBroadcast checksEmpty kb.2 first.2 := by
  have hreq : keysToMove.WF → ∀ key, (Requested t.keys.names keysToMove key ↔
      Listed (userKeys keysToMove) (movedKey t.keys.names keysToMove.names key)) := by
    intro hw key
    rw [listed_userKeys]
    unfold Requested
    rw [entriesOf_wf hw]
  have hback : (∀ first kb, FirstMergedWith t keysToMove.names first kb → Requested t.keys.names keysToMove kb.1 →
      GradientsBroadcast checksEmpty kb.2 first.2) →
      keysToMove.WF → (∀ n ∈ keysToMove.names, n ∈ t.keys.names) → ∀ key',
        GroupMoves view build.debug (Listed (userKeys keysToMove)) (mergedFor t keysToMove.names key') :=
    fun hbr hw hs key' => hB.group_moves h (group_ok ht (Labels.Holds.names_ok hw).2 hs key')
      (group_broadcast ht (fun first kb hf hl => hbr first kb hf ((hreq hw kb.1).2 hl)) key')
  constructor
  · intro hok
    have hbr := keysToProperties_broadcast_of_ok h hB ht hm hok
    exact ⟨(keysToProperties_succeeds_iff_moves h ht hm (hback hbr) hfit).1 hok, hbr⟩
  · rintro ⟨hc, hbr⟩
    exact (keysToProperties_succeeds_iff_moves h ht hm (hback hbr) hfit).2 hc

end

end Equistore
