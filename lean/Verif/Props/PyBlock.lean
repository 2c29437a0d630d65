import Verif.Spec.PyBlock
import Verif.Props.PyLabels
import Verif.Props.CBlocks

/-!
# Blocks in Python (C84)
-/

namespace Equistore
open Spec

section
variable {A : Type} [ArrayLike A]

/-- Python sees the labels of the library. -/
theorem showsLabels_ofC {l : Labels} (hl : l.FromBuilder) (hn : l.names ≠ []) :
    ∃ c v, l.toC = .ok c ∧ PyLabels.ofC c = .ok v ∧ ShowsLabels v l := by
  by_cases h0 : l.iter = .ok []
  · obtain ⟨c, v, h1, h2, h3, h4, -⟩ := C61_no_entries l hl hn h0
    exact ⟨c, v, h1, h2, h3, [], h4, h0⟩
  · obtain ⟨c, v, entries, h1, h2, h3, h4, h5, -⟩ := C61_read_back_partial l hl hn h0
    exact ⟨c, v, h1, h2, h4, entries, h5, h3⟩

theorem Spec.BasicValid.names_ne {b : BasicBlock A} (hv : BasicValid b) : ∀ l ∈ allLabels b, l.names ≠ [] := by
  obtain ⟨shape, _, hm⟩ := hv.shape
  intro l hl
  obtain ⟨i, hi, rfl⟩ := List.getElem_of_mem hl
  have hlen : shape.length = (allLabels b).length := hm.length_eq
  exact Labels.count_ok_ne (hm.get (by omega) hi)

theorem Spec.BlockPart.valid {block : TensorBlock A} (hb : BlockValid block) {name : String} {b : BasicBlock A}
    (hp : BlockPart block name b) : BasicValid b := by
  rcases hp with ⟨_, rfl⟩ | ⟨_, hm⟩
  · exact hb.values
  · exact (hb.gradients _ _ hm).basic

theorem pyAxisLabels_eq {b : TensorBlock A} (hb : BlockValid b) {name : String} {basic : BasicBlock A}
    (h0 : '\x00' ∉ name.toList) (hp : BlockPart b name basic) {axis : Nat} {l : Labels}
    (hl : (allLabels basic)[axis]? = some l) : ∃ v, pyAxisLabels b name axis = .ok v ∧ ShowsLabels v l := by
  have hv := hp.valid hb
  have hmem := List.mem_of_getElem? hl
  obtain ⟨c, v, h1, h2, h3⟩ := showsLabels_ofC (hv.labels _ hmem) (hv.names_ne _ hmem)
  have hx := axisLabels_eq basic axis
  rw [hl] at hx
  refine ⟨v, ?_, h3⟩
  simp only [pyAxisLabels, blockLabels, selectBasic_of_part hb (isCString_cstring h0) hp, Res.ok_bind,
    show axisLabels basic axis = .ok l from hx, h1]
  exact h2

/-- **C84.** For a valid block and the values or any gradient: `samples`, `components` and `properties` in Python have the
names and entries of the labels of the block, in the same order. -/
theorem C84_shown (b : TensorBlock A) (hb : BlockValid b) (name : String) (h0 : '\x00' ∉ name.toList)
    (basic : BasicBlock A) (hp : BlockPart b name basic) : PartShown b name basic := by
  have hv := hp.valid hb
  obtain ⟨shape, hs, hm⟩ := hv.shape
  have hlen : shape.length = (allLabels basic).length := hm.length_eq
  have hlen' : (allLabels basic).length = basic.components.length + 2 := by simp [allLabels]
  have hsel := selectBasic_of_part hb (isCString_cstring h0) hp
  have hdata : pyData b name = .ok basic.data := by simp only [pyData, hsel]; rfl
  have hdim : pyDimensions b name = .ok (basic.components.length + 2) := by
    simp only [pyDimensions, hdata]
    show (do let shape ← pyCheck (ArrayLike.shape basic.data); return shape.length) = _
    rw [hs, ← hlen', ← hlen]
    rfl
  refine ⟨pyAxisLabels_eq hb h0 hp (by simp [allLabels]), ?_, ?_, hdata⟩
  · have : ∃ vs, (List.range basic.components.length).mapM (fun axis => pyAxisLabels b name (axis + 1)) = .ok vs ∧
        List.Forall₂ ShowsLabels vs basic.components := by
      have hall : ∀ (n : Nat), n ≤ basic.components.length →
          ∃ vs, (List.range n).mapM (fun axis => pyAxisLabels b name (axis + 1)) = .ok vs ∧
            List.Forall₂ ShowsLabels vs (basic.components.take n) := by
        intro n
        induction n with
        | zero => intro _; exact ⟨[], rfl, by simp⟩
        | succ n ih =>
          intro hn
          obtain ⟨vs, h1, h2⟩ := ih (by omega)
          have hl : (allLabels basic)[n + 1]? = some (basic.components[n]'(by omega)) := by
            simp [allLabels, List.getElem?_append_left, show n < basic.components.length by omega]
          obtain ⟨v, h3, h4⟩ := pyAxisLabels_eq hb h0 hp hl
          refine ⟨vs ++ [v], ?_, ?_⟩
          · rw [List.range_succ, List.mapM_append, h1]
            simp only [List.mapM_cons, h3, List.mapM_nil]
            rfl
          · rw [List.take_succ_eq_append_getElem (by omega)]
            exact List.rel_append h2 (.cons h4 .nil)
      obtain ⟨vs, h1, h2⟩ := hall _ (Nat.le_refl _)
      rw [List.take_length] at h2
      exact ⟨vs, h1, h2⟩
    obtain ⟨vs, h1, h2⟩ := this
    refine ⟨vs, ?_, h2⟩
    simp only [pyComponents, hdim]
    exact h1
  · have hl : (allLabels basic)[basic.components.length + 1]? = some basic.properties := by
      simp [allLabels]
    obtain ⟨v, h1, h2⟩ := pyAxisLabels_eq hb h0 hp hl
    refine ⟨v, ?_, h2⟩
    simp only [pyProperties, hdim]
    exact h1

/-- **C84.** The gradients of a valid block in Python: their names, in the order in which they were added; `gradient` gives
one of them, and is a `ValueError` otherwise. -/
theorem C84_gradients (b : TensorBlock A) (hb : BlockValid b)
    (hnul : ∀ p ∈ b.gradients.map Prod.fst, '\x00' ∉ p.toList) :
    pyGradientsList b = .ok b.gradientParameters ∧
    (∀ p, pyHasGradient b p = .ok (b.gradient p).isSome) ∧
    (∀ p, pyGradient b p = if (b.gradient p).isSome then .ok p else .error .valueError) ∧
    pyGradients b = .ok (b.gradientParameters.map fun p => (p, p)) := by
  have h1 : pyGradientsList b = .ok b.gradientParameters := by
    have : ((blockGradientsList b).1.getD []).take (blockGradientsList b).2 = b.gradientParameters.map cstring := by
      simp only [blockGradientsList]
      cases h : b.gradientParameters with
      | nil => rfl
      | cons p ps => simp [List.take_of_length_le]
    simp only [pyGradientsList]
    rw [this, mapM_decodeName (names := b.gradientParameters)]
    · rfl
    · rw [List.forall₂_map_left_iff, List.forall₂_same, hb.list]
      exact fun p hp => isCString_cstring (hnul p hp)
  have h2 : ∀ p, pyHasGradient b p = .ok (b.gradient p).isSome := by
    intro p
    simp only [pyHasGradient, h1]
    show Except.ok (b.gradientParameters.contains p) = _
    congr 1
    rw [hb.list, TensorBlock.gradient]
    cases h : b.gradients.lookup p with
    | none =>
      rw [List.lookup_eq_none_iff] at h
      simp only [Option.isSome_none, List.contains_eq_mem, decide_eq_false_iff_not]
      intro hm
      obtain ⟨x, hx, rfl⟩ := List.mem_map.1 hm
      simpa using h x hx
    | some g =>
      simp only [Option.isSome_some, List.contains_eq_mem, decide_eq_true_eq]
      exact List.mem_map.2 ⟨_, (lookup_eq_some_iff hb.names).1 h, rfl⟩
  have h3 : ∀ p, pyGradient b p = if (b.gradient p).isSome then .ok p else .error .valueError := by
    intro p
    simp only [pyGradient, h2]
    cases (b.gradient p).isSome <;> rfl
  refine ⟨h1, h2, h3, ?_⟩
  simp only [pyGradients, h1]
  show b.gradientParameters.mapM _ = _
  have : ∀ ps : List String, (∀ p ∈ ps, p ∈ b.gradientParameters) →
      ps.mapM (fun parameter => (do let gradient ← pyGradient b parameter; return (parameter, gradient) :
        Except PyExc (String × String))) = .ok (ps.map fun p => (p, p)) := by
    intro ps
    induction ps with
    | nil => intro _; rfl
    | cons p ps ih =>
      intro hps
      have hsome : (b.gradient p).isSome = true := by
        have := hps p (by simp)
        rw [hb.list] at this
        obtain ⟨x, hx, rfl⟩ := List.mem_map.1 this
        rw [TensorBlock.gradient, lookup_of_mem hb.names (k := x.1) (v := x.2) hx]; rfl
      rw [List.mapM_cons, h3, if_pos hsome, ih fun q hq => hps q (by simp [hq])]
      rfl
  exact this _ fun _ h => h

/-- What the library makes of labels given by Python. -/
structure Converted (v : PyLabels) (l : Labels) : Prop where
  ofC : Labels.ofC v.toC = .ok l
  made : l.FromBuilder
  names : l.names = v.names
  count : l.count = .ok v.count
  entries : ∃ entries, v.entries = some entries ∧ l.iter = .ok entries

theorem Converted.same {v v' : PyLabels} {l : Labels} (h : Converted v l) (h' : ShowsLabels v' l) : LabelsAgree v' v := by
  obtain ⟨entries, h1, h2⟩ := h.entries
  obtain ⟨h3, entries', h4, h5⟩ := h'
  rw [h2, Res.ok.injEq] at h5
  subst h5
  exact ⟨h3.trans h.names, by rw [h4]; rfl, by rw [h1, h4]⟩

theorem Spec.PlainLabels.readable {v : PyLabels} (h : PlainLabels v) : v.readable = true := by
  obtain ⟨⟨rows, hr⟩, _⟩ := PyLabels.obtained_canonical h.1
  exact hr.readable

theorem Spec.PlainLabels.converted {v : PyLabels} (h : PlainLabels v) {l : Labels} (hl : Labels.ofC v.toC = .ok l) :
    Converted v l := by
  obtain ⟨⟨rows, hr⟩, h1, h2⟩ := PyLabels.obtained_canonical h.1
  have hb := ofC_eq_build (hr.describes h2) h.2
  rw [hb] at hl
  have hh := (Labels.build_eq_ok (List.length_pos_iff.2 h.2)).1 hl
  refine ⟨hb.trans hl, ⟨_, _, hl⟩, hh.names_eq, ?_, rows, hr.entries, hh.iter_eq⟩
  rw [hh.count_eq, hr.count]

theorem Spec.PlainLabels.acceptable_iff {v : PyLabels} (h : PlainLabels v) :
    (∃ l, Labels.ofC v.toC = .ok l) ↔ Acceptable v := by
  obtain ⟨-, entries, h1, -, h2⟩ := C60_library_sees_partial v h.1 h.2
  rw [h2, Acceptable, h1]
  simp

theorem mapM_converted {vs : List PyLabels} (h : ∀ v ∈ vs, PlainLabels v) {ls : List Labels} :
    (vs.map PyLabels.toC).mapM Labels.ofC = .ok ls ↔ List.Forall₂ Converted vs ls := by
  rw [mapM_eq_ok, List.forall₂_map_left_iff]
  constructor
  · intro hf
    induction hf with
    | nil => exact .nil
    | cons h1 _ ih => exact .cons ((h _ (by simp)).converted h1) (ih fun v hv => h v (by simp [hv]))
  · exact fun hf => hf.imp fun _ _ h => h.ofC

theorem exists_converted {vs : List PyLabels} (h : ∀ v ∈ vs, PlainLabels v) (ha : ∀ v ∈ vs, Acceptable v) :
    ∃ ls, List.Forall₂ Converted vs ls := by
  induction vs with
  | nil => exact ⟨[], .nil⟩
  | cons v vs ih =>
    obtain ⟨ls, hls⟩ := ih (fun v hv => h v (by simp [hv])) fun v hv => ha v (by simp [hv])
    obtain ⟨l, hl⟩ := (h v (by simp)).acceptable_iff.2 (ha v (by simp))
    exact ⟨l :: ls, .cons ((h v (by simp)).converted hl) hls⟩

theorem converted_counts {vs : List PyLabels} {ls : List Labels} {shape : List Nat} (hf : List.Forall₂ Converted vs ls) :
    List.Forall₂ (fun n labels => Labels.count labels = .ok n) shape ls ↔ shape = vs.map (·.count) := by
  induction hf generalizing shape with
  | nil => simp
  | cons h1 _ ih =>
    cases shape with
    | nil => simp
    | cons n shape =>
      rw [List.forall₂_cons, ih, h1.count, Res.ok.injEq]
      simp [eq_comm]

theorem converted_names {vs : List PyLabels} {ls : List Labels} (hf : List.Forall₂ Converted vs ls) :
    ls.map (·.names) = vs.map (·.names) := by
  induction hf with
  | nil => rfl
  | cons h1 _ ih => rw [List.map_cons, List.map_cons, h1.names, ih]

theorem converted_single {vs : List PyLabels} {ls : List Labels} (hf : List.Forall₂ Converted vs ls) :
    (∀ c ∈ ls, c.names.length = 1) ↔ ∀ c ∈ vs, c.names.length = 1 := by
  induction hf with
  | nil => simp
  | cons h1 _ ih => simp only [List.forall_mem_cons, h1.names, ih]

theorem forall₂_same {vs' vs : List PyLabels} {ls : List Labels} (h : List.Forall₂ Converted vs ls)
    (h' : List.Forall₂ ShowsLabels vs' ls) : List.Forall₂ LabelsAgree vs' vs := by
  induction h generalizing vs' with
  | nil => cases h'; exact .nil
  | cons h1 _ ih =>
    cases h' with
    | cons h2 h3 => exact .cons (h1.same h2) (ih h3)

theorem PartShown.is {b : TensorBlock A} {name : String} {basic : BasicBlock A} (h : PartShown b name basic)
    {samples : PyLabels} {components : List PyLabels} {properties : PyLabels} (hs : Converted samples basic.samples)
    (hc : List.Forall₂ Converted components basic.components) (hp : Converted properties basic.properties) :
    PartIs b name basic.data samples components properties := by
  obtain ⟨⟨v, h1, h2⟩, ⟨vs, h3, h4⟩, ⟨v', h5, h6⟩, h7⟩ := h
  exact ⟨⟨v, h1, hs.same h2⟩, ⟨vs, h3, forall₂_same hc h4⟩, ⟨v', h5, hp.same h6⟩, h7⟩

/-- **C84.** `TensorBlock(values, samples, components, properties)` succeeds exactly when the library accepts all labels, each
component has a single name which is not used by another component, and the shape of the array is the number of
entries of the labels. Then the block in Python has the labels and the array it was created with, and no gradient. What is missing
from the full statement: labels which are not seen by the library as in Python (C60). -/
theorem C84_created_partial (values : A) (samples : PyLabels) (components : List PyLabels) (properties : PyLabels)
    (h : ∀ v ∈ samples :: components ++ [properties], PlainLabels v) :
    ∃ r, pyNewBlock values samples components properties = some r ∧
      (∀ b, r = .ok b → BlockValid b ∧ PartIs b "values" values samples components properties ∧
        pyGradientsList b = .ok []) ∧
      ((∃ b, r = .ok b) ↔
        ArrayLike.shape values = .ok ((samples :: components ++ [properties]).map (·.count)) ∧
        (∀ v ∈ samples :: components ++ [properties], Acceptable v) ∧
        (∀ c ∈ components, c.names.length = 1) ∧ (components.map (·.names)).Nodup) := by
  have hread : (samples :: components ++ [properties]).all PyLabels.readable = true := by
    rw [List.all_eq_true]
    exact fun v hv => (h v hv).readable
  have hs := h samples (by simp)
  have hc : ∀ v ∈ components, PlainLabels v := fun v hv => h v (by simp [hv])
  have hp := h properties (by simp)
  -- the conversions
  have hconv : ∀ b, blockOfC values samples.toC (components.map PyLabels.toC) properties.toC = .ok b →
      ∃ s cs p, Converted samples s ∧ List.Forall₂ Converted components cs ∧ Converted properties p ∧
        TensorBlock.new values s cs p = .ok b := by
    intro b hb
    unfold blockOfC at hb
    obtain ⟨s, h1, hb⟩ := Res.bind_eq_ok.1 hb
    obtain ⟨cs, h2, hb⟩ := Res.bind_eq_ok.1 hb
    obtain ⟨p, h3, hb⟩ := Res.bind_eq_ok.1 hb
    exact ⟨s, cs, p, hs.converted h1, (mapM_converted hc).1 h2, hp.converted h3, hb⟩
  have hforall : ∀ {s cs p}, Converted samples s → List.Forall₂ Converted components cs → Converted properties p →
      List.Forall₂ Converted (samples :: components ++ [properties]) (s :: cs ++ [p]) := fun h1 h2 h3 =>
    .cons h1 (List.rel_append h2 (.cons h3 .nil))
  refine ⟨_, by rw [pyNewBlock, if_pos hread], ?_, ?_⟩
  · intro b hb
    have hb : blockOfC values samples.toC (components.map PyLabels.toC) properties.toC = .ok b := by
      cases hr : blockOfC values samples.toC (components.map PyLabels.toC) properties.toC with
      | ok b' => rw [hr] at hb; cases hb; rfl
      | err e => rw [hr] at hb; cases hb
      | panic m => rw [hr] at hb; cases hb
    obtain ⟨s, cs, p, h1, h2, h3, hnew⟩ := hconv b hb
    have hmade : ∀ l ∈ s :: cs ++ [p], l.FromBuilder := by
      intro l hl
      obtain ⟨i, hi, rfl⟩ := List.getElem_of_mem hl
      have hf := hforall h1 h2 h3
      exact (hf.get (by rw [hf.length_eq]; exact hi) hi).made
    have hv := BlockValid.new hmade hnew
    obtain ⟨hc1, hc2, hc3⟩ := C05_block_content _ _ _ _ _ hnew
    refine ⟨hv, ?_, ?_⟩
    · have := C84_shown b hv "values" (by decide) _ (.inl ⟨rfl, rfl⟩)
      have := PartShown.is this (samples := samples) (components := components) (properties := properties)
      rw [hc1] at this
      exact this h1 h2 h3
    · have := hv.list
      have hg : b.gradients.map Prod.fst = [] := by rw [← this, hc3]
      have := (C84_gradients b hv (by rw [hg]; simp)).1
      rw [hc3] at this
      exact this
  · constructor
    · rintro ⟨b, hb⟩
      have hb : blockOfC values samples.toC (components.map PyLabels.toC) properties.toC = .ok b := by
        cases hr : blockOfC values samples.toC (components.map PyLabels.toC) properties.toC with
        | ok b' => rw [hr] at hb; cases hb; rfl
        | err e => rw [hr] at hb; cases hb
        | panic m => rw [hr] at hb; cases hb
      obtain ⟨s, cs, p, h1, h2, h3, hnew⟩ := hconv b hb
      obtain ⟨⟨shape, h4, h5⟩, h6, -⟩ := TensorBlock.new_eq_ok.1 hnew
      have hf := hforall h1 h2 h3
      refine ⟨?_, ?_, (converted_single h2).1 h6.1, converted_names h2 ▸ h6.2⟩
      · rw [h4, (converted_counts hf).1 h5]
      · intro v hv
        obtain ⟨i, hi, rfl⟩ := List.getElem_of_mem hv
        exact (h _ hv).acceptable_iff.1 ⟨_, (hf.get hi (by rw [← hf.length_eq]; exact hi)).ofC⟩
    · rintro ⟨h1, h2, h3, h4⟩
      obtain ⟨s, hs'⟩ := hs.acceptable_iff.2 (h2 _ (by simp))
      obtain ⟨cs, hcs⟩ := exists_converted hc fun v hv => h2 v (by simp [hv])
      obtain ⟨p, hp'⟩ := hp.acceptable_iff.2 (h2 _ (by simp))
      have hf := hforall (hs.converted hs') hcs (hp.converted hp')
      obtain ⟨b, hb⟩ := (C05_block_created_iff values _ s cs p h1).2
        ⟨(converted_counts hf).2 rfl, (converted_single hcs).2 h3, (converted_names hcs).symm ▸ h4⟩
      refine ⟨b, ?_⟩
      simp only [blockOfC, hs', (mapM_converted hc).2 hcs, hp', Res.ok_bind, hb]
      rfl

/-- The library accepts labels which it has already, given back by Python, as the same labels. -/
theorem converted_eq {v : PyLabels} {l l' : Labels} (h : ShowsLabels v l) (hl : l.FromBuilder) (hn : l.names ≠ [])
    {v' : PyLabels} (ha : LabelsAgree v v') (hn' : v'.names ≠ []) (hc : Converted v' l') : l' = l := by
  obtain ⟨h1, entries, h2, h3⟩ := h
  obtain ⟨h4, -, h5⟩ := ha
  obtain ⟨entries', h6, h7⟩ := hc.entries
  have hw := hl.wf hn
  have hw' := hc.made.wf (by rw [hc.names]; exact hn')
  refine Labels.WF.ext hw' hw ?_ ?_
  · rw [hc.names, ← h4, h1]
  · have e1 := hw.iter_eq
    have e2 := hw'.iter_eq
    rw [h3, Res.ok.injEq] at e1
    rw [h7, Res.ok.injEq] at e2
    rw [← e1, ← e2]
    rw [h2, h6, Option.some.injEq] at h5
    exact h5.symm

theorem converted_eqs {vs : List PyLabels} {ls : List Labels} (h : List.Forall₂ ShowsLabels vs ls)
    (hl : ∀ l ∈ ls, l.FromBuilder ∧ l.names ≠ []) {vs' : List PyLabels} (ha : List.Forall₂ LabelsAgree vs vs')
    (hn' : ∀ v ∈ vs', v.names ≠ []) {ls' : List Labels} (hc : List.Forall₂ Converted vs' ls') : ls' = ls := by
  induction h generalizing vs' ls' with
  | nil => cases ha; cases hc; rfl
  | cons h1 _ ih =>
    cases ha with
    | cons ha1 ha2 =>
      cases hc with
      | cons hc1 hc2 =>
        rw [converted_eq h1 (hl _ (by simp)).1 (hl _ (by simp)).2 ha1 (hn' _ (by simp)) hc1,
          ih (fun l hm => hl l (by simp [hm])) ha2 (fun v hm => hn' v (by simp [hm])) hc2]

theorem gradientFits_iff {b : TensorBlock A} (hb : BlockValid b)
    (hnul : ∀ p ∈ b.gradients.map Prod.fst, '\x00' ∉ p.toList) {parameter : String} {data : A} {samples : PyLabels}
    {components : List PyLabels} (h : ∀ v ∈ samples :: components, PlainLabels v) :
    GradientFits b parameter data samples components ↔
      ∃ s cs, Converted samples s ∧ List.Forall₂ Converted components cs ∧
        GradientAcceptable b parameter data s cs := by
  have hs := h samples (by simp)
  have hc : ∀ v ∈ components, PlainLabels v := fun v hv => h v (by simp [hv])
  have hhas := (C84_gradients b hb hnul).2.1 parameter
  have hshown := C84_shown b hb "values" (by decide) _ (.inl ⟨rfl, rfl⟩)
  have hne := hb.values.names_ne
  obtain ⟨vs, hvs, hvs'⟩ := hshown.components
  obtain ⟨pv, hpv, hpv1, pentries, hpv2, hpv3⟩ := hshown.properties
  have hpw := (hb.values.labels _ (by simp)).wf (hne b.values.properties (by simp [allLabels]))
  have hpc : b.values.properties.count = .ok pentries.length := by
    have e := hpw.iter_eq
    rw [hpv3, Res.ok.injEq] at e
    rw [hpw.count_eq, e]
  have hshape : ∀ {s cs} {shape : List Nat}, Converted samples s → List.Forall₂ Converted components cs →
      (ShapeMatches shape s cs b.values.properties ↔
        shape = (samples :: components).map (·.count) ++ [pentries.length]) := by
    intro s cs shape h1 h2
    unfold ShapeMatches
    have hf : List.Forall₂ Converted (samples :: components) (s :: cs) := .cons h1 h2
    constructor
    · intro hm
      have h3 := List.forall₂_take_append shape (s :: cs) [b.values.properties] hm
      have h4 := List.forall₂_drop_append shape (s :: cs) [b.values.properties] hm
      rw [converted_counts hf] at h3
      rw [← List.take_append_drop (s :: cs).length shape, h3]
      congr 1
      generalize List.drop (s :: cs).length shape = rest at h4
      match rest, h4 with
      | [n], .cons h5 .nil =>
        rw [hpc, Res.ok.injEq] at h5
        rw [h5]
    · rintro rfl
      exact List.rel_append ((converted_counts hf).2 rfl) (.cons hpc .nil)
  constructor
  · rintro ⟨h1, h2, ⟨values, o, h3, h4, h5⟩, h6, h7, ⟨extra, rest, vs', h8, h9, h10⟩, h11, h12, ⟨v, entries, h13, h14, h15⟩⟩
    obtain ⟨s, hs'⟩ := hs.acceptable_iff.2 (h6 _ (by simp))
    have hs' := hs.converted hs'
    obtain ⟨cs, hcs⟩ := exists_converted hc fun v hv => h6 v (by simp [hv])
    refine ⟨s, cs, hs', hcs, ?_, h2, ?_, ?_, ?_, ⟨(converted_single hcs).2 h11, (converted_names hcs).symm ▸ h12⟩, ?_⟩
    · rw [h1, Except.ok.injEq] at hhas
      cases hg : b.gradient parameter with
      | none => rfl
      | some _ => rw [hg] at hhas; cases hhas
    · rw [hshown.data] at h3
      cases h3
      exact ⟨o, h4, h5⟩
    · rw [hs'.names, h7]
    · subst h8
      rw [hvs] at h9
      cases h9
      have h16 := hcs.flip
      have h17 := List.forall₂_drop_append cs extra rest h16
      refine ⟨cs.take extra.length, ?_⟩
      rw [← converted_eqs hvs' (fun l hm => ⟨hb.values.labels l (by simp [hm]), hne l (by simp [allLabels, hm])⟩) h10
        (fun v hv => (hc v (by simp [hv])).2) h17.flip, List.take_append_drop]
    · rw [hpv] at h13
      cases h13
      rw [hpv2] at h14
      cases h14
      exact ⟨_, h15, (hshape hs' hcs).2 rfl⟩
  · rintro ⟨s, cs, h1, h2, h3⟩
    obtain ⟨o, h4, h5⟩ := h3.origin
    obtain ⟨extra, h6⟩ := h3.suffix
    obtain ⟨shape, h7, h8⟩ := h3.shape
    refine ⟨?_, h3.reserved, ⟨_, o, hshown.data, h4, h5⟩, ?_, ?_, ?_, (converted_single h2).1 h3.componentsOk.1,
      converted_names h2 ▸ h3.componentsOk.2, ⟨pv, pentries, hpv, hpv2, ?_⟩⟩
    · rw [hhas, h3.fresh]; rfl
    · intro v hv
      have hf : List.Forall₂ Converted (samples :: components) (s :: cs) := .cons h1 h2
      obtain ⟨i, hi, rfl⟩ := List.getElem_of_mem hv
      exact (h _ hv).acceptable_iff.1 ⟨_, (hf.get hi (by rw [← hf.length_eq]; exact hi)).ofC⟩
    · rw [← h1.names, h3.sampleName]
    · subst h6
      have h9 := List.forall₂_drop_append components extra b.values.components h2
      exact ⟨components.take extra.length, components.drop extra.length, vs, (List.take_append_drop _ _).symm, hvs,
        forall₂_same h9 hvs'⟩
    · rw [h7, (hshape h1 h2).1 h8]

theorem addGradientOfC_eq {bytes : Bytes} {parameter : String} (hstr : cstrStr bytes = some parameter) (data : A)
    (samples : CLabels) (components : List CLabels) (b : TensorBlock A) :
    addGradientOfC (some bytes) data samples components b =
      match Labels.ofC samples with
      | .ok s =>
        match components.mapM Labels.ofC with
        | .ok cs => TensorBlock.addGradient parameter data s cs b
        | .err e => (b, .err e)
        | .panic m => (b, .panic m)
      | .err e => (b, .err e)
      | .panic m => (b, .panic m) := by
  have h1 : checkPointer "parameter" (some bytes) = .ok bytes := rfl
  have h2 : Res.expect (cstrStr bytes) "called `Result::unwrap()` on an `Err` value" = .ok parameter := by rw [hstr]; rfl
  unfold addGradientOfC
  rw [Act.lift_bind, h1]
  show (Act.lift (Res.expect (cstrStr bytes) "called `Result::unwrap()` on an `Err` value") >>= _) b = _
  rw [Act.lift_bind, h2]
  show (Act.lift (Labels.ofC samples) >>= _) b = _
  rw [Act.lift_bind]
  cases hs : Labels.ofC samples with
  | ok s =>
    show (Act.lift (components.mapM Labels.ofC) >>= _) b = _
    rw [Act.lift_bind]
    cases hc : components.mapM Labels.ofC <;> rfl
  | err e => rfl
  | panic m => rfl

theorem addGradientOfC_converted {bytes : Bytes} {parameter : String} (hstr : cstrStr bytes = some parameter) {data : A}
    {samples : CLabels} {components : List CLabels} {s : Labels} {cs : List Labels} (hs : Labels.ofC samples = .ok s)
    (hc : components.mapM Labels.ofC = .ok cs) (b : TensorBlock A) :
    addGradientOfC (some bytes) data samples components b = TensorBlock.addGradient parameter data s cs b := by
  rw [addGradientOfC_eq hstr, hs]
  simp only [hc]

theorem addGradientOfC_cases {bytes : Bytes} {parameter : String} (hstr : cstrStr bytes = some parameter) (data : A)
    (samples : CLabels) (components : List CLabels) (b : TensorBlock A) :
    ((addGradientOfC (some bytes) data samples components b).1 = b ∧
      (addGradientOfC (some bytes) data samples components b).2 ≠ .ok ()) ∨
    ∃ s cs, Labels.ofC samples = .ok s ∧ components.mapM Labels.ofC = .ok cs ∧
      addGradientOfC (some bytes) data samples components b = TensorBlock.addGradient parameter data s cs b := by
  rw [addGradientOfC_eq hstr]
  cases hs : Labels.ofC samples with
  | ok s =>
    cases hc : components.mapM Labels.ofC with
    | ok cs => exact .inr ⟨s, cs, rfl, rfl, rfl⟩
    | err e => simp
    | panic m => simp
  | err e => simp
  | panic m => simp

/-- **C84.** `add_gradient` on a valid block succeeds exactly when the gradient fits the values. Then `gradients_list` has the new parameter at
the end, `has_gradient` and `gradient` find it, and the gradient has the array, samples and components which were given, and the
properties of the values. The values and the other gradients stay as they are. If it fails, the block
stays as it is. What is missing from the full statement: parameters with a NUL character, and labels which are not seen by
the library as in Python (C60). -/
theorem C84_add_gradient_partial (b : TensorBlock A) (hb : BlockValid b)
    (hnul : ∀ p ∈ b.gradients.map Prod.fst, '\x00' ∉ p.toList) (parameter : String) (h0 : '\x00' ∉ parameter.toList)
    (data : A) (samples : PyLabels) (components : List PyLabels) (h : ∀ v ∈ samples :: components, PlainLabels v) :
    ∃ b' r, pyAddGradient parameter data samples components b = some (b', r) ∧ BlockValid b' ∧
      (r = .ok () ↔ GradientFits b parameter data samples components) ∧ (r ≠ .ok () → b' = b) ∧
      (r = .ok () →
        (∃ before, pyGradientsList b = .ok before ∧ pyGradientsList b' = .ok (before ++ [parameter])) ∧
        (∀ p, pyHasGradient b' p = if p = parameter then .ok true else pyHasGradient b p) ∧
        (∃ properties, pyProperties b "values" = .ok properties ∧ PartIs b' parameter data samples components properties) ∧
        ∀ name basic, BlockPart b name basic → BlockPart b' name basic) := by
  have hread : (samples :: components).all PyLabels.readable = true := by
    rw [List.all_eq_true]
    exact fun v hv => (h v hv).readable
  have hs := h samples (by simp)
  have hc : ∀ v ∈ components, PlainLabels v := fun v hv => h v (by simp [hv])
  have hfits := gradientFits_iff hb hnul (parameter := parameter) (data := data) h
  have hstr : cstrStr (cstring parameter) = some parameter := cstrStr_cstring h0
  have hcontains : parameter.toList.contains '\x00' = false := by simpa using h0
  by_cases hok : GradientFits b parameter data samples components
  · obtain ⟨s, cs, h1, h2, h3⟩ := hfits.1 hok
    have hcs := (mapM_converted hc).2 h2
    have hadd := addGradient_eq b parameter data s cs
    rw [(checkGradient_iff (u := ())).2 h3, hcontains] at hadd
    simp only [Bool.false_eq_true, if_false] at hadd
    have hmade : ∀ l ∈ s :: cs, l.FromBuilder := by
      intro l hl
      have hf : List.Forall₂ Converted (samples :: components) (s :: cs) := .cons h1 h2
      obtain ⟨i, hi, rfl⟩ := List.getElem_of_mem hl
      exact (hf.get (by rw [hf.length_eq]; exact hi) hi).made
    have hv' := hb.addGradient hmade h3
    have heff := C06_add_gradient_effect b _ parameter data s cs hadd
    generalize hb' : TensorBlock.mk b.values (b.gradients ++ [(parameter, b.gradientBlock data s cs)])
      (b.gradientParameters ++ [parameter]) = b' at hadd hv' heff
    have hcall : addGradientOfC (some (cstring parameter)) data samples.toC (components.map PyLabels.toC) b =
        (b', .ok ()) := by
      rw [addGradientOfC_converted hstr h1.ofC hcs, hadd]
    have hnul' : ∀ p ∈ b'.gradients.map Prod.fst, '\x00' ∉ p.toList := by
      subst hb'
      intro p hp
      simp only [List.map_append, List.map_cons, List.map_nil, List.mem_append, List.mem_singleton] at hp
      rcases hp with hp | rfl
      · exact hnul p hp
      · exact h0
    have hg := C84_gradients b hb hnul
    have hg' := C84_gradients b' hv' hnul'
    refine ⟨b', .ok (), ?_, hv', by simp [hok], by simp, fun _ => ⟨⟨_, hg.1, ?_⟩, ?_, ?_, ?_⟩⟩
    · rw [pyAddGradient, if_pos hread, hcall]; rfl
    · rw [hg'.1, heff.2.2.2]
    · intro p
      rw [hg'.2.1, hg.2.1]
      split
      · next hp => rw [hp, heff.2.1]; rfl
      · next hp => rw [heff.2.2.1 p hp]
    · obtain ⟨pv, hpv, hpv'⟩ := (C84_shown b hb "values" (by decide) _ (.inl ⟨rfl, rfl⟩)).properties
      refine ⟨pv, hpv, ?_⟩
      have hpart := C84_shown b' hv' parameter h0 ⟨data, s, cs, b.values.properties⟩ (.inr ⟨h3.reserved, by
        subst hb'; simp [TensorBlock.gradientBlock]⟩)
      obtain ⟨⟨v, h5, h6⟩, ⟨vs, h7, h8⟩, ⟨v', h9, h10⟩, h11⟩ := hpart
      refine ⟨⟨v, h5, h1.same h6⟩, ⟨vs, h7, forall₂_same h2 h8⟩, ⟨v', h9, ?_⟩, h11⟩
      obtain ⟨e1, x, e2, e3⟩ := hpv'
      obtain ⟨e4, y, e5, e6⟩ := h10
      rw [e3, Res.ok.injEq] at e6
      exact ⟨e4.trans e1.symm, by rw [e5]; rfl, by rw [e5, e2, e6]⟩
    · intro name basic hp
      subst hb'
      rcases hp with ⟨h5, h6⟩ | ⟨h5, h6⟩
      · exact .inl ⟨h5, h6⟩
      · exact .inr ⟨h5, by simp [h6]⟩
  · have hfail : (addGradientOfC (some (cstring parameter)) data samples.toC (components.map PyLabels.toC) b).1 = b ∧
        (addGradientOfC (some (cstring parameter)) data samples.toC (components.map PyLabels.toC) b).2 ≠ .ok () := by
      rcases addGradientOfC_cases hstr data samples.toC (components.map PyLabels.toC) b with
        hr | ⟨s, cs, h1, h2, h3⟩
      · exact hr
      · rw [h3, addGradient_eq]
        cases hcheck : TensorBlock.checkGradient b parameter data s cs with
        | ok u =>
          exact absurd (hfits.2 ⟨s, cs, hs.converted h1, (mapM_converted hc).1 h2, checkGradient_iff.1 hcheck⟩) hok
        | err e => exact ⟨rfl, by simp⟩
        | panic m => exact ⟨rfl, by simp⟩
    have hne : pyCheck (addGradientOfC (some (cstring parameter)) data samples.toC (components.map PyLabels.toC) b).2 ≠
        .ok () := by
      intro hr
      cases hx : (addGradientOfC (some (cstring parameter)) data samples.toC (components.map PyLabels.toC) b).2 with
      | ok u => exact hfail.2 hx
      | err e => rw [hx] at hr; cases hr
      | panic m => rw [hx] at hr; cases hr
    refine ⟨b, _, ?_, hb, ?_, fun _ => rfl, fun hr => absurd hr hne⟩
    · rw [pyAddGradient, if_pos hread]
      simp only [hfail.1]
    · exact ⟨fun hr => absurd hr hne, fun hr => absurd hr hok⟩

end

namespace Example

/-- `Labels(["s"], [[0], [2], [3]])` -/
def pyThree : PyLabels := PyLabels.ofMemory ["s"] [0, 2, 3] 3 none
/-- `Labels(["s"], [[0], [2], [3]])[:2]` -/
def pyTwo : PyLabels := { pyThree with count := 2 }
/-- `Labels(["s"], [[0], [2], [3]])[::2]` -/
def pyStep : PyLabels := { pyThree with stride := 2, count := 2 }
/-- `Labels(["c"], [[-1], [1]])` -/
def pyComponent : PyLabels := PyLabels.ofMemory ["c"] [-1, 1] 2 none
/-- `Labels(["p"], [[0], [1], [5]])` -/
def pyProperty : PyLabels := PyLabels.ofMemory ["p"] [0, 1, 5] 3 none
/-- `Labels(["sample", "g"], [[0, 7], [1, 3]])` -/
def pyGradientSamples : PyLabels := PyLabels.ofMemory ["sample", "g"] [0, 7, 1, 3] 2 none
/-- `Labels(["d"], [[0]])` -/
def pyDirection : PyLabels := PyLabels.ofMemory ["d"] [0] 1 none

theorem pyThree_new : PyLabels.new ["s"] (matrix 1 [[0], [2], [3]]) none = .ok pyThree := by decide +kernel
theorem pyComponent_new : PyLabels.new ["c"] (matrix 1 [[-1], [1]]) none = .ok pyComponent := by decide +kernel
theorem pyProperty_new : PyLabels.new ["p"] (matrix 1 [[0], [1], [5]]) none = .ok pyProperty := by decide +kernel
theorem pyGradientSamples_new : PyLabels.new ["sample", "g"] (matrix 2 [[0, 7], [1, 3]]) none = .ok pyGradientSamples := by
  decide +kernel
theorem pyDirection_new : PyLabels.new ["d"] (matrix 1 [[0]]) none = .ok pyDirection := by decide +kernel
theorem pyTwo_index : pyThree.getItem (.slice none (some 2) none) = .ok pyTwo := by decide +kernel
theorem pyStep_index : pyThree.getItem (.slice none none (some 2)) = .ok pyStep := by decide +kernel

/-- `TensorBlock(data, pyTwo, [pyComponent], pyProperty)` -/
theorem pyBlock_new : pyNewBlock data pyTwo [pyComponent] pyProperty = some (.ok block) := by decide +kernel

theorem pyTwo_plain : PlainLabels pyTwo :=
  ⟨.index (.new (names := ["s"]) (by unfold PlainNames; decide +kernel) (by simp [ValuesArg.Complete, matrix]) pyThree_new)
    (show TakesEntries (.slice none (some 2) none) from Or.inl rfl) pyTwo_index, by decide⟩

theorem pyComponent_plain : PlainLabels pyComponent :=
  ⟨.new (names := ["c"]) (by unfold PlainNames; decide +kernel) (by simp [ValuesArg.Complete, matrix]) pyComponent_new, by decide⟩

theorem pyProperty_plain : PlainLabels pyProperty :=
  ⟨.new (names := ["p"]) (by unfold PlainNames; decide +kernel) (by simp [ValuesArg.Complete, matrix]) pyProperty_new, by decide⟩

theorem pyGradientSamples_plain : PlainLabels pyGradientSamples :=
  ⟨.new (names := ["sample", "g"]) (by unfold PlainNames; decide +kernel) (by simp [ValuesArg.Complete, matrix])
    pyGradientSamples_new, by decide⟩

theorem pyDirection_plain : PlainLabels pyDirection :=
  ⟨.new (names := ["d"]) (by unfold PlainNames; decide +kernel) (by simp [ValuesArg.Complete, matrix]) pyDirection_new, by decide⟩

theorem obtained_any {v : PyLabels} (h : PlainLabels v) : Obtained (fun _ => True) (fun _ => True) v := by
  have : ∀ {v}, Obtained PlainNames TakesEntries v → Obtained (fun _ => True) (fun _ => True) v := by
    intro v h
    induction h with
    | new _ h1 h2 => exact .new trivial h1 h2
    | library h1 h2 h3 h4 => exact .library h1 h2 h3 h4
    | index _ _ h1 ih => exact .index ih trivial h1
  exact this h.1

/-- Non-vacuity of `C84_created_partial` and `C84_shown`. -/
example : (∀ v ∈ [pyTwo, pyComponent, pyProperty], PlainLabels v) ∧
    PartIs block "values" data pyTwo [pyComponent] pyProperty ∧ pyTwo.entries = some [[0], [2]] := by
  have h : ∀ v ∈ [pyTwo, pyComponent, pyProperty], PlainLabels v := by
    simp [pyTwo_plain, pyComponent_plain, pyProperty_plain]
  refine ⟨h, ?_, by decide +kernel⟩
  obtain ⟨r, h1, h2, -⟩ := C84_created_partial data pyTwo [pyComponent] pyProperty h
  rw [pyBlock_new, Option.some.injEq] at h1
  exact (h2 block h1.symm).2.1

/-- Non-vacuity of `C84_add_gradient_partial` and `C84_gradients`. -/
example : BlockValid block ∧ (∀ v ∈ [pyGradientSamples, pyDirection, pyComponent], PlainLabels v) ∧
    GradientFits block "g" gradientData pyGradientSamples [pyDirection, pyComponent] ∧
    (pyAddGradient "g" gradientData pyGradientSamples [pyDirection, pyComponent] block).map
      (fun r => pyGradientsList r.1) = some (.ok ["g"]) ∧
    (pyAddGradient "g" gradientData pyGradientSamples [pyDirection] block).map
      (fun r => (pyGradientsList r.1, r.2)) = some (.ok [], .error .equistoreError) := by
  have hb : BlockValid block := BlockValid.new (by
    intro l hl
    simp only [List.cons_append, List.nil_append, List.mem_cons, List.not_mem_nil, or_false] at hl
    rcases hl with rfl | rfl | rfl <;> exact Labels.rebuilds_fromBuilder (by decide +kernel)) block_new
  have h : ∀ v ∈ [pyGradientSamples, pyDirection, pyComponent], PlainLabels v := by
    simp [pyGradientSamples_plain, pyDirection_plain, pyComponent_plain]
  refine ⟨hb, h, ?_, by decide +kernel, by decide +kernel⟩
  obtain ⟨b', r, h1, -, h2, -⟩ := C84_add_gradient_partial block hb (by simp [block]) "g" (by decide) gradientData
    pyGradientSamples [pyDirection, pyComponent] h
  have h3 : (pyAddGradient "g" gradientData pyGradientSamples [pyDirection, pyComponent] block).map (·.2) =
    some (.ok ()) := by decide +kernel
  rw [h1] at h3
  exact h2.1 (by simpa using h3)

end Example

/-- **C84**, full statement, for arrays of the library: a block created from Python shows the labels and the array it was given, and a
gradient which was added is there. -/
def C84_full_statement : Prop :=
  ∀ (values : NdArray) (samples : PyLabels) (components : List PyLabels) (properties : PyLabels),
    (∀ v ∈ samples :: components ++ [properties], Obtained (fun _ => True) (fun _ => True) v) →
    ∀ b, pyNewBlock values samples components properties = some (.ok b) →
      PartIs b "values" values samples components properties ∧
      ∀ (parameter : String) (data : NdArray) (gradientSamples : PyLabels) (gradientComponents : List PyLabels),
        (∀ v ∈ gradientSamples :: gradientComponents, Obtained (fun _ => True) (fun _ => True) v) →
        ∀ b', pyAddGradient parameter data gradientSamples gradientComponents b = some (b', .ok ()) →
          pyHasGradient b' parameter = .ok true

open Example in
/-- `block.add_gradient("g\0x", …)` succeeds, but adds the gradient `"g"`: `block.has_gradient("g\0x")` is false. -/
theorem C84_counterexample : ¬ C84_full_statement := by
  intro h
  have h1 := (h data pyTwo [pyComponent] pyProperty (by
    intro v hv
    refine obtained_any ?_
    simp only [List.cons_append, List.nil_append, List.mem_cons, List.not_mem_nil, or_false] at hv
    rcases hv with rfl | rfl | rfl
    exacts [pyTwo_plain, pyComponent_plain, pyProperty_plain]) block pyBlock_new).2 "g\x00x" gradientData pyGradientSamples
      [pyDirection, pyComponent] (by
    intro v hv
    refine obtained_any ?_
    simp only [List.mem_cons, List.not_mem_nil, or_false] at hv
    rcases hv with rfl | rfl | rfl
    exacts [pyGradientSamples_plain, pyDirection_plain, pyComponent_plain])
  have h2 : (pyAddGradient "g\x00x" gradientData pyGradientSamples [pyDirection, pyComponent] block).map
      (fun r => (pyHasGradient r.1 "g\x00x", r.2)) = some (.ok false, .ok ()) := by decide +kernel
  cases hr : pyAddGradient "g\x00x" gradientData pyGradientSamples [pyDirection, pyComponent] block with
  | none => rw [hr] at h2; cases h2
  | some r =>
    obtain ⟨b', r⟩ := r
    rw [hr] at h2
    simp only [Option.map_some, Option.some.injEq, Prod.mk.injEq] at h2
    obtain ⟨h3, rfl⟩ := h2
    rw [h1 b' hr] at h3
    cases h3

open Example in
/-- A block created with `samples[::2]`, the samples `0` and `3`, has the samples `0` and `2`. -/
theorem C84_counterexample_labels : ¬ C84_full_statement := by
  intro h
  obtain ⟨⟨v, h1, h2⟩, -⟩ := (h data pyStep [pyComponent] pyProperty (by
    intro v hv
    simp only [List.cons_append, List.nil_append, List.mem_cons, List.not_mem_nil, or_false] at hv
    rcases hv with rfl | rfl | rfl
    exacts [.index (.new trivial (by simp [ValuesArg.Complete, matrix]) pyThree_new) trivial pyStep_index,
      obtained_any pyComponent_plain, obtained_any pyProperty_plain]) block (by decide +kernel)).1
  have h3 : (match pySamples block "values" with | .ok v => v.entries | .error _ => none) = some [[0], [2]] := by
    decide +kernel
  rw [h1] at h3
  simp only [h2.2.2] at h3
  have h4 : pyStep.entries = some [[0], [3]] := by decide +kernel
  rw [h4] at h3
  exact absurd h3 (by decide +kernel)

end Equistore
