import Verif.Lemmas.Archive
import Verif.Lemmas.MergeBlock
import Verif.Spec.Merge
import Verif.Spec.History

/-! What `load` gives, for any archive, and for archives written by `save`. -/

namespace Equistore
open Spec
variable {A : Type} [ArrayLike A]
variable {build : Build} {py : PyLiteral} {archive : Archive}

/-! ### Any archive -/

theorem loadComponents_wf {path : Nat → String} {n i : Nat} {components : List Labels}
    (h : loadComponents build py archive path n i = .ok components) : ∀ c ∈ components, c.WF := by
  induction n generalizing i components with
  | zero =>
    simp only [loadComponents, Res.ok.injEq] at h
    subst h; simp
  | succ n ih =>
    unfold loadComponents at h
    simp only [Res.bind_eq_ok, Res.pure_eq, Res.ok.injEq] at h
    obtain ⟨file, -, c, hc, others, ho, rfl⟩ := h
    intro l hl
    rcases List.mem_cons.1 hl with rfl | hl
    · exact readNpyLabels_wf hc
    · exact ih ho l hl

/-- A valid block, with the invariant of `ndarray` for all arrays. -/
def LoadedOk (b : TensorBlock NdArray) : Prop :=
  BlockValid b ∧ ArrayOk b.values.data ∧ ∀ p g, b.gradient p = some g → ArrayOk g.data

theorem loadGradients_ok {i : Nat} {parameters : List String} {block b : TensorBlock NdArray} (hb : LoadedOk block)
    (h : loadGradients build py archive i parameters block = .ok b) : LoadedOk b := by
  induction parameters generalizing block with
  | nil =>
    simp only [loadGradients, Res.ok.injEq] at h
    rw [← h]; exact hb
  | cons p parameters ih =>
    unfold loadGradients at h
    simp only [Res.bind_eq_ok] at h
    obtain ⟨file, -, data, hd, file', -, samples, hs, n, -, components, hc, h⟩ := h
    rw [addGradient_eq] at h
    cases hk : TensorBlock.checkGradient block p data samples components with
    | err e => rw [hk] at h; simp at h
    | panic m => rw [hk] at h; simp at h
    | ok u =>
      rw [hk] at h
      have hacc := checkGradient_iff.1 hk
      by_cases hz : p.toList.contains '\x00' = true
      · simp only [hz, if_true] at h
        exact absurd h (by simp)
      · simp only [hz] at h
        refine ih ⟨hb.1.addGradient ?_ hacc, hb.2.1, ?_⟩ h
        · intro l hl
          rcases List.mem_cons.1 hl with rfl | hl
          · exact (readNpyLabels_wf hs).fromBuilder
          · exact (loadComponents_wf hc l hl).fromBuilder
        · intro q g hg
          have hv := hb.1.addGradient (parameter := p) (data := data) (samples := samples) (components := components) (by
            intro l hl
            rcases List.mem_cons.1 hl with rfl | hl
            · exact (readNpyLabels_wf hs).fromBuilder
            · exact (loadComponents_wf hc l hl).fromBuilder) hacc
          rw [gradient_eq_some hv.names] at hg
          rcases List.mem_append.1 hg with hg | hg
          · exact hb.2.2 q g ((gradient_eq_some hb.1.names).2 hg)
          · simp only [List.mem_cons, List.not_mem_nil, or_false, Prod.mk.injEq] at hg
            obtain ⟨-, rfl⟩ := hg
            exact readData_ok hd

theorem loadBlock_ok {parameters : List String} {i : Nat} {b : TensorBlock NdArray}
    (h : loadBlock build py archive parameters i = .ok b) : LoadedOk b := by
  unfold loadBlock at h
  simp only [Res.bind_eq_ok] at h
  obtain ⟨f1, -, data, hd, f2, -, samples, hs, n, -, components, hc, f3, -, properties, hp, block, hb, h⟩ := h
  have hv : BlockValid block := by
    refine BlockValid.new ?_ hb
    intro l hl
    simp only [List.cons_append, List.mem_cons, List.mem_append, List.not_mem_nil, or_false] at hl
    rcases hl with rfl | hl | rfl
    · exact (readNpyLabels_wf hs).fromBuilder
    · exact (loadComponents_wf hc l hl).fromBuilder
    · exact (readNpyLabels_wf hp).fromBuilder
  obtain ⟨-, -, rfl⟩ := TensorBlock.new_eq_ok.1 hb
  refine loadGradients_ok ⟨hv, readData_ok hd, ?_⟩ h
  intro p g hg
  exact absurd hg (by simp [TensorBlock.gradient])

theorem forall₂_mem_right {α β : Type} {R : α → β → Prop} {l : List α} {l' : List β} (h : List.Forall₂ R l l') {b : β}
    (hb : b ∈ l') : ∃ a ∈ l, R a b := by
  induction h with
  | nil => simp at hb
  | cons h1 _ ih =>
    rcases List.mem_cons.1 hb with rfl | hb
    · exact ⟨_, List.mem_cons_self, h1⟩
    · obtain ⟨a, ha, hr⟩ := ih hb
      exact ⟨a, List.mem_cons_of_mem _ ha, hr⟩

theorem load_ok {hash hash' : HashOrder} {t : TensorMap NdArray} (h : load build py hash hash' archive = .ok t) :
    TensorValid t ∧ ArraysOk t := by
  unfold load at h
  simp only [Res.bind_eq_ok] at h
  obtain ⟨f, -, keys, hk, parameters, -, count, -, blocks, hb, h⟩ := h
  have hb' : ∀ b ∈ blocks, LoadedOk b := by
    intro b hb1
    obtain ⟨i, -, hi⟩ := forall₂_mem_right (mapM_eq_ok.1 hb) hb1
    exact loadBlock_ok hi
  obtain ⟨h1, h2, rfl⟩ := (TensorMap.new_eq_ok (fun b h => (hb' b h).1.names)).1 h
  exact ⟨⟨(readNpyLabels_wf hk).fromBuilder, h1, fun b h => (hb' b h).1, h2⟩, fun b h => (hb' b h).2⟩

/-! ### Archives written by `save` -/

theorem loadComponents_of {path : Nat → String} (components : List Labels) (i : Nat)
    (h : ∀ k c, components[k]? = some c →
      ∃ bytes, archive.byName (path (i + k)) = .ok bytes ∧ readNpyLabels build py bytes = .ok c) :
    loadComponents build py archive path components.length i = .ok components := by
  induction components generalizing i with
  | nil => rfl
  | cons c components ih =>
    rw [List.length_cons]
    unfold loadComponents
    obtain ⟨bytes, h1, h2⟩ := h 0 c rfl
    rw [Nat.add_zero] at h1
    rw [h1, Res.ok_bind, h2, Res.ok_bind, ih (i + 1)]
    · rfl
    · intro k c' hk
      obtain ⟨bytes, h3, h4⟩ := h (k + 1) c' (by rw [List.getElem?_cons_succ]; exact hk)
      exact ⟨bytes, by rw [show i + 1 + k = i + (k + 1) by omega]; exact h3, h4⟩

theorem usizeSub_two (n : Nat) : usizeSub build (n + 1 + 1) 2 = .ok n := by
  unfold usizeSub
  rw [if_pos (by omega)]
  rfl

/-- The values or a gradient can be read from the archive. -/
structure Contains (build : Build) (py : PyLiteral) (archive : Archive) (b : BasicBlock A) (name : What → String)
    (withProperties : Bool) : Prop where
  data : ∀ dims elements, Readable b.data dims elements →
    ∃ bytes, archive.byName (name .data) = .ok bytes ∧ readData build py bytes = .ok ⟨dims, elements⟩
  samples : ∃ bytes, archive.byName (name .samples) = .ok bytes ∧ readNpyLabels build py bytes = .ok b.samples
  component : ∀ k c, b.components[k]? = some c →
    ∃ bytes, archive.byName (name (.component k)) = .ok bytes ∧ readNpyLabels build py bytes = .ok c
  properties : withProperties = true →
    ∃ bytes, archive.byName (name .properties) = .ok bytes ∧ readNpyLabels build py bytes = .ok b.properties

theorem Contains.components {b : BasicBlock A} {name : What → String} {withProperties : Bool}
    (h : Contains build py archive b name withProperties) {path : Nat → String}
    (hp : ∀ i, path i = name (.component i)) :
    loadComponents build py archive path b.components.length 0 = .ok b.components := by
  refine loadComponents_of _ _ fun k c hk => ?_
  rw [Nat.zero_add, hp]
  exact h.component k c hk

theorem gradient_append (b : TensorBlock NdArray) (p q : String) (g : BasicBlock NdArray) (list : List String) :
    TensorBlock.gradient { b with gradients := b.gradients ++ [(p, g)], gradientParameters := list } q =
      match b.gradient q with
      | some g' => some g'
      | none => if q = p then some g else none := by
  unfold TensorBlock.gradient
  rw [List.lookup_append]
  cases b.gradients.lookup q with
  | some g' => rfl
  | none =>
    rw [List.lookup_cons]
    by_cases h : q = p
    · simp [h]
    · have : (q == p) = false := by simpa using h
      simp [this, h]

theorem loadGradients_of {b : TensorBlock A} {i : Nat}
    (hv : BlockValid b) (hst : ∀ p g, b.gradient p = some g → BasicStorable g)
    (hz : ∀ p g, b.gradient p = some g → '\x00' ∉ p.toList)
    (hc : ∀ p g, b.gradient p = some g →
      Contains build py archive g (fun w => (Part.gradient i p w).name) false)
    {ps : List String} {cur : TensorBlock NdArray} (hcur : SameBasic b.values cur.values)
    (hps : ps.Nodup) (hin : ∀ p ∈ ps, (b.gradient p).isSome = true) (hf : ∀ p ∈ ps, cur.gradient p = none) :
    ∃ b', loadGradients build py archive i ps cur = .ok b' ∧ b'.values = cur.values ∧
      b'.gradientParameters = cur.gradientParameters ++ ps ∧
      (∀ p ∈ ps, Option.Rel SameBasic (b.gradient p) (b'.gradient p)) ∧
      ∀ p, p ∉ ps → b'.gradient p = cur.gradient p := by
  induction ps generalizing cur with
  | nil => exact ⟨cur, rfl, rfl, by simp, by simp, fun _ _ => rfl⟩
  | cons p ps ih =>
    rw [List.nodup_cons] at hps
    obtain ⟨g, hg⟩ := Option.isSome_iff_exists.1 (hin p List.mem_cons_self)
    have hgm := (gradient_eq_some hv.names).1 hg
    have hgv := hv.gradients p g hgm
    have hgs := hst p g hg
    have hcg := hc p g hg
    obtain ⟨dims, elements, hr⟩ := hgs.data
    obtain ⟨shape, hs1, hs2⟩ := hgv.basic.shape
    have hshape : shape = dims := by
      have := hr.shape
      rw [hs1, Res.ok.injEq] at this
      exact this
    subst hshape
    obtain ⟨f1, h1, h1'⟩ := hcg.data _ _ hr
    obtain ⟨f2, h2, h2'⟩ := hcg.samples
    have h3 := hcg.components (componentsPath_gradient i p)
    have hlen : shape.length = g.components.length + 1 + 1 := by
      have := List.Forall₂.length_eq hs2
      simpa using this
    have hacc : GradientAcceptable cur p (⟨shape, elements⟩ : NdArray) g.samples g.components := by
      refine ⟨hf p List.mem_cons_self, ?_, ⟨_, rfl, rfl⟩, hgv.samples, ?_, hgv.basic.components, shape, rfl, ?_⟩
      · rintro rfl
        exact hv.reserved (List.mem_map_of_mem (f := Prod.fst) hgm)
      · rw [hcur.components]; exact hgv.components
      · rw [hcur.properties, ← hgv.properties]; exact hs2
    have hnz : p.toList.contains '\x00' = false := by
      have := hz p g hg
      simpa using this
    have hstep : loadGradients build py archive i (p :: ps) cur =
        loadGradients build py archive i ps { cur with
          gradients := cur.gradients ++ [(p, cur.gradientBlock ⟨shape, elements⟩ g.samples g.components)]
          gradientParameters := cur.gradientParameters ++ [p] } := by
      conv_lhs => unfold loadGradients
      rw [show gradientPath i p "data" = (Part.gradient i p .data).name from gradientPath_eq i p .data,
        show gradientPath i p "samples" = (Part.gradient i p .samples).name from gradientPath_eq i p .samples]
      rw [h1, Res.ok_bind, h1', Res.ok_bind, h2, Res.ok_bind, h2', Res.ok_bind]
      simp only [hlen]
      rw [usizeSub_two, Res.ok_bind, h3, Res.ok_bind, addGradient_eq,
        (checkGradient_iff (u := ())).2 hacc]
      simp only [hnz]
      rfl
    have hnew := gradient_append cur p
    obtain ⟨b', e1, e2, e3, e4, e5⟩ := ih (cur := { cur with
          gradients := cur.gradients ++ [(p, cur.gradientBlock ⟨shape, elements⟩ g.samples g.components)]
          gradientParameters := cur.gradientParameters ++ [p] }) hcur hps.2
        (fun q hq => hin q (List.mem_cons_of_mem _ hq)) (by
          intro q hq
          rw [gradient_append, hf q (List.mem_cons_of_mem _ hq)]
          have : q ≠ p := by
            rintro rfl
            exact hps.1 hq
          simp [this])
    refine ⟨b', by rw [hstep]; exact e1, e2, by rw [e3]; simp, ?_, ?_⟩
    · intro q hq
      rcases List.mem_cons.1 hq with rfl | hq
      · rw [e5 _ hps.1, gradient_append, hf _ List.mem_cons_self, hg]
        simp only [if_true]
        refine .some ⟨rfl, rfl, ?_, hr.shape, hr.data⟩
        show cur.values.properties = _
        rw [hcur.properties, hgv.properties]
      · exact e4 q hq
    · intro q hq
      rw [List.mem_cons, not_or] at hq
      rw [e5 q hq.2, gradient_append]
      cases cur.gradient q with
      | some g' => rfl
      | none => simp [hq.1]

theorem loadBlock_of {b : TensorBlock A} {i : Nat}
    (hv : BlockValid b) (hsv : BasicStorable b.values) (hst : ∀ p g, b.gradient p = some g → BasicStorable g)
    (hz : ∀ p g, b.gradient p = some g → '\x00' ∉ p.toList)
    (hcv : Contains build py archive b.values (fun w => (Part.values i w).name) true)
    (hc : ∀ p g, b.gradient p = some g →
      Contains build py archive g (fun w => (Part.gradient i p w).name) false)
    {ps : List String} (hps : ps.Perm (b.gradients.map Prod.fst)) :
    ∃ b', loadBlock build py archive ps i = .ok b' ∧ SameContentBlock b b' ∧ b'.gradientParameters = ps := by
  obtain ⟨dims, elements, hr⟩ := hsv.data
  obtain ⟨shape, hs1, hs2⟩ := hv.values.shape
  have hshape : shape = dims := by
    have := hr.shape
    rw [hs1, Res.ok.injEq] at this
    exact this
  subst hshape
  obtain ⟨f1, h1, h1'⟩ := hcv.data _ _ hr
  obtain ⟨f2, h2, h2'⟩ := hcv.samples
  obtain ⟨f3, h3, h3'⟩ := hcv.properties rfl
  have h4 := hcv.components (componentsPath_values i)
  have hlen : shape.length = b.values.components.length + 1 + 1 := by
    have := List.Forall₂.length_eq hs2
    simpa using this
  have hnew : TensorBlock.new (⟨shape, elements⟩ : NdArray) b.values.samples b.values.components b.values.properties =
      .ok ⟨⟨⟨shape, elements⟩, b.values.samples, b.values.components, b.values.properties⟩, [], []⟩ :=
    TensorBlock.new_eq_ok.2 ⟨⟨shape, rfl, hs2⟩, hv.values.components, rfl⟩
  obtain ⟨b', e1, e2, e3, e4, e5⟩ := loadGradients_of (build := build) (archive := archive) (i := i) hv hst hz hc (ps := ps)
    (cur := ⟨⟨⟨shape, elements⟩, b.values.samples, b.values.components, b.values.properties⟩, [], []⟩)
    ⟨rfl, rfl, rfl, hr.shape, hr.data⟩ (hps.nodup_iff.2 hv.names)
    (fun p hp => gradient_isSome.2 (hps.mem_iff.1 hp)) (fun p _ => rfl)
  refine ⟨b', ?_, ⟨?_, ?_, ?_⟩, by rw [e3]; rfl⟩
  · unfold loadBlock
    rw [show valuesPath i "data" = (Part.values i .data).name from valuesPath_eq i .data,
      show valuesPath i "samples" = (Part.values i .samples).name from valuesPath_eq i .samples,
      show valuesPath i "properties" = (Part.values i .properties).name from valuesPath_eq i .properties]
    rw [h1, Res.ok_bind, h1', Res.ok_bind, h2, Res.ok_bind, h2', Res.ok_bind]
    simp only [hlen]
    rw [usizeSub_two, Res.ok_bind, h4, Res.ok_bind, h3, Res.ok_bind, h3', Res.ok_bind, hnew, Res.ok_bind]
    exact e1
  · rw [e2]; exact ⟨rfl, rfl, rfl, hr.shape, hr.data⟩
  · intro p
    by_cases hp : p ∈ ps
    · exact e4 p hp
    · rw [e5 p hp]
      have : b.gradient p = none := by
        rw [hps.mem_iff] at hp
        exact lookup_eq_none_iff_not_mem.2 hp
      rw [this]
      exact .none
  · rw [e3, hv.list]
    exact hps

theorem contains_of_items {build' : Build} {native : Endian} {b : BasicBlock A} {name : What → String} {withProperties : Bool}
    (hpy : LawfulPy py) (hb : BasicValid b) (hs : BasicStorable b)
    (h : ∀ w r, WhatItem build' py native b w r → (w = .properties → withProperties = true) →
      ∃ bytes, r = .ok bytes ∧ archive.byName (name w) = .ok bytes) :
    Contains build py archive b name withProperties := by
  have hl : ∀ {w l}, l.WF → l.InMemory → WhatItem build' py native b w (writeNpyLabels build' py native l) →
      (w = .properties → withProperties = true) →
      ∃ bytes, archive.byName (name w) = .ok bytes ∧ readNpyLabels build py bytes = .ok l := by
    intro w l hl hm hw hp
    obtain ⟨bytes, h1, h2⟩ := h w _ hw hp
    refine ⟨bytes, h2, ?_⟩
    have := readNpyLabels_written (build' := build) hpy hl hm h1 []
    rw [List.append_nil] at this
    exact this
  refine ⟨fun dims elements hr => ?_, hl hb.wf.samples (hs.labels _ (by simp)) .samples (by simp), fun k c hk => ?_,
    fun hp => hl hb.wf.properties (hs.labels _ (by simp)) .properties fun _ => hp⟩
  · obtain ⟨bytes, h1, h2⟩ := h _ _ .data (by simp)
    refine ⟨bytes, h2, ?_⟩
    have := readData_written (build' := build) hpy hr.shape hr.data hr.memory hr.length h1 []
    rw [List.append_nil] at this
    exact this
  · have hm := List.mem_of_getElem? hk
    exact hl (hb.wf.components c hm) (hs.labels c (by simp [hm])) (.component hk) (by simp)

theorem save_contains {build' : Build} {native : Endian} {hash : HashOrder} {t : TensorMap A} (hpy : LawfulPy py)
    (hv : TensorValid t) (hst : Storable t) (h : save build' py native hash t = .ok archive) {i : Nat} {b : TensorBlock A}
    (hb : t.blocks[i]? = some b) :
    Contains build py archive b.values (fun w => (Part.values i w).name) true ∧
    ∀ p g, b.gradient p = some g → Contains build py archive g (fun w => (Part.gradient i p w).name) false := by
  have hn : ∀ b ∈ t.blocks, b.GradientsNodup := fun b hb => (hv.blocks b hb).names
  have hm := List.mem_of_getElem? hb
  refine ⟨contains_of_items (build' := build') (native := native) hpy (hv.blocks b hm).values (hst.values b hm) fun w r hw _ => ?_,
    fun p g hg => ?_⟩
  · exact save_byName hn h (mem_tensorItems.2 (.inr ⟨b, i, hb, .inl ⟨w, r, hw, rfl⟩⟩))
  · have hg' := (gradient_eq_some (hv.blocks b hm).names).1 hg
    refine contains_of_items (build' := build') (native := native) hpy ((hv.blocks b hm).gradients p g hg').basic (hst.gradients b hm p g hg) fun w r hw hp => ?_
    exact save_byName hn h (mem_tensorItems.2 (.inr ⟨b, i, hb, .inr ⟨p, g, w, r, hg', hw, by
      rintro rfl; exact absurd (hp rfl) (by simp), rfl⟩⟩))

theorem SameBasic.names {a b : BasicBlock A} {a' b' : BasicBlock NdArray} (ha : SameBasic a a') (hb : SameBasic b b')
    (h : SameNames a b) : SameNames a' b' := by
  unfold SameNames at h ⊢
  rw [ha.samples, hb.samples, ha.components, hb.components]
  exact h

theorem SameContentBlock.consistent {a b : TensorBlock A} {a' b' : TensorBlock NdArray} (ha : SameContentBlock a a')
    (hb : SameContentBlock b b') (h : Consistent a b) : Consistent a' b' := by
  have hsome : ∀ {x : TensorBlock A} {x' : TensorBlock NdArray} (_ : SameContentBlock x x') (p : String),
      (x'.gradient p).isSome = (x.gradient p).isSome := by
    intro x x' hx p
    have := hx.gradients p
    generalize x.gradient p = o at this
    generalize x'.gradient p = o' at this
    cases this <;> rfl
  refine ⟨SameBasic.names ha.values hb.values h.values, ?_, ?_, ?_⟩
  · rw [ha.values.properties, hb.values.properties]; exact h.properties
  · intro p
    rw [hsome ha, hsome hb]; exact h.parameters p
  · intro p g g' hg hg'
    have h1 := ha.gradients p
    have h2 := hb.gradients p
    rw [hg] at h1
    rw [hg'] at h2
    cases hx : a.gradient p with
    | none => rw [hx] at h1; cases h1
    | some x =>
      cases hy : b.gradient p with
      | none => rw [hy] at h2; cases h2
      | some y =>
        rw [hx] at h1
        rw [hy] at h2
        cases h1 with
        | some h1 =>
        cases h2 with
        | some h2 => exact SameBasic.names h1 h2 (h.gradients p x y hx hy)

theorem firstParameters_perm {t : TensorMap A} (hv : TensorValid t) {b : TensorBlock A} (hb : b ∈ t.blocks) :
    (firstParameters t).Perm (b.gradients.map Prod.fst) := by
  unfold firstParameters
  cases hbs : t.blocks with
  | nil => rw [hbs] at hb; simp at hb
  | cons a blocks =>
    have ha : a ∈ t.blocks := by rw [hbs]; exact List.mem_cons_self
    refine (List.perm_ext_iff_of_nodup (hv.blocks a ha).names (hv.blocks b hb).names).2 fun p => ?_
    rw [← gradient_isSome, ← gradient_isSome, (hv.consistent a ha b hb).parameters p]

/-- The blocks of a tensor map are loaded from archives from which all parts of this tensor map can be read. -/
theorem loadBlocks_of {t : TensorMap A} (hv : TensorValid t) (hst : Storable t) (hz : NoNul t)
    {ps : List String} (hp2 : ps.Perm (firstParameters t))
    (hc : ∀ i b, t.blocks[i]? = some b →
      Contains build py archive b.values (fun w => (Part.values i w).name) true ∧
      ∀ p g, b.gradient p = some g → Contains build py archive g (fun w => (Part.gradient i p w).name) false)
    (hash2 : HashOrder) : ∃ bs', (List.range t.blocks.length).mapM (loadBlock build py archive ps) = .ok bs' ∧
      TensorMap.new hash2 t.keys bs' = .ok ⟨t.keys, bs'⟩ ∧ List.Forall₂ SameContentBlock t.blocks bs' := by
  have hblock : ∀ i b, t.blocks[i]? = some b → ∃ b', loadBlock build py archive ps i = .ok b' ∧ SameContentBlock b b' := by
    intro i b hb
    have hm := List.mem_of_getElem? hb
    obtain ⟨hc1, hc2⟩ := hc i b hb
    obtain ⟨b', h1, h2, -⟩ := loadBlock_of (build := build) (hv.blocks b hm) (hst.values b hm) (hst.gradients b hm)
      (hz b hm) hc1 hc2 (hp2.trans (firstParameters_perm hv hm))
    exact ⟨b', h1, h2⟩
  have hmap : ∀ (bs : List (TensorBlock A)) (start : Nat),
      (∀ i b, bs[i]? = some b → ∃ b', loadBlock build py archive ps (start + i) = .ok b' ∧ SameContentBlock b b') →
      ∃ bs', (List.range' start bs.length).mapM (loadBlock build py archive ps) = .ok bs' ∧
        List.Forall₂ SameContentBlock bs bs' := by
    intro bs
    induction bs with
    | nil => intro start _; exact ⟨[], rfl, .nil⟩
    | cons b bs ih =>
      intro start hh
      obtain ⟨b', h1, h2⟩ := hh 0 b rfl
      obtain ⟨bs', h3, h4⟩ := ih (start + 1) (fun i c hc => by
        obtain ⟨c', h5, h6⟩ := hh (i + 1) c (by rw [List.getElem?_cons_succ]; exact hc)
        exact ⟨c', by rw [show start + 1 + i = start + (i + 1) by omega]; exact h5, h6⟩)
      refine ⟨b' :: bs', ?_, .cons h2 h4⟩
      rw [List.length_cons, List.range'_succ, List.mapM_cons]
      rw [Nat.add_zero] at h1
      rw [h1, Res.ok_bind, h3]
      rfl
  obtain ⟨bs', hb1, hb2⟩ := hmap t.blocks 0 (fun i b hb => by rw [Nat.zero_add]; exact hblock i b hb)
  rw [← List.range_eq_range'] at hb1
  have hvalid : ∀ b ∈ bs', LoadedOk b := by
    intro b hb
    obtain ⟨i, -, hi⟩ := forall₂_mem_right (mapM_eq_ok.1 hb1) hb
    exact loadBlock_ok hi
  refine ⟨bs', hb1, (TensorMap.new_eq_ok (fun b hb => (hvalid b hb).1.names)).2 ⟨?_, ?_, rfl⟩, hb2⟩
  · rw [hv.count, List.Forall₂.length_eq hb2]
  · intro a' ha' b' hb'
    obtain ⟨a, ha, hra⟩ := forall₂_mem_right hb2 ha'
    obtain ⟨b, hb, hrb⟩ := forall₂_mem_right hb2 hb'
    exact SameContentBlock.consistent hra hrb (hv.consistent a ha b hb)

/-- Archives from which all parts of a tensor map can be read are loaded as this tensor map. -/
theorem load_of {t : TensorMap A} (hv : TensorValid t) (hst : Storable t) (hz : NoNul t)
    {kb : Bytes} (hk2 : archive.byName Part.keys.name = .ok kb) (hk3 : readNpyLabels build py kb = .ok t.keys)
    {hash1 : HashOrder} {ps : List String} (hp1 : gradientParameters build (archive.fileNames hash1) = .ok ps)
    (hp2 : ps.Perm (firstParameters t))
    (hc : ∀ i b, t.blocks[i]? = some b →
      Contains build py archive b.values (fun w => (Part.values i w).name) true ∧
      ∀ p g, b.gradient p = some g → Contains build py archive g (fun w => (Part.gradient i p w).name) false)
    (hash2 : HashOrder) : ∃ t', load build py hash1 hash2 archive = .ok t' ∧ SameContent t t' := by
  obtain ⟨bs', hb1, hnew, hb2⟩ := loadBlocks_of hv hst hz hp2 hc hash2
  refine ⟨⟨t.keys, bs'⟩, ?_, rfl, hb2⟩
  unfold load
  rw [show "keys.npy" = Part.keys.name from rfl, hk2, Res.ok_bind, hk3, Res.ok_bind, hp1, Res.ok_bind, hv.count,
    Res.ok_bind, hb1, Res.ok_bind]
  exact hnew

/-- What `save` wrote is loaded back. -/
theorem load_save {build' : Build} {native : Endian} {hash : HashOrder} {t : TensorMap A} (hpy : LawfulPy py)
    (hv : TensorValid t) (hst : Storable t) (hz : NoNul t) (h : save build' py native hash t = .ok archive)
    (hash1 hash2 : HashOrder) : ∃ t', load build py hash1 hash2 archive = .ok t' ∧ SameContent t t' := by
  have hn : ∀ b ∈ t.blocks, b.GradientsNodup := fun b hb => (hv.blocks b hb).names
  obtain ⟨kb, hk1, hk2⟩ := save_byName hn h (mem_tensorItems.2 (.inl rfl))
  have hk3 := readNpyLabels_written (build' := build) hpy (hv.keys.wf_of_count hv.count) hst.keys hk1 []
  rw [List.append_nil, checkForExtraBytes_nil, Res.ok_bind] at hk3
  obtain ⟨ps, hp1, hp2⟩ := save_parameters hn h build hash1
  exact load_of hv hst hz hk2 hk3 hp1 hp2 (fun i b hb => save_contains hpy hv hst h hb) hash2

end Equistore
