import Verif.Lemmas.BackendMerge

/-! When merging blocks succeeds. -/

namespace Equistore
open Spec NdArray

variable {A : Type} [ArrayLike A] {view : A → NdArray}

/-! ### Gradient samples -/

/-- The first value of a gradient sample is the index of one of the `n` samples. -/
def Refers (n : Nat) (r : List LabelValue) : Prop :=
  ∃ v rest, ∃ i : Nat, r = v :: rest ∧ v.toInt = i ∧ i < n

theorem refers_iff {T : List LabelValue → List LabelValue → Prop} {inRows outRows : List (List LabelValue)}
    {mapping : List SampleMapping} (h : MapsTo T inRows outRows mapping)
    (hs : outRows.length ≤ 2147483647) {r : List LabelValue} :
    Refers inRows.length r ↔ ∃ r', Translates mapping r r' := by
  constructor
  · rintro ⟨v, rest, i, rfl, hv, hi⟩
    obtain ⟨o, r', h1, h2, _⟩ := h.spec i _ (List.getElem?_eq_getElem hi)
    have ho := (List.getElem?_eq_some_iff.1 h2).1
    exact ⟨_, v, rest, i, _, rfl, hv, h1, by simp only; omega, rfl⟩
  · rintro ⟨r', v, rest, old, m, rfl, hv, hm, _, rfl⟩
    refine ⟨v, rest, old, rfl, hv, ?_⟩
    rw [← h.length]
    exact (List.getElem?_eq_some_iff.1 hm).1

theorem translates_length {mapping : List SampleMapping} {r r' : List LabelValue}
    (h : Translates mapping r r') : r'.length = r.length := by
  obtain ⟨v, rest, old, m, rfl, _, _, _, rfl⟩ := h
  rfl

theorem collectGradientSamples_exists {build : Build} {parameter : String}
    {items : List ((List LabelValue × TensorBlock A) × List SampleMapping)}
    (hm : ∀ it ∈ items, ∀ (i : Nat) m, it.2[i]? = some m → m.input = i)
    (h : ∀ it ∈ items, ∃ g, it.1.2.gradient parameter = some g ∧ g.samples.WF ∧
      ∀ r ∈ g.samples.rows, ∃ r', Translates it.2 r r') :
    ∃ collected, collectGradientSamples build parameter items = .ok collected := by
  induction items with
  | nil => exact ⟨[], rfl⟩
  | cons it items ih =>
    obtain ⟨⟨key, b⟩, mapping⟩ := it
    obtain ⟨others, ho⟩ := ih (fun it hit => hm it (List.mem_cons_of_mem _ hit))
      (fun it hit => h it (List.mem_cons_of_mem _ hit))
    obtain ⟨g, hg, hw, hr⟩ := h _ List.mem_cons_self
    have hm0 := hm _ List.mem_cons_self
    obtain ⟨tr, htr, _⟩ := mapM_forall₂ (f := translateGradientSample build mapping)
      (P := fun r r' => Translates mapping r r') (l := g.samples.rows) (by
        intro r hr'
        obtain ⟨r', h1⟩ := hr r hr'
        exact ⟨r', (translate_ok hm0).2 h1, h1⟩)
    refine ⟨tr ++ others, ?_⟩
    simp only at hg
    simp only [collectGradientSamples, hg, Res.expect_some, Res.ok_bind, Labels.Holds.iter_eq hw, htr, ho]
    rfl

theorem mergeGradientSamples_iff {build : Build} {parameter : String}
    {blocks : List (List LabelValue × TensorBlock A)} {mappings : List (List SampleMapping)}
    (hne : blocks.zip mappings ≠ [])
    (hw : ∀ it ∈ blocks.zip mappings, ∃ g, it.1.2.gradient parameter = some g ∧ g.samples.WF)
    (hnames : ∀ a ∈ blocks.zip mappings, ∀ b ∈ blocks.zip mappings, ∀ g g', a.1.2.gradient parameter = some g →
      b.1.2.gradient parameter = some g' → g.samples.names = g'.samples.names)
    (hm : ∀ it ∈ blocks.zip mappings, ∀ (i : Nat) m, it.2[i]? = some m → m.input = i) :
    (∃ l, mergeGradientSamples build blocks parameter mappings = .ok l) ↔
      ∀ it ∈ blocks.zip mappings, ∀ g, it.1.2.gradient parameter = some g →
        ∀ r ∈ g.samples.rows, ∃ r', Translates it.2 r r' := by
  have hw' : ∀ it ∈ blocks.zip mappings, ∀ g, it.1.2.gradient parameter = some g → g.samples.WF := by
    intro it hit g hg
    obtain ⟨g', hg', hwf⟩ := hw it hit
    rw [hg, Option.some.injEq] at hg'
    rw [hg']; exact hwf
  constructor
  · rintro ⟨l, hl⟩ it hit g hg r hr
    obtain ⟨_, _, _, _, hms⟩ := mergeGradientSamples_ok hw' hm hl
    obtain ⟨g', hg', h⟩ := hms.every it hit
    rw [hg, Option.some.injEq] at hg'
    subst hg'
    obtain ⟨r', _, h'⟩ := h r hr
    exact ⟨r', h'⟩
  · intro h
    obtain ⟨collected, hc⟩ := collectGradientSamples_exists (build := build) hm (fun it hit => by
      obtain ⟨g, hg, hwf⟩ := hw it hit
      exact ⟨g, hg, hwf, h it hit g hg⟩)
    obtain ⟨_, honly⟩ := collectGradientSamples_ok hw' hm hc
    obtain ⟨first, rest, hfirst⟩ := List.exists_cons_of_ne_nil hne
    have hfm : first ∈ blocks.zip mappings := by rw [hfirst]; exact List.mem_cons_self
    obtain ⟨g, hg, hwf⟩ := hw first hfm
    have hpos : 0 < g.samples.names.length := Labels.Holds.names_pos hwf
    refine ⟨Labels.mk' g.samples.names (btreeSet collected), ?_⟩
    unfold mergeGradientSamples
    rw [hc, Res.ok_bind, hfirst, List.head?_cons, Res.expect_some, Res.ok_bind, hg, Res.expect_some,
      Res.ok_bind, Labels.build_eq_ok hpos]
    refine Labels.mk'_holds (Labels.Holds.names_ok hwf) hpos ?_ ?_
    · intro r' hr'
      rw [mem_btreeSet] at hr'
      obtain ⟨it, hit, g', hg', r, hr, ht⟩ := honly r' hr'
      rw [translates_length ht, Labels.Holds.row_length (hw' it hit g' hg') r hr,
        hnames it hit first hfm g' g hg' hg]
    · unfold btreeSet
      rw [(sortRows_perm _).nodup_iff]
      exact indexSet_nodup _

/-! ### Moving data -/

namespace Spec.Implements

theorem moveAllProperties_exists (h : Implements view) {nOut : Nat} {mid : List Nat} {p : Nat}
    {items : List ((A × List SampleMapping) × Option (Nat × Nat))}
    (hok : ∀ it ∈ items, ∀ s e, it.2 = some (s, e) → MoveOk nOut mid p (view it.1.1) it.1.2 s e)
    {output : A} (ho : (view output).shape = nOut :: mid ++ [p]) :
    ∃ out, moveAllProperties output items = .ok out ∧ (view out).shape = nOut :: mid ++ [p] := by
  induction items generalizing output with
  | nil => exact ⟨output, rfl, ho⟩
  | cons it items ih =>
    obtain ⟨⟨input, mapping⟩, range⟩ := it
    have ih := @ih fun it h => hok it (List.mem_cons_of_mem _ h)
    cases range with
    | none =>
      rw [moveAllProperties]
      exact ih ho
    | some se =>
      obtain ⟨s, e⟩ := se
      obtain ⟨output', e1, e2, e3⟩ := h.moveSamples_map (hok _ List.mem_cons_self s e rfl) ho
      rw [moveAllProperties]
      simp only [e1, Res.ok_bind]
      exact ih e3

theorem moveAllGradientProperties_exists {build : Build} {q : String} {newSamples : Labels}
    {newComponents : List Labels} {nOut : Nat} {mid : List Nat} {p : Nat}
    {items : List (((List LabelValue × TensorBlock A) × List SampleMapping) × Option (Nat × Nat))}
    (hok : ∀ it ∈ items, ∀ s e, it.2 = some (s, e) → ∃ g gm, it.1.1.2.gradient q = some g ∧
      (build.debug = true → g.components = newComponents) ∧
      gradientMapping build it.1.2 newSamples g = .ok gm ∧
      ∀ output, (view output).shape = nOut :: mid ++ [p] →
        ∃ out, moveSamples output g.data gm s e = .ok out ∧ (view out).shape = nOut :: mid ++ [p])
    {output : A} (ho : (view output).shape = nOut :: mid ++ [p]) :
    ∃ out, moveAllGradientProperties build q newSamples newComponents output items = .ok out ∧
      (view out).shape = nOut :: mid ++ [p] := by
  induction items generalizing output with
  | nil => exact ⟨output, rfl, ho⟩
  | cons it items ih =>
    obtain ⟨⟨⟨key, b⟩, mapping⟩, range⟩ := it
    have ih := @ih fun it h => hok it (List.mem_cons_of_mem _ h)
    cases range with
    | none =>
      rw [moveAllGradientProperties]
      exact ih ho
    | some se =>
      obtain ⟨s, e⟩ := se
      obtain ⟨g, gm, h1, h2, h3, h4⟩ := hok _ List.mem_cons_self s e rfl
      simp only at h1 h3
      obtain ⟨output', e1, e3⟩ := h4 output ho
      have hd : build.debugAssert (g.components == newComponents)
          "assertion failed: *gradient.components == *new_components" = .ok () := by
        rw [Build.debugAssert_eq_ok, beq_iff_eq]
        exact h2
      rw [moveAllGradientProperties]
      simp only [h1, Res.expect_some, Res.ok_bind, hd, h3, e1]
      exact ih e3

end Spec.Implements

theorem shapeMatches_of_wf {S P : Labels} {C : List Labels} (hS : S.WF)
    (hC : ∀ c ∈ C, c.WF) (hP : P.WF) :
    ShapeMatches (S.rows.length :: (C.map fun c => c.rows.length) ++ [P.rows.length]) S C P := by
  have : ∀ l : List Labels, (∀ c ∈ l, c.WF) →
      List.Forall₂ (fun n labels => Labels.count labels = .ok n) (l.map fun c => c.rows.length) l := by
    intro l
    induction l with
    | nil => intro _; exact .nil
    | cons c l ih =>
      intro h
      exact .cons (h c List.mem_cons_self).count_eq (ih fun c hc => h c (List.mem_cons_of_mem _ hc))
  have h := this (S :: C ++ [P]) (by
    intro c hc
    simp only [List.cons_append, List.mem_cons, List.mem_append, List.not_mem_nil, or_false] at hc
    rcases hc with rfl | hc | rfl
    · exact hS
    · exact hC c hc
    · exact hP)
  unfold ShapeMatches
  simpa using h

/-! ### Gradients -/

/-- What is needed to merge the gradients of some blocks. -/
structure GradientsMergeable (debug : Bool) (listed : List LabelValue → Prop)
    (blocks : List (List LabelValue × TensorBlock A)) (q : String) (components : List Labels) : Prop where
  noNul : '\x00' ∉ q.toList
  refers : ∀ kb ∈ blocks, ∀ g, kb.2.gradient q = some g → ∀ r ∈ g.samples.rows,
    Refers kb.2.values.samples.rows.length r
  components : debug = true → ∀ kb ∈ blocks, listed kb.1 → ∀ g, kb.2.gradient q = some g →
    g.components = components

/-- The values of a gradient can be moved to arrays for gradients with components of the given sizes. -/
def GradientMoves (view : A → NdArray) (g : BasicBlock A) (sizes : List Nat) : Prop :=
  ∀ (T : List LabelValue → List LabelValue → Prop) (outRows : List (List LabelValue)) (gm : List SampleMapping),
    MapsTo T g.samples.rows outRows gm → (∀ r s r', T r r' → T s r' → r = s) →
    ∀ s e p, e = s + g.properties.rows.length → e ≤ p →
    ∀ output, (view output).shape = outRows.length :: sizes ++ [p] →
      ∃ out, moveSamples output g.data gm s e = .ok out ∧ (view out).shape = outRows.length :: sizes ++ [p]

/-- The values of the gradients of some blocks can be moved to arrays with the components of the first one. -/
def GroupMoves (view : A → NdArray) (debug : Bool) (listed : List LabelValue → Prop)
    (blocks : List (List LabelValue × TensorBlock A)) : Prop :=
  ∀ first, blocks.head? = some first → ∀ q fg, first.2.gradient q = some fg → ∀ kb ∈ blocks, listed kb.1 →
    ∀ g, kb.2.gradient q = some g → (debug = true → g.components = fg.components) →
      GradientMoves view g (fg.components.map fun c => c.rows.length)

theorem groupMoves_of_sizes (h : Implements view) {w : Nat} {blocks : List (List LabelValue × TensorBlock A)}
    (hg : GroupOk w blocks) {debug : Bool} {listed : List LabelValue → Prop}
    (hcomp : debug = true ∨ GroupSizesAgree blocks) : GroupMoves view debug listed blocks := by
  intro first hf q fg hfg kb hkb _ g hgq hdbg T outRows gm hm hT s e p he hp output ho
  have hc : (g.components.map fun c => c.rows.length) = fg.components.map fun c => c.rows.length := by
    rcases hcomp with hc | hc
    · exact congrArg (List.map fun c => c.rows.length) (hdbg hc)
    · exact hc q kb hkb first (List.mem_of_mem_head? hf) g fg hgq hfg
  obtain ⟨out, e1, _, e3⟩ := h.moveSamples_map
    (moveOk_of_mapsTo h ((hg.valid kb hkb).gradient_valid hgq).basic hm hT he hp hc) ho
  exact ⟨out, e1, e3⟩

theorem mergeGradientsAlongProperties_iff (h : Implements view) {build : Build} {w : Nat}
    {first : List LabelValue × TensorBlock A} {blocks : List (List LabelValue × TensorBlock A)}
    (hg : GroupOk w blocks) (hf : blocks.head? = some first) {addKey : Bool} {S P' : Labels}
    {mappings : List (List SampleMapping)} {ranges : List (Option (Nat × Nat))}
    {rename : List LabelValue → List LabelValue → List LabelValue} {listed : List LabelValue → Prop}
    (hm : List.Forall₂ (fun kb mapping => MapsTo (Extends addKey kb.1) kb.2.values.samples.rows
        S.rows mapping) blocks mappings)
    (hsmall : S.rows.length ≤ 2147483647)
    (hr : RangesOk rename listed P' blocks ranges) (hP' : P'.WF)
    {gs : List (String × BasicBlock A)} (hgs : ∀ pg ∈ gs, first.2.gradient pg.1 = some pg.2)
    (hnd : (gs.map Prod.fst).Nodup)
    (hmoves : GroupMoves view build.debug listed blocks) (newBlock : TensorBlock A)
    (hnew : newBlock.values.components = first.2.values.components)
    (hnewp : newBlock.values.properties = P')
    (hfresh : ∀ pg ∈ gs, pg.1 ∉ newBlock.gradients.map Prod.fst) :
    (∃ b, mergeGradientsAlongProperties build first.2 blocks mappings ranges P'.rows.length newBlock gs = .ok b) ↔
      ∀ pg ∈ gs, GradientsMergeable build.debug listed blocks pg.1 pg.2.components := by
  have hfm : first ∈ blocks := List.mem_of_mem_head? hf
  have hlen := hm.length_eq
  have hlen2 := hr.1.length_eq
  have hzip : ∀ kb ∈ blocks, ∃ m, (kb, m) ∈ blocks.zip mappings := by
    intro kb hkb
    obtain ⟨i, hi, rfl⟩ := List.getElem_of_mem hkb
    refine ⟨mappings[i], ?_⟩
    rw [← List.getElem_zip (i := i) (h := by rw [List.length_zip]; omega)]
    exact List.getElem_mem _
  have hitems := group_items hg hm hr
  induction gs generalizing newBlock with
  | nil => simp [mergeGradientsAlongProperties]
  | cons pg gs ih =>
    obtain ⟨q, fg⟩ := pg
    have hfg : first.2.gradient q = some fg := hgs _ List.mem_cons_self
    have hfv := (hg.valid first hfm).gradient_valid hfg
    have hq : ∀ kb ∈ blocks, ∃ g, kb.2.gradient q = some g := by
      intro kb hkb
      have := (hg.consistent first hfm kb hkb).parameters q
      rw [hfg] at this
      exact Option.isSome_iff_exists.1 this.symm
    have hmg := mergeGradientSamples_iff (build := build) (parameter := q) (blocks := blocks) (mappings := mappings)
      (by
        obtain ⟨m, hm'⟩ := hzip first hfm
        exact List.ne_nil_of_mem hm')
      (fun it hit => by
        have hb := (List.of_mem_zip (a := it.1) (b := it.2) hit).1
        obtain ⟨g, hgq⟩ := hq _ hb
        exact ⟨g, hgq, ((hg.valid _ hb).gradient_valid hgq).wf.samples⟩)
      (fun a ha b hb g g' h1 h2 => by
        have ha' := (List.of_mem_zip (a := a.1) (b := a.2) ha).1
        have hb' := (List.of_mem_zip (a := b.1) (b := b.2) hb).1
        exact ((hg.consistent _ ha' _ hb').gradients q g g' h1 h2).1)
      (fun it hit => (forall₂_zip hm it hit).input)
    have hrefers : (∃ l, mergeGradientSamples build blocks q mappings = .ok l) ↔
        ∀ kb ∈ blocks, ∀ g, kb.2.gradient q = some g → ∀ r ∈ g.samples.rows,
          Refers kb.2.values.samples.rows.length r := by
      rw [hmg]
      constructor
      · intro h1 kb hkb g hgq r hr'
        obtain ⟨m, hm'⟩ := hzip kb hkb
        exact (refers_iff (forall₂_zip hm _ hm') hsmall).2 (h1 _ hm' g hgq r hr')
      · intro h1 it hit g hgq r hr'
        have hb := (List.of_mem_zip (a := it.1) (b := it.2) hit).1
        exact (refers_iff (forall₂_zip hm _ hit) hsmall).1 (h1 _ hb g hgq r hr')
    constructor
    · rintro ⟨b, hb⟩
      have hb' := hb
      simp only [mergeGradientsAlongProperties, Res.bind_eq_ok] at hb'
      obtain ⟨newSamples, h1, shape, h2, _, h3, count, h4, zeros, h5, data, h6, nb, h7, h8⟩ := hb'
      obtain ⟨h9, h10, rfl⟩ := addGradientExpect_eq_ok.1 h7
      have hrest := (ih (fun pg hpg => hgs pg (List.mem_cons_of_mem _ hpg)) (List.nodup_cons.1 hnd).2
        { newBlock with
          gradients := newBlock.gradients ++ [(q, newBlock.gradientBlock data newSamples fg.components)]
          gradientParameters := newBlock.gradientParameters ++ [q] } hnew hnewp (by
          intro pg hpg hmem
          simp only [List.map_append, List.map_cons, List.map_nil, List.mem_append, List.mem_singleton] at hmem
          rcases hmem with hmem | hmem
          · exact hfresh pg (List.mem_cons_of_mem _ hpg) hmem
          · rw [List.map_cons, List.nodup_cons] at hnd
            exact hnd.1 (List.mem_map.2 ⟨pg, hpg, hmem⟩))).1 ⟨b, h8⟩
      intro pg hpg
      rcases List.mem_cons.1 hpg with rfl | hpg
      · refine ⟨h10, hrefers.1 ⟨_, h1⟩, ?_⟩
        intro hdbg kb hkb hl g hgq
        obtain ⟨_, h11⟩ := moveAllGradientProperties_ok h6
        obtain ⟨i, hi, rfl⟩ := List.getElem_of_mem hkb
        have hi2 : i < mappings.length := by omega
        have hi3 : i < ranges.length := by omega
        have hmem : ((blocks[i], mappings[i]), ranges[i]) ∈ (blocks.zip mappings).zip ranges := by
          have hi4 : i < ((blocks.zip mappings).zip ranges).length := by
            rw [List.length_zip, List.length_zip]; omega
          have : ((blocks.zip mappings).zip ranges)[i] = ((blocks[i], mappings[i]), ranges[i]) := by
            simp
          rw [← this]
          exact List.getElem_mem hi4
        have hrng := (List.forall₂_iff_get.1 hr.2).2 i hi hi3
        obtain ⟨g', hg', hc⟩ := h11 _ hmem (hrng.2 hl)
        simp only at hg'
        rw [hgq, Option.some.injEq] at hg'
        rw [hg']; exact hc hdbg
      · exact hrest pg hpg
    · intro hall
      have hthis := hall _ List.mem_cons_self
      simp only at hthis
      obtain ⟨newSamples, h1⟩ := hrefers.2 hthis.refers
      obtain ⟨it0, fg', hhead, hfg', hms⟩ := mergeGradientSamples_ok
        (fun it hit g hg' => ((hg.valid _ (List.of_mem_zip (a := it.1) (b := it.2) hit).1).gradient_valid hg').wf.samples)
        (fun it hit => (forall₂_zip hm it hit).input) h1
      have hnames : newSamples.names = fg.samples.names := by
        rw [hms.holds.names_eq]
        have hb0 := (List.of_mem_zip (a := it0.1) (b := it0.2) (List.mem_of_mem_head? hhead)).1
        exact ((hg.consistent _ hb0 _ hfm).gradients q fg' fg hfg' hfg).1
      obtain ⟨zeros, h4, hz0, _⟩ := h.create first.2.values.data
        (((view fg.data).shape.set 0 newSamples.rows.length).set ((view fg.data).shape.length - 1) P'.rows.length)
      have hz : (view zeros).shape = newSamples.rows.length :: (fg.components.map fun c => c.rows.length) ++
          [P'.rows.length] := by
        rw [hz0, h.view_shape hfv.basic]
        simp
      obtain ⟨data, h5, hdata⟩ := Implements.moveAllGradientProperties_exists (view := view) (build := build) (q := q)
        (newSamples := newSamples) (newComponents := fg.components) (nOut := newSamples.rows.length)
        (mid := fg.components.map fun c => c.rows.length) (p := P'.rows.length)
        (items := (blocks.zip mappings).zip ranges) (by
          intro it hit s e hse
          obtain ⟨hv, hz1, hb, hmap, hrange⟩ := hitems it hit
          obtain ⟨g, hgq, h6⟩ := hms.every it.1 hz1
          have hgv := hv.gradient_valid hgq
          obtain ⟨gm, h7, h8⟩ := gradientMapping_ok (build := build) hms.holds hgv.wf.samples hmap.input h6
          have hlisted : listed it.1.1.1 := by
            obtain ⟨i, hi, rfl⟩ := List.getElem_of_mem hit
            rw [List.length_zip, List.length_zip] at hi
            have := (List.forall₂_iff_get.1 hr.2).2 i (by omega) (by omega)
            simp only [List.getElem_zip] at hse ⊢
            refine this.1 ?_
            simp [hse]
          have hdbg : build.debug = true → g.components = fg.components :=
            fun hc => hthis.components hc _ hb hlisted g hgq
          refine ⟨g, gm, hgq, hdbg, h7, ?_⟩
          have hout := hmap.nodup (Labels.Holds.nodup (BasicValid.wf hv.values).samples)
            (fun r _ s _ o h1 h2 => extends_inj h1 h2)
          exact hmoves first hf q fg hfg _ hb hlisted g hgq hdbg _ _ _ h8 (fun r s r' h9 h10 => translates_inj hout h9 h10)
            s e _ (by rw [hgv.properties]; exact (hrange s e hse).1) (hrange s e hse).2) hz
      have hvalid := hg.valid first hfm
      obtain ⟨o, ho⟩ := h.origin
      have hacc : addGradientExpect newBlock q data newSamples fg.components = .ok { newBlock with
          gradients := newBlock.gradients ++ [(q, newBlock.gradientBlock data newSamples fg.components)]
          gradientParameters := newBlock.gradientParameters ++ [q] } := by
        rw [addGradientExpect_eq_ok]
        refine ⟨⟨?_, ?_, ⟨o, ho _, ho _⟩, ?_, ?_, hfv.basic.components, ⟨_, h.shape _, ?_⟩⟩, hthis.noNul, rfl⟩
        · exact lookup_eq_none_iff_not_mem.2 (hfresh _ List.mem_cons_self)
        · rintro rfl
          apply hvalid.reserved
          have := (gradient_eq_some hvalid.names).1 hfg
          exact List.mem_map.2 ⟨_, this, rfl⟩
        · rw [hnames]; exact hfv.samples
        · rw [hnew]; exact hfv.components
        · rw [hdata, hnewp]
          exact shapeMatches_of_wf hms.holds.wf hfv.wf.components hP'
      obtain ⟨b, hb⟩ := (ih (fun pg hpg => hgs pg (List.mem_cons_of_mem _ hpg)) (List.nodup_cons.1 hnd).2
        { newBlock with
          gradients := newBlock.gradients ++ [(q, newBlock.gradientBlock data newSamples fg.components)]
          gradientParameters := newBlock.gradientParameters ++ [q] } hnew hnewp (by
          intro pg hpg hmem
          simp only [List.map_append, List.map_cons, List.map_nil, List.mem_append, List.mem_singleton] at hmem
          rcases hmem with hmem | hmem
          · exact hfresh pg (List.mem_cons_of_mem _ hpg) hmem
          · rw [List.map_cons, List.nodup_cons] at hnd
            exact hnd.1 (List.mem_map.2 ⟨pg, hpg, hmem⟩))).2
          (fun pg hpg => hall pg (List.mem_cons_of_mem _ hpg))
      refine ⟨b, ?_⟩
      have hemp : (view fg.data).shape.isEmpty = false := by
        rw [h.view_shape hfv.basic]; rfl
      rw [mergeGradientsAlongProperties, h1, Res.ok_bind, h.shape, Res.ok_bind, hemp]
      simp only [Bool.not_false, Res.assert_true, Res.ok_bind, hms.holds.wf.count_eq, h4, h5, hacc]
      exact hb

theorem order_nodup {hash : HashOrder} {b : TensorBlock A} (hb : BlockValid b) :
    ((hash.order b.gradients).map Prod.fst).Nodup :=
  ((hash.perm b.gradients).map Prod.fst).nodup_iff.2 hb.names

theorem order_forall {hash : HashOrder} {b : TensorBlock A} (hb : BlockValid b) {p : String → BasicBlock A → Prop} :
    (∀ pg ∈ hash.order b.gradients, p pg.1 pg.2) ↔ ∀ q g, b.gradient q = some g → p q g := by
  constructor
  · intro h q g hg
    exact h (q, g) ((hash.perm _).mem_iff.2 ((gradient_eq_some hb.names).1 hg))
  · intro h pg hpg
    exact h _ _ (order_gradients hb pg hpg)

theorem indexSet_length_le {α : Type} [DecidableEq α] (l : List α) : (indexSet l).length ≤ l.length := by
  apply List.Subperm.length_le
  exact (indexSet_nodup l).subperm fun x hx => mem_indexSet.1 hx

theorem mergedRows_length (sort addKey : Bool) (blocks : List (List LabelValue × TensorBlock A)) :
    (mergedRows sort addKey blocks).length ≤ (blocks.map fun kb => kb.2.values.samples.rows.length).sum := by
  have h1 : (mergedRows sort addKey blocks).length = (indexSet (allSamples addKey blocks)).length := by
    unfold mergedRows
    split
    · exact (sortRows_perm _).length_eq
    · rfl
  have h2 : (allSamples addKey blocks).length = (blocks.map fun kb => kb.2.values.samples.rows.length).sum := by
    unfold allSamples
    rw [List.length_flatMap]
    simp
  rw [h1, ← h2]
  exact indexSet_length_le _

theorem namesOk_append {a b : List String} : NamesOk (a ++ b) ↔ NamesOk a ∧ NamesOk b ∧ ∀ n ∈ b, n ∉ a := by
  unfold NamesOk
  rw [List.nodup_append]
  constructor
  · rintro ⟨h1, h2, h3, h4⟩
    exact ⟨⟨fun n hn => h1 n (List.mem_append_left _ hn), h2⟩,
      ⟨fun n hn => h1 n (List.mem_append_right _ hn), h3⟩, fun n hn hn' => h4 n hn' n hn rfl⟩
  · rintro ⟨⟨h1, h2⟩, ⟨h3, h4⟩, h5⟩
    refine ⟨fun n hn => ?_, h2, h4, ?_⟩
    · rcases List.mem_append.1 hn with hn | hn
      · exact h1 n hn
      · exact h3 n hn
    · rintro n hn m hm rfl
      exact h5 n hm hn

theorem expectOk_ok {α : Type} (a : α) (m : String) : Res.expectOk (.ok a) m = .ok a := rfl

/-- When blocks can be merged along samples. -/
structure SamplesMergeable (debug : Bool) (extracted : List String)
    (blocks : List (List LabelValue × TensorBlock A)) (first : List LabelValue × TensorBlock A) : Prop where
  fresh : ∀ n ∈ extracted, n ∉ first.2.values.samples.names
  same : ∀ kb ∈ blocks, kb.2.values.components = first.2.values.components ∧
    kb.2.values.properties = first.2.values.properties
  gradients : ∀ q g, first.2.gradient q = some g →
    GradientsMergeable debug (fun _ => True) blocks q g.components

theorem mergeBlocksAlongSamples_iff (h : Implements view) {build : Build} {hash : HashOrder}
    {w : Nat} {extracted : List String} (hw : extracted.length = w) (hn : NamesOk extracted)
    {sort : Bool} {blocks : List (List LabelValue × TensorBlock A)} (hg : GroupOk w blocks)
    (hpos : 0 < w) (hmoves : GroupMoves view build.debug (fun _ => True) blocks)
    (hsmall : (mergedRows sort true blocks).length ≤ 2147483647) :
    (∃ b, mergeBlocksAlongSamples build hash extracted sort blocks = .ok b) ↔
      ∃ first, blocks.head? = some first ∧ SamplesMergeable build.debug extracted blocks first := by
  cases hf : blocks.head? with
  | none =>
    have : blocks = [] := by cases blocks with | nil => rfl | cons a l => simp at hf
    subst this
    constructor
    · rintro ⟨b, hb⟩; cases hb
    · rintro ⟨_, h1, _⟩; cases h1
  | some first =>
  have hfm : first ∈ blocks := List.mem_of_mem_head? hf
  have hfv := hg.valid first hfm
  have hfw := BasicValid.wf hfv.values
  have hadd : true = decide (first.2.values.samples.size <
      (first.2.values.samples.names ++ extracted).length) := by
    rw [List.length_append, Labels.Holds.size_eq hfw.samples]
    have : first.2.values.samples.names.length < first.2.values.samples.names.length + extracted.length := by
      omega
    simp [this]
  have hgr : ∀ (S : Labels) (mappings : List (List SampleMapping)) (nb : TensorBlock A),
      (∀ kb ∈ blocks, kb.2.values.properties = first.2.values.properties) →
      S.rows.length ≤ 2147483647 →
      List.Forall₂ (fun kb mapping => MapsTo (Extends true kb.1) kb.2.values.samples.rows
        S.rows mapping) blocks mappings →
      nb.values.components = first.2.values.components → nb.values.properties = first.2.values.properties →
      nb.gradients = [] →
      ((∃ b, mergeGradientsAlongSamples build first.2 blocks mappings first.2.values.properties.rows.length nb
        (hash.order first.2.gradients) = .ok b) ↔
      ∀ q g, first.2.gradient q = some g → GradientsMergeable build.debug (fun _ => True) blocks q g.components) := by
    intro S mappings nb hp hS hm h1 h2 h3
    have hlast : ∀ pg ∈ hash.order first.2.gradients, ∃ shape n, ArrayLike.shape pg.2.data = .ok shape ∧
        2 ≤ shape.length ∧ shape[shape.length - 1]? = some n ∧ n = first.2.values.properties.rows.length := by
      intro pg hpg
      have hv := hfv.gradient_valid (order_gradients hfv pg hpg)
      refine ⟨(view pg.2.data).shape, _, h.shape _, ?_, ?_, rfl⟩
      · rw [h.view_shape hv.basic]; simp
      · rw [h.view_shape hv.basic, hv.properties]; simp
    rw [mergeGradientsAlongSamples_eq hm.length_eq hlast]
    rw [← order_forall (hash := hash) hfv
      (p := fun q g => GradientsMergeable build.debug (fun _ => True) blocks q g.components)]
    refine mergeGradientsAlongProperties_iff h hg hf hm hS (fullRanges_ok hp) hfw.properties
      (order_gradients hfv) (order_nodup hfv) hmoves nb h1 h2 ?_
    intro pg _ hmem
    rw [h3] at hmem
    cases hmem
  constructor
  · rintro ⟨b, hb⟩
    refine ⟨first, rfl, ?_⟩
    obtain ⟨first', mappings, stop, hM, hS, hstop⟩ := mergeBlocksAlongSamples_merged hg hw hpos hb
    have : first' = first := by
      have := hM.head; rw [hf, Option.some.injEq] at this; exact this.symm
    subst this
    refine ⟨(namesOk_append.1 hM.samples.names_ok).2.2, hS.compatible, ?_⟩
    obtain ⟨nb, hnb, hok⟩ := hS.gradients
    have hnbe := (TensorBlock.new_eq_ok.1 hnb).2.2
    rw [hstop, hS.properties] at hok
    exact (hgr b.values.samples mappings nb (fun kb hkb => (hS.compatible kb hkb).2)
      (by rw [hM.samples.rows_eq]; exact hsmall) hM.mapping (by rw [hnbe]; exact hS.components)
      (by rw [hnbe]; exact hS.properties) (by rw [hnbe])).1 ⟨_, hok⟩
  · rintro ⟨first', hf', hok⟩
    cases hf'
    obtain ⟨rest, hrest⟩ : ∃ rest, blocks = first :: rest := by
      cases blocks with
      | nil => simp at hf
      | cons a l => simp only [List.head?_cons, Option.some.injEq] at hf; exact ⟨l, by rw [hf]⟩
    have hnames : NamesOk (first.2.values.samples.names ++ extracted) :=
      namesOk_append.2 ⟨Labels.Holds.names_ok hfw.samples, hn, hok.fresh⟩
    have hnpos : 0 < (first.2.values.samples.names ++ extracted).length := by
      rw [List.length_append]; omega
    have hholds : (Labels.mk' (first.2.values.samples.names ++ extracted) (mergedRows sort true blocks)).Holds
        (first.2.values.samples.names ++ extracted) (mergedRows sort true blocks) := by
      refine Labels.mk'_holds hnames hnpos ?_ (mergedRows_nodup _ _ _)
      intro r hr
      obtain ⟨kb, hkb, s, hs, rfl⟩ := mem_mergedRows.1 hr
      have hs' := Labels.Holds.row_length (BasicValid.wf (hg.valid kb hkb).values).samples s hs
      simp only [extendSample, if_true, List.length_append]
      rw [hs', hg.width kb hkb, hw, (hg.consistent kb hkb first hfm).values.1]
    generalize hS : Labels.mk' (first.2.values.samples.names ++ extracted) (mergedRows sort true blocks) = S at hholds
    have hb := (Labels.build_eq_ok hnpos).2 hholds
    obtain ⟨mappings, e1, e2⟩ : ∃ mappings, mergeSamples blocks (first.2.values.samples.names ++ extracted) sort =
        .ok (S, mappings) ∧ List.Forall₂ (fun kb mapping => MapsTo (Extends true kb.1) kb.2.values.samples.rows
        (mergedRows sort true blocks) mapping) blocks mappings := by
      subst hrest
      exact mergeSamples_of_build hnpos
        (fun kb hkb => (BasicValid.wf (hg.valid kb hkb).values).samples) hadd hb
    rw [← hholds.rows_eq] at e2
    have hp : ∀ kb ∈ blocks, kb.2.values.properties = first.2.values.properties := fun kb hkb => (hok.same kb hkb).2
    obtain ⟨zeros, e3, hz0, _⟩ := h.create first.2.values.data
      ((view first.2.values.data).shape.set 0 S.rows.length)
    have hz : (view zeros).shape = S.rows.length ::
        (first.2.values.components.map fun c => c.rows.length) ++ [first.2.values.properties.rows.length] := by
      rw [hz0, h.view_shape hfv.values]
      simp
    have hitems := group_items hg e2 (fullRanges_ok hp)
    have hl := e2.length_eq
    obtain ⟨data, e4, hdata⟩ := h.moveAllProperties_exists (nOut := S.rows.length)
      (mid := first.2.values.components.map fun c => c.rows.length) (p := first.2.values.properties.rows.length)
      (items := ((blocks.zip mappings).zip (fullRanges blocks first.2.values.properties.rows.length)).map
        fun it => ((it.1.1.2.values.data, it.1.2), it.2)) (by
        intro it' hit' s e hse
        obtain ⟨it, hit, rfl⟩ := List.mem_map.1 hit'
        obtain ⟨hv, _, hb, hmap, hrange⟩ := hitems it hit
        exact moveOk_of_mapsTo h hv.values hmap (fun r s r' h9 h10 => extends_inj h9 h10)
          (hrange s e hse).1 (hrange s e hse).2 (by rw [(hok.same _ hb).1])) hz
    have e5 : moveAllSamples first.2.values.properties.rows.length zeros
        ((blocks.map fun b => b.2.values.data).zip mappings) = .ok data := by
      rw [moveAllSamples_eq, ← e4]
      congr 1
      unfold fullRanges
      rw [zip_map_left', zip_replicate (by rw [List.length_zip]; omega), List.map_map, List.map_map]
      rfl
    have e6 : TensorBlock.new data S first.2.values.components first.2.values.properties =
        .ok ⟨⟨data, S, first.2.values.components, first.2.values.properties⟩, [], []⟩ := by
      rw [TensorBlock.new_eq_ok]
      refine ⟨⟨_, h.shape _, ?_⟩, hfv.values.components, rfl⟩
      rw [hdata]
      exact shapeMatches_of_wf hholds.wf hfw.components hfw.properties
    obtain ⟨b, e7⟩ := (hgr S mappings ⟨⟨data, S, first.2.values.components, first.2.values.properties⟩, [], []⟩
      hp (by rw [hholds.rows_eq]; exact hsmall) e2 rfl rfl rfl).2 hok.gradients
    refine ⟨b, ?_⟩
    have hcheck : checkMergeSamples first.2 blocks = .ok () := checkMergeSamples_iff.2 hok.same
    have hemp : (view first.2.values.data).shape.isEmpty = false := by
      rw [h.view_shape hfv.values]; rfl
    unfold mergeBlocksAlongSamples
    rw [hf]
    simp only [Res.expect_some, Res.ok_bind, hcheck, e1, h.shape, hemp, Bool.not_false, Res.assert_true,
      hholds.wf.count_eq, e3, hfw.properties.count_eq, e5, e6, expectOk_ok, e7]

/-- When blocks can be merged along properties. -/
structure PropertiesMergeable (debug : Bool) (user : Option Labels) (extracted : List String)
    (blocks : List (List LabelValue × TensorBlock A)) (first : List LabelValue × TensorBlock A) : Prop where
  fresh : ∀ n ∈ extracted, n ∉ first.2.values.properties.names
  same : ∀ kb ∈ blocks, kb.2.values.components = first.2.values.components ∧
    (user.isSome = true → kb.2.values.properties = first.2.values.properties)
  nonempty : ∀ kb ∈ blocks, 0 < kb.2.values.properties.rows.length
  gradients : ∀ q g, first.2.gradient q = some g →
    GradientsMergeable debug (Listed user) blocks q g.components

theorem mergeBlocksAlongProperties_iff (h : Implements view) {build : Build} {hash : HashOrder}
    {user : Option Labels} {w : Nat} (hu : UserOk w user) {extracted : List String} (hw : extracted.length = w)
    (hn : NamesOk extracted)
    {sort : Bool} {blocks : List (List LabelValue × TensorBlock A)} (hg : GroupOk w blocks)
    (hmoves : GroupMoves view build.debug (Listed user) blocks)
    (hsmall : (mergedRows sort false blocks).length ≤ 2147483647) :
    (∃ b, mergeBlocksAlongProperties build hash user extracted sort blocks = .ok b) ↔
      ∃ first, blocks.head? = some first ∧ PropertiesMergeable build.debug user extracted blocks first := by
  cases hf : blocks.head? with
  | none =>
    have : blocks = [] := by cases blocks with | nil => rfl | cons a l => simp at hf
    subst this
    constructor
    · rintro ⟨b, hb⟩; cases hb
    · rintro ⟨_, h1, _⟩; cases h1
  | some first =>
  have hfm : first ∈ blocks := List.mem_of_mem_head? hf
  have hfv := hg.valid first hfm
  have hfw := BasicValid.wf hfv.values
  have hne : blocks ≠ [] := List.ne_nil_of_mem hfm
  have hadd : false = decide (first.2.values.samples.size < first.2.values.samples.names.length) := by
    rw [Labels.Holds.size_eq hfw.samples]
    simp
  have hppos : 0 < (extracted ++ first.2.values.properties.names).length := by
    have := Labels.Holds.names_pos hfw.properties
    rw [List.length_append]; omega
  have hgr : ∀ (S P' : Labels) (mappings : List (List SampleMapping)) (ranges : List (Option (Nat × Nat)))
      (nb : TensorBlock A), P'.WF →
      RangesOk (fun key p => key ++ p) (Listed user) P' blocks ranges →
      S.rows.length ≤ 2147483647 →
      List.Forall₂ (fun kb mapping => MapsTo (Extends false kb.1) kb.2.values.samples.rows
        S.rows mapping) blocks mappings →
      nb.values.components = first.2.values.components → nb.values.properties = P' →
      nb.gradients = [] →
      ((∃ b, mergeGradientsAlongProperties build first.2 blocks mappings ranges P'.rows.length nb
        (hash.order first.2.gradients) = .ok b) ↔
      ∀ q g, first.2.gradient q = some g → GradientsMergeable build.debug (Listed user) blocks q g.components) := by
    intro S P' mappings ranges nb hP' hr hS hm h1 h2 h3
    rw [← order_forall (hash := hash) hfv
      (p := fun q g => GradientsMergeable build.debug (Listed user) blocks q g.components)]
    refine mergeGradientsAlongProperties_iff h hg hf hm hS hr hP'
      (order_gradients hfv) (order_nodup hfv) hmoves nb h1 h2 ?_
    intro pg _ hmem
    rw [h3] at hmem
    cases hmem
  constructor
  · rintro ⟨b, hb⟩
    refine ⟨first, rfl, ?_⟩
    obtain ⟨first', mappings, ranges, hM, hS, hP⟩ := mergeBlocksAlongProperties_merged hg hu hb
    have : first' = first := by
      have := hM.head; rw [hf, Option.some.injEq] at this; exact this.symm
    subst this
    have hpr := propertyRange_spec hg hu hP (fun hu kb hkb => (hS.compatible kb hkb).2 hu) hS.ranges_eq
    refine ⟨fun n hn hn' => (namesOk_append.1 hP.names_ok).2.2 n hn' hn, hS.compatible, ?_, ?_⟩
    · intro kb hkb
      have hr := hS.ranges_eq
      rw [mapM_eq_ok] at hr
      obtain ⟨i, hi, rfl⟩ := List.getElem_of_mem hkb
      have hi' : i < ranges.length := by rw [← hr.length_eq]; exact hi
      have := (List.forall₂_iff_get.1 hr).2 i hi hi'
      have hpw := (BasicValid.wf (hg.valid _ hkb).values).properties
      simp only [List.get_eq_getElem, propertyRange, hpw.count_eq, Res.ok_bind, Res.bind_eq_ok] at this
      obtain ⟨p0, h3, _⟩ := this
      by_contra hc
      rw [Labels.Holds.index_panic hpw hc] at h3
      cases h3
    · obtain ⟨n, nb, hn', hnb, hok⟩ := hS.gradients
      have hnbe := (TensorBlock.new_eq_ok.1 hnb).2.2
      rw [hP.wf.count_eq, Res.ok.injEq] at hn'
      subst hn'
      exact (hgr b.values.samples b.values.properties mappings ranges nb hP.wf hpr
        (by rw [hM.samples.rows_eq]; exact hsmall) hM.mapping (by rw [hnbe]; exact hS.components)
        (by rw [hnbe]) (by rw [hnbe])).1 ⟨_, hok⟩
  · rintro ⟨first', hf', hok⟩
    cases hf'
    obtain ⟨rest, hrest⟩ : ∃ rest, blocks = first :: rest := by
      cases blocks with
      | nil => simp at hf
      | cons a l => simp only [List.head?_cons, Option.some.injEq] at hf; exact ⟨l, by rw [hf]⟩
    have hholds : (Labels.mk' first.2.values.samples.names (mergedRows sort false blocks)).Holds
        first.2.values.samples.names (mergedRows sort false blocks) := by
      refine Labels.mk'_holds (Labels.Holds.names_ok hfw.samples) (Labels.Holds.names_pos hfw.samples) ?_
        (mergedRows_nodup _ _ _)
      intro r hr
      obtain ⟨kb, hkb, s, hs, hre⟩ := mem_mergedRows.1 hr
      have hs' := Labels.Holds.row_length (BasicValid.wf (hg.valid kb hkb).values).samples s hs
      simp only [extendSample, Bool.false_eq_true, if_false] at hre
      rw [hre, hs', (hg.consistent kb hkb first hfm).values.1]
    generalize hS : Labels.mk' first.2.values.samples.names (mergedRows sort false blocks) = S at hholds
    have hb := (Labels.build_eq_ok (Labels.Holds.names_pos hfw.samples)).2 hholds
    obtain ⟨mappings, e1, e2⟩ : ∃ mappings, mergeSamples blocks first.2.values.samples.names sort =
        .ok (S, mappings) ∧ List.Forall₂ (fun kb mapping => MapsTo (Extends false kb.1) kb.2.values.samples.rows
        (mergedRows sort false blocks) mapping) blocks mappings := by
      subst hrest
      exact mergeSamples_of_build (Labels.Holds.names_pos hfw.samples)
        (fun kb hkb => (BasicValid.wf (hg.valid kb hkb).values).samples) hadd hb
    rw [← hholds.rows_eq] at e2
    have hp : user.isSome = true → ∀ kb ∈ blocks, kb.2.values.properties = first.2.values.properties :=
      fun hu kb hkb => (hok.same kb hkb).2 hu
    obtain ⟨f1, f2⟩ := newPropertyEntries_eq hu hg hne hp
    have hph : (Labels.mk' (extracted ++ first.2.values.properties.names)
        (newPropertyRows user blocks first.2.values.properties)).Holds
        (extracted ++ first.2.values.properties.names)
        (newPropertyRows user blocks first.2.values.properties) := by
      refine Labels.mk'_holds ?_ hppos ?_ f2
      · exact namesOk_append.2 ⟨hn, Labels.Holds.names_ok hfw.properties, fun n hn hn' => hok.fresh n hn' hn⟩
      · intro r hr
        rw [List.length_append]
        unfold newPropertyRows at hr
        cases user with
        | none =>
          simp only [List.mem_flatMap, List.mem_map] at hr
          obtain ⟨kb, hkb, p, hp', rfl⟩ := hr
          rw [List.length_append, hg.width kb hkb, hw,
            Labels.Holds.row_length (BasicValid.wf (hg.valid kb hkb).values).properties p hp',
            (hg.consistent kb hkb first hfm).properties]
        | some e =>
          obtain ⟨he, hel⟩ := hu e rfl
          simp only [List.mem_flatMap, List.mem_map] at hr
          obtain ⟨entry, hentry, p, hp', rfl⟩ := hr
          rw [List.length_append, Labels.Holds.row_length he entry hentry, hel, hw,
            Labels.Holds.row_length hfw.properties p hp']
    generalize hP : Labels.mk' (extracted ++ first.2.values.properties.names)
        (newPropertyRows user blocks first.2.values.properties) = P' at hph
    have f3 := (Labels.build_eq_ok hppos).2 hph
    obtain ⟨zeros, e3, hz0, _⟩ := h.create first.2.values.data
      (((view first.2.values.data).shape.set 0 S.rows.length).set
        ((view first.2.values.data).shape.length - 1) P'.rows.length)
    have hz : (view zeros).shape = S.rows.length ::
        (first.2.values.components.map fun c => c.rows.length) ++ [P'.rows.length] := by
      rw [hz0, h.view_shape hfv.values]
      simp
    obtain ⟨ranges, f4, _⟩ := mapM_forall₂
      (f := fun kb : List LabelValue × TensorBlock A => propertyRange P' kb.1 kb.2)
      (P := fun _ _ => True) (l := blocks) (by
        intro kb hkb
        have hpw := (BasicValid.wf (hg.valid kb hkb).values).properties
        have hidx := Labels.Holds.index_eq hpw (hok.nonempty kb hkb)
        have hlen : (kb.1 ++ kb.2.values.properties.rows[0]'(hok.nonempty kb hkb)).length =
            (extracted ++ first.2.values.properties.names).length := by
          rw [List.length_append, List.length_append, hg.width kb hkb, hw,
            Labels.Holds.row_length hpw _ (List.getElem_mem (hok.nonempty kb hkb)),
            (hg.consistent kb hkb first hfm).properties]
        refine ⟨(P'.positions.lookup (kb.1 ++ kb.2.values.properties.rows[0]'(hok.nonempty kb hkb))).map
          fun start => (start, start + kb.2.values.properties.rows.length), ?_, trivial⟩
        unfold propertyRange
        rw [hpw.count_eq, Res.ok_bind, hidx, Res.ok_bind, hph.position_eq hlen, Res.ok_bind]
        rfl)
    have hr := propertyRange_spec hg hu hph hp f4
    have hitems := group_items hg e2 hr
    obtain ⟨data, e4, hdata⟩ := h.moveAllProperties_exists (nOut := S.rows.length)
      (mid := first.2.values.components.map fun c => c.rows.length) (p := P'.rows.length)
      (items := ((blocks.zip mappings).zip ranges).map
        fun it => ((it.1.1.2.values.data, it.1.2), it.2)) (by
        intro it' hit' s e hse
        obtain ⟨it, hit, rfl⟩ := List.mem_map.1 hit'
        obtain ⟨hv, _, hb, hmap, hrange⟩ := hitems it hit
        exact moveOk_of_mapsTo h hv.values hmap (fun r s r' h9 h10 => extends_inj h9 h10)
          (hrange s e hse).1 (hrange s e hse).2 (by rw [(hok.same _ hb).1])) hz
    have e5 : moveAllProperties zeros (((blocks.map fun b => b.2.values.data).zip mappings).zip ranges) =
        .ok data := by
      rw [← e4, zip_map_left', zip_map_left']
    have e6 : TensorBlock.new data S first.2.values.components P' =
        .ok ⟨⟨data, S, first.2.values.components, P'⟩, [], []⟩ := by
      rw [TensorBlock.new_eq_ok]
      refine ⟨⟨_, h.shape _, ?_⟩, hfv.values.components, rfl⟩
      rw [hdata]
      exact shapeMatches_of_wf hholds.wf hfw.components hph.wf
    obtain ⟨b, e7⟩ := (hgr S P' mappings ranges ⟨⟨data, S, first.2.values.components, P'⟩, [], []⟩
      hph.wf hr (by rw [hholds.rows_eq]; exact hsmall) e2 rfl rfl rfl).2 hok.gradients
    refine ⟨b, ?_⟩
    have hcheck : checkMergeProperties user.isSome first.2 blocks = .ok () := checkMergeProperties_iff.2 hok.same
    have hemp : (view first.2.values.data).shape.isEmpty = false := by
      rw [h.view_shape hfv.values]; rfl
    unfold mergeBlocksAlongProperties
    rw [hf]
    simp only [Res.expect_some, Res.ok_bind, hcheck, e1, f1, f3, h.shape, hemp, Bool.not_false, Res.assert_true,
      hholds.wf.count_eq, hph.wf.count_eq, e3, f4, e5, e6, expectOk_ok, e7]

end Equistore
