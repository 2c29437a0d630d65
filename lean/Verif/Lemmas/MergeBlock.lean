import Verif.Lemmas.Sources

/-! The content of merged blocks. -/

namespace Equistore
open Spec NdArray

section
variable {A : Type} [ArrayLike A]

theorem Spec.BasicValid.wf {b : BasicBlock A} (h : BasicValid b) : BlockWF b := by
  obtain ⟨shape, h1, h2⟩ := h.shape
  have hl : ∀ l ∈ b.samples :: b.components ++ [b.properties], l.WF := by
    intro l hl
    obtain ⟨i, hi, rfl⟩ := List.getElem_of_mem hl
    have hi' : i < shape.length := by rw [List.Forall₂.length_eq h2]; exact hi
    have := (List.forall₂_iff_get.1 h2).2 i hi' hi
    exact (h.labels _ (List.getElem_mem hi)).wf_of_count this
  exact ⟨hl _ (by simp), fun c hc => hl c (by simp [hc]), hl _ (by simp)⟩

theorem shapeMatches_components {shape : List Nat} {C : List Labels} (hC : ∀ c ∈ C, c.WF)
    (h : List.Forall₂ (fun n labels => Labels.count labels = .ok n) shape C) :
    shape = C.map fun c => c.rows.length := by
  induction h with
  | nil => rfl
  | @cons n l shape C h1 h2 ih =>
    rw [(hC l List.mem_cons_self).count_eq, Res.ok.injEq] at h1
    rw [List.map_cons, ← h1, ← ih fun c h => hC c (List.mem_cons_of_mem _ h)]

theorem shapeMatches_eq {shape : List Nat} {S P : Labels} {C : List Labels} (hS : S.WF)
    (hC : ∀ c ∈ C, c.WF) (hP : P.WF) (h : ShapeMatches shape S C P) :
    shape = S.rows.length :: (C.map fun c => c.rows.length) ++ [P.rows.length] := by
  have := shapeMatches_components (C := S :: C ++ [P]) (by
    intro c hc
    simp only [List.cons_append, List.mem_cons, List.mem_append, List.not_mem_nil, or_false] at hc
    rcases hc with rfl | hc | rfl
    · exact hS
    · exact hC c hc
    · exact hP) h
  simpa using this

theorem Spec.GradientValid.wf {v g : BasicBlock A} (h : GradientValid v g) : BlockWF g :=
  BasicValid.wf h.basic

theorem Spec.BlockValid.gradient_valid {b : TensorBlock A} (h : BlockValid b) {p : String} {g : BasicBlock A}
    (hg : b.gradient p = some g) : GradientValid b.values g :=
  h.gradients p g ((gradient_eq_some h.names).1 hg)

/-- Hypotheses on the blocks to merge, with their mappings and ranges. -/
structure ItemsOk (addKey : Bool) (rename : List LabelValue → List LabelValue → List LabelValue)
    (mrows : List (List LabelValue)) (P' : Labels) (w : Nat)
    (items : List (((List LabelValue × TensorBlock A) × List SampleMapping) × Option (Nat × Nat))) :
    Prop where
  valid : ∀ it ∈ items, BlockValid it.1.1.2
  width : ∀ it ∈ items, it.1.1.1.length = w
  distinct : items.Pairwise fun a b => a.1.1.1 ≠ b.1.1.1
  mapping : ∀ it ∈ items,
    MapsTo (Extends addKey it.1.1.1) it.1.1.2.values.samples.rows mrows it.1.2
  range : ∀ it ∈ items, ∀ s e, it.2 = some (s, e) →
    e = s + it.1.1.2.values.properties.rows.length ∧ e ≤ P'.rows.length ∧
    ∀ (j : Nat) p, it.1.1.2.values.properties.rows[j]? = some p →
      P'.rows[s + j]? = some (rename it.1.1.1 p)
  apart : addKey = true ∨ ∀ a b : List LabelValue, a.length = w → b.length = w → a ≠ b →
    ∀ p p', rename a p ≠ rename b p'

theorem extends_apart {key key' r r' o : List LabelValue} (hl : key.length = key'.length)
    (h : Extends true key r o) (h' : Extends true key' r' o) : key = key' := by
  simp only [Extends, extendSample, if_true] at h h'
  subst h
  exact (List.append_inj' h' hl).2

theorem translates_functional {m : List SampleMapping} {r a b : List LabelValue}
    (h : Translates m r a) (h' : Translates m r b) : a = b := by
  obtain ⟨v, rest, old, x, rfl, h1, h2, h3, rfl⟩ := h
  obtain ⟨v', rest', old', x', h4, h1', h2', h3', rfl⟩ := h'
  rw [List.cons.injEq] at h4
  obtain ⟨rfl, rfl⟩ := h4
  have : old = old' := by omega
  subst this
  rw [h2, Option.some.injEq] at h2'
  rw [h2']

end

variable {addKey : Bool} {rename : List LabelValue → List LabelValue → List LabelValue}
  {mrows : List (List LabelValue)} {P' : Labels} {w : Nat}
  {items : List (((List LabelValue × TensorBlock NdArray) × List SampleMapping) × Option (Nat × Nat))}

/-- The values of one block, as a source. -/
def valuesSource (addKey : Bool) (rename : List LabelValue → List LabelValue → List LabelValue)
    (it : ((List LabelValue × TensorBlock NdArray) × List SampleMapping) × Option (Nat × Nat)) : Source :=
  { block := it.1.1.2.values
    related := Extends addKey it.1.1.1
    mapping := it.1.2
    range := it.2
    rename := rename it.1.1.1 }

/-- The values of a merged block. -/
theorem values_merged {S : Labels} {C : List Labels} (h : ItemsOk addKey rename S.rows P' w items)
    (hS : S.WF) (hC : ∀ c ∈ C, c.WF) (hP : P'.WF)
    (hcomp : ∀ it ∈ items, it.1.1.2.values.components = C) {a zeros : NdArray}
    (hz : zeros = NdArray.create a (S.rows.length :: (C.map fun c => c.rows.length) ++ [P'.rows.length])) :
    ∃ out, moveAllProperties zeros
        (items.map fun it => ((it.1.1.2.values.data, it.1.2), it.2)) = .ok out ∧
      out.WF ∧
      out.shape = S.rows.length :: (C.map fun c => c.rows.length) ++ [P'.rows.length] ∧
      ∀ r' cs p' x, HasValue ⟨out, S, C, P'⟩ r' cs p' x ↔
        ((∃ it ∈ items, it.2 ≠ none ∧ ∃ r p, Extends addKey it.1.1.1 r r' ∧ rename it.1.1.1 p = p' ∧
          HasValue it.1.1.2.values r cs p x) ∨
        (x = 0 ∧ r' ∈ S.rows ∧ HasEntries C cs ∧ p' ∈ P'.rows ∧
          ∀ it ∈ items, it.2 ≠ none → ∀ r ∈ it.1.1.2.values.samples.rows,
            ∀ p ∈ it.1.1.2.values.properties.rows,
              Extends addKey it.1.1.1 r r' → rename it.1.1.1 p ≠ p')) := by
  have hwf : ∀ it ∈ items, BlockWF it.1.1.2.values := fun it hit => BasicValid.wf (h.valid it hit).values
  obtain ⟨out, e1, e2, e3, e4⟩ := sources_spec (sources := items.map (valuesSource addKey rename))
    hS hC hP (by
      intro q hq
      obtain ⟨it, hit, rfl⟩ := List.mem_map.1 hq
      have hw := hwf it hit
      obtain ⟨shape, hs1, hs2⟩ := (h.valid it hit).values.shape
      have hs3 := shapeMatches_eq hw.samples hw.components hw.properties hs2
      rw [hcomp it hit] at hs3
      refine ⟨fun _ => ?_, fun _ => Labels.Holds.nodup hw.samples, fun _ => h.mapping it hit, ?_, ?_, ?_⟩
      · have : it.1.1.2.values.data.shape = shape := by
          have := hs1; simp only [ArrayLike.shape, Res.ok.injEq] at this; exact this
        exact this.trans hs3
      · intro r a b h1 h2; exact h1.trans h2.symm
      · intro _ r _ s _ a h1 h2; exact extends_inj h1 h2
      · exact h.range it hit)
    (by
      rw [List.map_map, List.pairwise_map]
      refine List.Pairwise.imp_of_mem ?_ h.distinct
      intro a b ha hb hne _ _
      rcases h.apart with hk | hk
      · left
        intro r _ r' _ o h1 h2
        subst hk
        exact hne (extends_apart ((h.width a ha).trans (h.width b hb).symm) h1 h2)
      · right
        intro p _ p' _
        exact hk _ _ (h.width a ha) (h.width b hb) hne p p')
    (by
      intro q hq _
      obtain ⟨it, hit, rfl⟩ := List.mem_map.1 hq
      exact ⟨hcomp it hit, hwf it hit⟩) hz
  refine ⟨out, ?_, e2, e3, ?_⟩
  · rw [List.map_map] at e1
    exact e1
  · intro r' cs p' x
    rw [e4 r' cs p' x]
    constructor
    · rintro (⟨q, hq, h1, h2⟩ | ⟨h1, h2, h3, h4, h5⟩)
      · obtain ⟨it, hit, rfl⟩ := List.mem_map.1 hq
        exact Or.inl ⟨it, hit, h1, h2⟩
      · refine Or.inr ⟨h1, h2, h3, h4, ?_⟩
        intro it hit hne r hr p hp h6 h7
        exact h5 _ (List.mem_map_of_mem hit) ⟨hne, r, hr, p, hp, h6, h7⟩
    · rintro (⟨it, hit, h1, h2⟩ | ⟨h1, h2, h3, h4, h5⟩)
      · exact Or.inl ⟨_, List.mem_map_of_mem hit, h1, h2⟩
      · refine Or.inr ⟨h1, h2, h3, h4, ?_⟩
        rintro q hq ⟨hne, r, hr, p, hp, h6, h7⟩
        obtain ⟨it, hit, rfl⟩ := List.mem_map.1 hq
        exact h5 it hit hne r hr p hp h6 h7

/-- The gradients of one block, as a source. -/
def gradientSource (build : Build) (parameter : String) (newSamples : Labels) (C : List Labels)
    (rename : List LabelValue → List LabelValue → List LabelValue)
    (it : ((List LabelValue × TensorBlock NdArray) × List SampleMapping) × Option (Nat × Nat)) : Source :=
  { block := withComponents C ((it.1.1.2.gradient parameter).getD it.1.1.2.values)
    related := Translates it.1.2
    mapping := gradMap build parameter newSamples it.1.1.2 it.1.2
    range := it.2
    rename := rename it.1.1.1 }

/-- The gradients of a merged block. -/
theorem gradient_merged {build : Build} {parameter : String} {newSamples : Labels}
    (h : ItemsOk addKey rename mrows P' w items) (hP : P'.WF)
    {C : List Labels} (hC : ∀ c ∈ C, c.WF) {names : List String}
    (hm : MergedGradientSamples parameter (items.map Prod.fst) names newSamples)
    {a zeros out : NdArray}
    (hz : zeros = NdArray.create a
      (newSamples.rows.length :: (C.map fun c => c.rows.length) ++ [P'.rows.length]))
    (hmove : moveAllGradientProperties build parameter newSamples C zeros items = .ok out)
    (hcomp : build.debug = true ∨ ∀ it ∈ items, ∀ g, it.1.1.2.gradient parameter = some g →
      (g.components.map fun c => c.rows.length) = C.map fun c => c.rows.length) :
      out.WF ∧
      out.shape = newSamples.rows.length :: (C.map fun c => c.rows.length) ++ [P'.rows.length] ∧
      ∀ r' cs p' x, HasValue ⟨out, newSamples, C, P'⟩ r' cs p' x ↔
        ((∃ it ∈ items, it.2 ≠ none ∧ ∃ g, it.1.1.2.gradient parameter = some g ∧
          ∃ r p, Translates it.1.2 r r' ∧ rename it.1.1.1 p = p' ∧
            HasValue (withComponents C g) r cs p x) ∨
        (x = 0 ∧ r' ∈ newSamples.rows ∧ HasEntries C cs ∧ p' ∈ P'.rows ∧
          ∀ it ∈ items, it.2 ≠ none → ∀ g, it.1.1.2.gradient parameter = some g →
            ∀ r ∈ g.samples.rows, ∀ p ∈ g.properties.rows,
              Translates it.1.2 r r' → rename it.1.1.1 p ≠ p')) := by
  obtain ⟨hmv, hdbg⟩ := moveAllGradientProperties_ok hmove
  have hS : newSamples.WF := hm.holds.wf
  have hev : ∀ it ∈ items, ∃ g, it.1.1.2.gradient parameter = some g ∧
      (it.2 ≠ none → (g.components.map fun c => c.rows.length) = C.map fun c => c.rows.length) ∧
      ∀ r ∈ g.samples.rows, ∃ r' ∈ newSamples.rows, Translates it.1.2 r r' := by
    intro it hit
    obtain ⟨g, h1, h2⟩ := hm.every it.1 (List.mem_map_of_mem hit)
    refine ⟨g, h1, ?_, h2⟩
    intro hne
    rcases hcomp with hc | hc
    · obtain ⟨g', h3, h4⟩ := hdbg it hit hne
      rw [h1, Option.some.injEq] at h3
      subst h3
      rw [h4 hc]
    · exact hc it hit g h1
  have hgv : ∀ it ∈ items, ∀ g, it.1.1.2.gradient parameter = some g →
      GradientValid it.1.1.2.values g := fun it hit g hg => (h.valid it hit).gradient_valid hg
  have hout : ∀ it ∈ items, (it.1.2.map (·.output)).Nodup := fun it hit =>
    (h.mapping it hit).nodup (Labels.Holds.nodup (BasicValid.wf (h.valid it hit).values).samples)
      (fun r _ s _ o h1 h2 => extends_inj h1 h2)
  obtain ⟨out', e1, e2, e3, e4⟩ := sources_spec
    (sources := items.map (gradientSource build parameter newSamples C rename))
    hS hC hP (by
      intro q hq
      obtain ⟨it, hit, rfl⟩ := List.mem_map.1 hq
      obtain ⟨g, hg, hgc, hgs⟩ := hev it hit
      have hv := hgv it hit g hg
      have hw := hv.wf
      obtain ⟨shape, hs1, hs2⟩ := hv.basic.shape
      have hs3 := shapeMatches_eq hw.samples hw.components hw.properties hs2
      obtain ⟨gm, hgm, hgm2⟩ := gradientMapping_ok (build := build) hm.holds hw.samples
        (h.mapping it hit).input hgs
      have e : gradientSource build parameter newSamples C rename it =
          { block := withComponents C g, related := Translates it.1.2, mapping := gm, range := it.2,
            rename := rename it.1.1.1 } := by
        simp [gradientSource, hg, gradMap, hgm]
      rw [e]
      refine ⟨fun hne => ?_, fun _ => Labels.Holds.nodup hw.samples, fun _ => hgm2, ?_, ?_, ?_⟩
      · rw [hgc hne] at hs3
        have : g.data.shape = shape := by
          have := hs1; simp only [ArrayLike.shape, Res.ok.injEq] at this; exact this
        exact this.trans hs3
      · intro r a b h1 h2; exact translates_functional h1 h2
      · intro _ r _ s _ a h1 h2
        exact translates_inj (hout it hit) h1 h2
      · have := h.range it hit
        simp only [Source.piece, withComponents, hv.properties]
        exact this)
    (by
      rw [List.map_map, List.pairwise_map]
      refine List.Pairwise.imp_of_mem ?_ h.distinct
      intro a b ha hb hne _ _
      rcases h.apart with hk | hk
      · left
        intro r _ r' _ o h1 h2
        obtain ⟨v, rest, old, m, rfl, h3, h4, h5, rfl⟩ := h1
        obtain ⟨v', rest', old', m', rfl, h3', h4', h5', h6⟩ := h2
        rw [List.cons.injEq] at h6
        have ho := ofNat_inj h5 h5' h6.1
        obtain ⟨_, s, t, _, h7, h8⟩ := (h.mapping a ha).mem (List.mem_of_getElem? h4)
        obtain ⟨_, s', t', _, h7', h8'⟩ := (h.mapping b hb).mem (List.mem_of_getElem? h4')
        rw [ho, h7', Option.some.injEq] at h7
        subst h7
        subst hk
        exact hne (extends_apart ((h.width a ha).trans (h.width b hb).symm) h8 h8')
      · right
        intro p _ p' _
        exact hk _ _ (h.width a ha) (h.width b hb) hne p p')
    (by
      intro q hq hne
      obtain ⟨it, hit, rfl⟩ := List.mem_map.1 hq
      obtain ⟨g, hg, hgc, hgs⟩ := hev it hit
      simp only [gradientSource, hg, Option.getD_some]
      have hw := (hgv it hit g hg).wf
      exact ⟨rfl, hw.samples, hC, hw.properties⟩) hz
  have hsame : (items.map (gradientSource build parameter newSamples C rename)).map
      (fun q => ((q.block.data, q.mapping), q.range)) =
      items.map fun it => ((gradData parameter it.1.1.2,
        gradMap build parameter newSamples it.1.1.2 it.1.2), it.2) := by
    rw [List.map_map]
    apply List.map_congr_left
    intro it hit
    obtain ⟨g, hg, _⟩ := hev it hit
    simp [gradientSource, gradData, hg, withComponents]
  rw [hsame, hmv, Res.ok.injEq] at e1
  subst e1
  refine ⟨e2, e3, ?_⟩
  intro r' cs p' x
  rw [e4 r' cs p' x]
  constructor
  · rintro (⟨q, hq, h1, h2⟩ | ⟨h1, h2, h3, h4, h5⟩)
    · obtain ⟨it, hit, rfl⟩ := List.mem_map.1 hq
      obtain ⟨g, hg, _⟩ := hev it hit
      simp only [gradientSource, hg, Option.getD_some] at h1 h2
      exact Or.inl ⟨it, hit, h1, g, hg, h2⟩
    · refine Or.inr ⟨h1, h2, h3, h4, ?_⟩
      intro it hit hne g hg r hr p hp h6 h7
      refine h5 _ (List.mem_map_of_mem hit) ⟨hne, r, ?_, p, ?_, h6, h7⟩
      · simpa [gradientSource, hg, withComponents] using hr
      · simpa [gradientSource, hg, withComponents] using hp
  · rintro (⟨it, hit, h1, g, hg, h2⟩ | ⟨h1, h2, h3, h4, h5⟩)
    · refine Or.inl ⟨_, List.mem_map_of_mem hit, h1, ?_⟩
      simpa [gradientSource, hg] using h2
    · refine Or.inr ⟨h1, h2, h3, h4, ?_⟩
      rintro q hq ⟨hne, r, hr, p, hp, h6, h7⟩
      obtain ⟨it, hit, rfl⟩ := List.mem_map.1 hq
      obtain ⟨g, hg, _⟩ := hev it hit
      simp only [gradientSource, hg, Option.getD_some] at hr hp h6 h7
      exact h5 it hit hne g hg r hr p hp h6 h7

end Equistore
