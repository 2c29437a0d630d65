import Verif.Lemmas.KeysToSamples
import Verif.Lemmas.KeysToProperties
import Verif.Lemmas.Load

/-! Something about arrays which new arrays do not have, and which an array gets from the arrays whose samples are moved to it. -/

namespace Equistore
open Spec

variable {A : Type} [ArrayLike A]

/-- New arrays do not have the flag, and moving samples to an array gives it the flag of the other array. -/
structure Accumulates (flag : A → Bool) : Prop where
  create : ∀ (a : A) shape b, ArrayLike.create a shape = .ok b → flag b = false
  move : ∀ (output input : A) samples start stop output',
    ArrayLike.moveSamplesFrom output input samples start stop = (output', .ok ()) →
    flag output' = (flag output || flag input)

namespace Accumulates
variable {flag : A → Bool}

theorem moveSamples (h : Accumulates flag) {output input output' : A} {samples : List SampleMapping} {start stop : Nat}
    (he : moveSamples output input samples start stop = .ok output') :
    flag output' = (flag output || flag input) := by
  unfold Equistore.moveSamples at he
  split at he
  · rename_i h1
    cases he
    exact h.move _ _ _ _ _ _ h1
  · cases he
  · cases he

theorem moveAllSamples (h : Accumulates flag) {stop : Nat} {l : List (A × List SampleMapping)} {output output' : A}
    (he : moveAllSamples stop output l = .ok output') :
    flag output' = true ↔ flag output = true ∨ ∃ x ∈ l, flag x.1 = true := by
  induction l generalizing output with
  | nil => cases he; simp
  | cons x l ih =>
    rw [Equistore.moveAllSamples, Res.bind_eq_ok] at he
    obtain ⟨o, h1, h2⟩ := he
    rw [ih h2, h.moveSamples h1]
    simp [or_assoc]

theorem moveAllProperties (h : Accumulates flag) {l : List ((A × List SampleMapping) × Option (Nat × Nat))}
    {output output' : A} (he : moveAllProperties output l = .ok output') :
    flag output' = true ↔ flag output = true ∨ ∃ x ∈ l, x.2 ≠ none ∧ flag x.1.1 = true := by
  induction l generalizing output with
  | nil => cases he; simp
  | cons x l ih =>
    obtain ⟨⟨input, mapping⟩, range⟩ := x
    cases range with
    | none =>
      rw [ih (show Equistore.moveAllProperties output l = .ok output' from he)]
      simp
    | some r =>
      obtain ⟨start, stop⟩ := r
      simp only [Equistore.moveAllProperties, Res.bind_eq_ok] at he
      obtain ⟨o, h1, h2⟩ := he
      rw [ih h2, h.moveSamples h1]
      simp [or_assoc]

theorem moveAllGradientProperties (h : Accumulates flag) {build : Build} {parameter : String} {newSamples : Labels}
    {newComponents : List Labels}
    {l : List (((List LabelValue × TensorBlock A) × List SampleMapping) × Option (Nat × Nat))} {output output' : A}
    (he : moveAllGradientProperties build parameter newSamples newComponents output l = .ok output') :
    flag output' = true ↔ flag output = true ∨ ∃ x ∈ l, x.2 ≠ none ∧
      ∃ g, x.1.1.2.gradient parameter = some g ∧ flag g.data = true := by
  induction l generalizing output with
  | nil => cases he; simp
  | cons x l ih =>
    obtain ⟨⟨⟨key, b⟩, mapping⟩, range⟩ := x
    cases range with
    | none =>
      rw [ih (show Equistore.moveAllGradientProperties build parameter newSamples newComponents output l = .ok output' from he)]
      simp
    | some r =>
      obtain ⟨start, stop⟩ := r
      simp only [Equistore.moveAllGradientProperties, Res.bind_eq_ok, Res.expect_eq_ok] at he
      obtain ⟨g, h0, _, _, _, _, o, h1, h2⟩ := he
      rw [ih h2, h.moveSamples h1]
      simp [h0, or_assoc]

/-- Blocks with their mappings and ranges. -/
theorem exists_zip {blocks : List (List LabelValue × TensorBlock A)} {mappings : List (List SampleMapping)}
    {ranges : List (Option (Nat × Nat))} {listed : List LabelValue → Prop} (hm : blocks.length = mappings.length)
    (hr : List.Forall₂ (fun kb (range : Option (Nat × Nat)) => range ≠ none ↔ listed kb.1) blocks ranges)
    {P : TensorBlock A → Prop} :
    (∃ x ∈ (blocks.zip mappings).zip ranges, x.2 ≠ none ∧ P x.1.1.2) ↔ ∃ kb ∈ blocks, listed kb.1 ∧ P kb.2 := by
  induction hr generalizing mappings with
  | nil => simp
  | @cons kb range blocks ranges h1 _ ih =>
    cases mappings with
    | nil => simp at hm
    | cons m mappings =>
      simp only [List.length_cons, Nat.add_right_cancel_iff] at hm
      simp only [List.zip_cons_cons, List.mem_cons, exists_eq_or_imp, ih hm, h1]

theorem gradient (h : Accumulates flag) {build : Build} {hash : HashOrder} {sort addKey : Bool} {names : List String}
    {first : List LabelValue × TensorBlock A} {blocks : List (List LabelValue × TensorBlock A)}
    {mappings : List (List SampleMapping)} {ranges : List (Option (Nat × Nat))} {b' : TensorBlock A}
    {listed : List LabelValue → Prop}
    (hM : MergedBlock build hash sort addKey names first blocks mappings ranges b')
    (hr : List.Forall₂ (fun kb (range : Option (Nat × Nat)) => range ≠ none ↔ listed kb.1) blocks ranges)
    {q : String} {g' : BasicBlock A} (hq : b'.gradient q = some g') :
    flag g'.data = true ↔ ∃ kb ∈ blocks, listed kb.1 ∧ ∃ g, kb.2.gradient q = some g ∧ flag g.data = true := by
  have hq' := (gradient_eq_some hM.valid.names).1 hq
  obtain ⟨pg, _, h1, h2⟩ := forall₂_mem_right hM.gradients hq'
  simp only at h1 h2
  obtain ⟨_, _, zeros, _, _, h3, h4⟩ := h2.data
  rw [h.moveAllGradientProperties h4, h.create _ _ _ h3, ← h1, ← exists_zip (listed := listed)
    (P := fun b => ∃ g, b.gradient q = some g ∧ flag g.data = true) hM.mapping.length_eq hr]
  simp

theorem mergeBlocksAlongSamples (h : Accumulates flag) {build : Build} {hash : HashOrder} {extracted : List String}
    {sort : Bool} {blocks : List (List LabelValue × TensorBlock A)} {b' : TensorBlock A} {w : Nat}
    (hg : GroupOk w blocks) (hw : extracted.length = w) (hpos : 0 < w)
    (he : mergeBlocksAlongSamples build hash extracted sort blocks = .ok b') :
    (flag b'.values.data = true ↔ ∃ kb ∈ blocks, flag kb.2.values.data = true) ∧
    ∀ q g', b'.gradient q = some g' →
      (flag g'.data = true ↔ ∃ kb ∈ blocks, ∃ g, kb.2.gradient q = some g ∧ flag g.data = true) := by
  obtain ⟨first, mappings, stop, hm, hs, hstop⟩ := mergeBlocksAlongSamples_merged hg hw hpos he
  have hp : ∀ kb ∈ blocks, kb.2.values.properties = b'.values.properties := fun kb hkb => by
    rw [hs.properties]; exact (hs.compatible kb hkb).2
  subst hstop
  constructor
  · obtain ⟨_, _, zeros, _, _, h1, h2⟩ := hs.data
    rw [h.moveAllSamples h2, h.create _ _ _ h1]
    have := exists_zip (listed := fun _ => True) (P := fun b => flag b.values.data = true) hm.mapping.length_eq
      (fullRanges_ok hp).2
    simp only [true_and] at this
    rw [← this, zip_map_left']
    simp only [Bool.false_eq_true, false_or, List.mem_map]
    have hl := hm.mapping.length_eq
    constructor
    · rintro ⟨_, ⟨x, hx, rfl⟩, hf⟩
      refine this.2 ?_
      exact ⟨x.1, (List.of_mem_zip hx).1, hf⟩
    · rintro ⟨x, hx, _, hf⟩
      exact ⟨_, ⟨x.1, (List.of_mem_zip hx).1, rfl⟩, hf⟩
  · intro q g' hq
    rw [h.gradient (listed := fun _ => True) hm (fullRanges_ok hp).2 hq]
    simp

theorem mergeBlocksAlongProperties (h : Accumulates flag) {build : Build} {hash : HashOrder} {user : Option Labels}
    {extracted : List String} {sort : Bool} {blocks : List (List LabelValue × TensorBlock A)} {b' : TensorBlock A} {w : Nat}
    (hg : GroupOk w blocks) (hu : UserOk w user)
    (he : mergeBlocksAlongProperties build hash user extracted sort blocks = .ok b') :
    (flag b'.values.data = true ↔ ∃ kb ∈ blocks, Listed user kb.1 ∧ flag kb.2.values.data = true) ∧
    ∀ q g', b'.gradient q = some g' →
      (flag g'.data = true ↔ ∃ kb ∈ blocks, Listed user kb.1 ∧ ∃ g, kb.2.gradient q = some g ∧ flag g.data = true) := by
  obtain ⟨first, mappings, ranges, hm, hs, hph⟩ := mergeBlocksAlongProperties_merged hg hu he
  have hr := propertyRange_spec hg hu hph (fun hu kb hkb => (hs.compatible kb hkb).2 hu) hs.ranges_eq
  constructor
  · obtain ⟨_, _, _, zeros, _, _, _, h1, h2⟩ := hs.data
    rw [h.moveAllProperties h2, h.create _ _ _ h1, ← exists_zip (listed := Listed user)
      (P := fun b => flag b.values.data = true) hm.mapping.length_eq hr.2, zip_map_left', zip_map_left']
    simp only [Bool.false_eq_true, false_or, List.mem_map]
    constructor
    · rintro ⟨_, ⟨x, hx, rfl⟩, hf⟩
      exact ⟨x, hx, hf⟩
    · rintro ⟨x, hx, hf⟩
      exact ⟨_, ⟨x, hx, rfl⟩, hf⟩
  · intro q g' hq
    exact h.gradient hm hr.2 hq

end Accumulates
end Equistore
