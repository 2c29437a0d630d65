import Verif.Lemmas.MergeBlock

/-! `merge_blocks_along_samples`. -/

namespace Equistore
open Spec

section
variable {A : Type} [ArrayLike A]

theorem checkMergeSamples_iff {first : TensorBlock A} {blocks : List (List LabelValue × TensorBlock A)}
    {u : Unit} : checkMergeSamples first blocks = .ok u ↔
      ∀ kb ∈ blocks, kb.2.values.components = first.values.components ∧
        kb.2.values.properties = first.values.properties := by
  induction blocks with
  | nil => simp [checkMergeSamples]
  | cons kb blocks ih =>
    obtain ⟨key, b⟩ := kb
    rw [List.forall_mem_cons, ← ih]
    simp [checkMergeSamples, Res.bind_eq_ok, and_assoc]

/-- The steps of a successful merge along samples. -/
structure SamplesMerged (build : Build) (hash : HashOrder) (extracted : List String) (sort : Bool)
    (first : List LabelValue × TensorBlock A) (blocks : List (List LabelValue × TensorBlock A))
    (mappings : List (List SampleMapping)) (stop : Nat) (b' : TensorBlock A) : Prop where
  compatible : ∀ kb ∈ blocks, kb.2.values.components = first.2.values.components ∧
        kb.2.values.properties = first.2.values.properties
  samples : mergeSamples blocks (first.2.values.samples.names ++ extracted) sort =
    .ok (b'.values.samples, mappings)
  components : b'.values.components = first.2.values.components
  properties : b'.values.properties = first.2.values.properties
  stop_eq : first.2.values.properties.count = .ok stop
  data : ∃ shape count zeros, ArrayLike.shape first.2.values.data = .ok shape ∧
    b'.values.samples.count = .ok count ∧
    ArrayLike.create first.2.values.data (shape.set 0 count) = .ok zeros ∧
    moveAllSamples stop zeros ((blocks.map fun b => b.2.values.data).zip mappings) = .ok b'.values.data
  gradients : ∃ newBlock, TensorBlock.new b'.values.data b'.values.samples b'.values.components
      b'.values.properties = .ok newBlock ∧
    mergeGradientsAlongSamples build first.2 blocks mappings stop newBlock
      (hash.order first.2.gradients) = .ok b'

theorem mergeGradientsAlongSamples_values {build : Build} {firstBlock : TensorBlock A}
    {blocks : List (List LabelValue × TensorBlock A)} {mappings : List (List SampleMapping)}
    {stop : Nat} {newBlock b' : TensorBlock A} {gs : List (String × BasicBlock A)}
    (h : mergeGradientsAlongSamples build firstBlock blocks mappings stop newBlock gs = .ok b') :
    b'.values = newBlock.values := by
  induction gs generalizing newBlock with
  | nil => simp only [mergeGradientsAlongSamples, Res.ok.injEq] at h; rw [h]
  | cons pg gs ih =>
    obtain ⟨p, g⟩ := pg
    simp only [mergeGradientsAlongSamples, Res.bind_eq_ok] at h
    obtain ⟨newSamples, h1, shape, h2, _, h3, count, h4, zeros, h5, data, h6, nb, h7, h8⟩ := h
    obtain ⟨h9, h10, rfl⟩ := addGradientExpect_eq_ok.1 h7
    have := ih h8
    exact this

theorem mergeBlocksAlongSamples_ok {build : Build} {hash : HashOrder} {extracted : List String}
    {sort : Bool} {blocks : List (List LabelValue × TensorBlock A)} {b' : TensorBlock A}
    (h : mergeBlocksAlongSamples build hash extracted sort blocks = .ok b') :
    ∃ first mappings stop, blocks.head? = some first ∧
      SamplesMerged build hash extracted sort first blocks mappings stop b' := by
  unfold mergeBlocksAlongSamples at h
  simp only [Res.bind_eq_ok, Res.expect_eq_ok, Res.expectOk_eq_ok, checkMergeSamples_iff] at h
  obtain ⟨first, h1, _, h2, ⟨merged, mappings⟩, h3, shape, h4, _, h5, count, h6, zeros, h7, stop, h8,
    data, h9, nb, h10, h11⟩ := h
  simp only at h6 h9 h10 h11
  have hv := mergeGradientsAlongSamples_values h11
  obtain ⟨_, _, hn⟩ := TensorBlock.new_eq_ok.1 h10
  have e : b'.values = ⟨data, merged, first.2.values.components, first.2.values.properties⟩ := by
    rw [hv, hn]
  refine ⟨first, mappings, stop, h1, ?_⟩
  refine ⟨h2, by rw [e]; exact h3, by rw [e], by rw [e], h8, ⟨shape, count, zeros, h4, ?_, h7, ?_⟩,
    ⟨nb, ?_, h11⟩⟩
  · rw [e]; exact h6
  · rw [e]; exact h9
  · rw [e]; exact h10

/-- What is known about the blocks merged together. -/
structure GroupOk (w : Nat) (blocks : List (List LabelValue × TensorBlock A)) : Prop where
  valid : ∀ kb ∈ blocks, BlockValid kb.2
  consistent : ∀ a ∈ blocks, ∀ b ∈ blocks, Consistent a.2 b.2
  width : ∀ kb ∈ blocks, kb.1.length = w
  distinct : blocks.Pairwise fun a b => a.1 ≠ b.1

theorem pairwise_zip_left {α β : Type} {R : α → α → Prop} {l : List α} {r : List β}
    (h : l.Pairwise R) : (l.zip r).Pairwise fun a b => R a.1 b.1 := by
  induction l generalizing r with
  | nil => simp
  | cons a l ih =>
    cases r with
    | nil => simp
    | cons b r =>
      rw [List.pairwise_cons] at h
      rw [List.zip_cons_cons, List.pairwise_cons]
      exact ⟨fun x hx => h.1 _ (List.of_mem_zip hx).1, ih h.2⟩

theorem forall₂_zip {α β : Type} {R : α → β → Prop} {l : List α} {r : List β}
    (h : List.Forall₂ R l r) : ∀ p ∈ l.zip r, R p.1 p.2 := by
  induction h with
  | nil => simp
  | cons h _ ih =>
    rw [List.zip_cons_cons, List.forall_mem_cons]
    exact ⟨h, ih⟩

theorem map_fst_zip' {α β : Type} {l : List α} {r : List β} (h : l.length = r.length) :
    (l.zip r).map Prod.fst = l := by
  rw [List.map_fst_zip]; omega

theorem GroupOk.items {w : Nat} {blocks : List (List LabelValue × TensorBlock A)}
    (h : GroupOk w blocks) {addKey : Bool}
    {rename : List LabelValue → List LabelValue → List LabelValue}
    {mrows : List (List LabelValue)} {P' : Labels} {mappings : List (List SampleMapping)}
    {ranges : List (Option (Nat × Nat))}
    (hm : List.Forall₂ (fun kb mapping => MapsTo (Extends addKey kb.1) kb.2.values.samples.rows
        mrows mapping) blocks mappings)
    (hr : List.Forall₂ (fun kb (range : Option (Nat × Nat)) => ∀ s e, range = some (s, e) →
        e = s + kb.2.values.properties.rows.length ∧ e ≤ P'.rows.length ∧
        ∀ (j : Nat) p, kb.2.values.properties.rows[j]? = some p →
          P'.rows[s + j]? = some (rename kb.1 p)) blocks ranges)
    (hap : addKey = true ∨ ∀ a b : List LabelValue, a.length = w → b.length = w → a ≠ b →
      ∀ p p', rename a p ≠ rename b p') :
    ItemsOk addKey rename mrows P' w ((blocks.zip mappings).zip ranges) := by
  have hmem : ∀ it ∈ (blocks.zip mappings).zip ranges, it.1.1 ∈ blocks ∧ it.1 ∈ blocks.zip mappings := by
    intro it hit
    have h1 := (List.of_mem_zip (a := it.1) (b := it.2) hit).1
    exact ⟨(List.of_mem_zip (a := it.1.1) (b := it.1.2) h1).1, h1⟩
  refine ⟨fun it hit => h.valid _ (hmem it hit).1, fun it hit => h.width _ (hmem it hit).1, ?_,
    fun it hit => forall₂_zip hm _ (hmem it hit).2, ?_, hap⟩
  · exact pairwise_zip_left (pairwise_zip_left h.distinct)
  · intro it hit
    obtain ⟨i, hi, rfl⟩ := List.getElem_of_mem hit
    have hl1 := hm.length_eq
    have hl2 := hr.length_eq
    rw [List.length_zip, List.length_zip] at hi
    have hb : i < blocks.length := by omega
    have hrr : i < ranges.length := by omega
    have := (List.forall₂_iff_get.1 hr).2 i hb hrr
    simp only [List.getElem_zip]
    exact this

end

end Equistore
