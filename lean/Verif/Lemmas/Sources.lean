import Verif.Lemmas.MergeGradients

/-! Values at labelled positions after moving data. -/

namespace Equistore
open Spec NdArray

theorem entryAt_iff {l : Labels} (h : l.WF) {i : Nat} {e : List LabelValue} :
    EntryAt l i e ↔ l.rows[i]? = some e := by
  unfold EntryAt
  by_cases hi : i < l.rows.length
  · rw [Labels.Holds.index_eq h hi, List.getElem?_eq_getElem hi]; simp
  · rw [Labels.Holds.index_panic h hi, List.getElem?_eq_none (by omega)]; simp

/-- The entries `cs` are at positions `k` of the components. -/
def CompAt (C : List Labels) (k : List Nat) (cs : List (List LabelValue)) : Prop :=
  List.Forall₂ (fun (l : Labels) (ie : Nat × List LabelValue) => EntryAt l ie.1 ie.2)
      C (k.zip cs) ∧ k.length = cs.length

theorem CompAt.valid {C : List Labels} (hC : ∀ c ∈ C, c.WF) {k : List Nat}
    {cs : List (List LabelValue)} (h : CompAt C k cs) :
    ValidIdx (C.map fun c => c.rows.length) k := by
  obtain ⟨h1, h2⟩ := h
  induction C generalizing k cs with
  | nil =>
    have : k = [] := by
      cases k with
      | nil => rfl
      | cons a k => cases cs <;> simp at h1 h2
    subst this; exact .nil
  | cons c C ih =>
    cases k with
    | nil => simp at h1
    | cons i k =>
      cases cs with
      | nil => simp at h2
      | cons e cs =>
        rw [List.zip_cons_cons] at h1
        cases h1 with
        | cons h3 h4 =>
          rw [entryAt_iff (hC c List.mem_cons_self)] at h3
          exact .cons (List.getElem?_eq_some_iff.1 h3).1
            (ih (fun c h => hC c (List.mem_cons_of_mem _ h)) h4 (by simpa using h2))

theorem CompAt.unique {C : List Labels} (hC : ∀ c ∈ C, c.WF) {k k' : List Nat}
    {cs : List (List LabelValue)} (h : CompAt C k cs) (h' : CompAt C k' cs) : k = k' := by
  obtain ⟨h1, h2⟩ := h
  obtain ⟨h1', h2'⟩ := h'
  induction C generalizing k k' cs with
  | nil =>
    have hn : ∀ k : List Nat, List.Forall₂ (fun (l : Labels) (ie : Nat × List LabelValue) =>
        EntryAt l ie.1 ie.2) [] (k.zip cs) → k.length = cs.length → k = [] := by
      intro k h1 h2
      cases k with
      | nil => rfl
      | cons a k => cases cs <;> simp at h1 h2
    rw [hn k h1 h2, hn k' h1' h2']
  | cons c C ih =>
    cases cs with
    | nil => simp at h1
    | cons e cs =>
      cases k with
      | nil => simp at h2
      | cons i k =>
        cases k' with
        | nil => simp at h2'
        | cons i' k' =>
          rw [List.zip_cons_cons] at h1 h1'
          cases h1 with
          | cons h3 h4 =>
            cases h1' with
            | cons h3' h4' =>
              have hc := hC c List.mem_cons_self
              rw [entryAt_iff hc] at h3 h3'
              rw [show i = i' from getElem?_nodup_inj (Labels.Holds.nodup hc) h3 h3',
                ih (fun c h => hC c (List.mem_cons_of_mem _ h)) h4 (by simpa using h2) h4'
                  (by simpa using h2')]

/-- All the labels of a block are valid. -/
structure BlockWF {A : Type} (b : BasicBlock A) : Prop where
  samples : b.samples.WF
  components : ∀ c ∈ b.components, c.WF
  properties : b.properties.WF

theorem hasValue_iff {b : BasicBlock NdArray} (hb : BlockWF b) {s : List LabelValue}
    {cs : List (List LabelValue)} {p : List LabelValue} {x : Elt} :
    HasValue b s cs p x ↔ ∃ i k j, b.samples.rows[i]? = some s ∧ CompAt b.components k cs ∧
      b.properties.rows[j]? = some p ∧ b.data.get (i :: k ++ [j]) = x := by
  unfold HasValue
  constructor
  · rintro ⟨i, k, j, h1, h2, h3, h4, h5⟩
    exact ⟨i, k, j, (entryAt_iff hb.samples).1 h1, ⟨h2, h3⟩, (entryAt_iff hb.properties).1 h4, h5⟩
  · rintro ⟨i, k, j, h1, h2, h4, h5⟩
    exact ⟨i, k, j, (entryAt_iff hb.samples).2 h1, h2.1, h2.2, (entryAt_iff hb.properties).2 h4, h5⟩

/-- A block whose data is moved in a merged block. -/
structure Source where
  block : BasicBlock NdArray
  related : List LabelValue → List LabelValue → Prop
  mapping : List SampleMapping
  range : Option (Nat × Nat)
  rename : List LabelValue → List LabelValue

def Source.piece (q : Source) : Piece :=
  { input := q.block.data
    rows := q.block.samples.rows
    related := q.related
    mapping := q.mapping
    range := q.range
    props := q.block.properties.rows
    rename := q.rename }

/-- The source provides values for the given sample and property. -/
def Source.Provides (q : Source) (r' p' : List LabelValue) : Prop :=
  q.range ≠ none ∧ ∃ r ∈ q.block.samples.rows, ∃ p ∈ q.block.properties.rows,
    q.related r r' ∧ q.rename p = p'

theorem sources_spec {S P : Labels} {C : List Labels} (hS : S.WF) (hC : ∀ c ∈ C, c.WF) (hP : P.WF)
    {sources : List Source}
    (hok : ∀ q ∈ sources, q.piece.Ok S.rows (C.map fun c => c.rows.length) P.rows)
    (hd : (sources.map Source.piece).Pairwise Piece.Disjoint)
    (hcomp : ∀ q ∈ sources, q.range ≠ none → q.block.components = C ∧ BlockWF q.block)
    {a zeros : NdArray}
    (hz : zeros = NdArray.create a (S.rows.length :: (C.map fun c => c.rows.length) ++ [P.rows.length])) :
    ∃ out, moveAllProperties zeros (sources.map fun q => ((q.block.data, q.mapping), q.range)) = .ok out ∧
      out.WF ∧
      out.shape = S.rows.length :: (C.map fun c => c.rows.length) ++ [P.rows.length] ∧
      ∀ r' cs p' x, HasValue ⟨out, S, C, P⟩ r' cs p' x ↔
        ((∃ q ∈ sources, q.range ≠ none ∧ ∃ r p, q.related r r' ∧ q.rename p = p' ∧
          HasValue q.block r cs p x) ∨
        (x = 0 ∧ r' ∈ S.rows ∧ HasEntries C cs ∧ p' ∈ P.rows ∧ ∀ q ∈ sources, ¬ q.Provides r' p')) := by
  obtain ⟨out, e1, w, hs, hg⟩ := pieces_spec (outS := S.rows) (outP := P.rows)
    (mid := C.map fun c => c.rows.length) (Labels.Holds.nodup hS) (Labels.Holds.nodup hP)
    (pieces := sources.map Source.piece)
    (by intro q hq; obtain ⟨q, hq', rfl⟩ := List.mem_map.1 hq; exact hok q hq') hd
    (zeros := zeros) (by rw [hz]; rfl)
  refine ⟨out, ?_, w, hs, ?_⟩
  · rw [← e1, List.map_map]; rfl
  intro r' cs p' x
  have hb' : BlockWF (⟨out, S, C, P⟩ : BasicBlock NdArray) := ⟨hS, hC, hP⟩
  rw [hasValue_iff hb']
  constructor
  · rintro ⟨o, k, j, h1, h2, h3, h4⟩
    simp only at h1 h2 h3 h4
    obtain ⟨g1, g2⟩ := hg o r' k j p' h1 (h2.valid hC) h3
    by_cases hcov : ∃ q ∈ sources, q.Provides r' p'
    · left
      obtain ⟨q, hq, hne, r, hr, p, hp, h5, h6⟩ := hcov
      obtain ⟨i, hi, hi'⟩ := List.getElem_of_mem hr
      obtain ⟨l, hl, hl'⟩ := List.getElem_of_mem hp
      have hi2 : q.block.samples.rows[i]? = some r := by rw [List.getElem?_eq_getElem hi, hi']
      have hl2 : q.block.properties.rows[l]? = some p := by rw [List.getElem?_eq_getElem hl, hl']
      have := g1 q.piece (List.mem_map_of_mem hq) i l ⟨hne, r, p, hi2, h5, hl2, h6⟩
      rw [h4] at this
      obtain ⟨hc1, hc2⟩ := hcomp q hq hne
      refine ⟨q, hq, hne, r, p, h5, h6, (hasValue_iff hc2).2 ⟨i, k, l, hi2, by rw [hc1]; exact h2, hl2, this.symm⟩⟩
    · right
      refine ⟨?_, List.mem_of_getElem? h1, ⟨k, h2⟩, List.mem_of_getElem? h3, ?_⟩
      · rw [← h4]
        apply g2
        rintro q hq i l ⟨hne, r, p, h5, h6, h7, h8⟩
        obtain ⟨q, hq', rfl⟩ := List.mem_map.1 hq
        exact hcov ⟨q, hq', hne, r, List.mem_of_getElem? h5, p, List.mem_of_getElem? h7, h6, h8⟩
      · intro q hq hpr; exact hcov ⟨q, hq, hpr⟩
  · rintro (⟨q, hq, hne, r, p, h1, h2, h3⟩ | ⟨rfl, h1, ⟨k, h2⟩, h3, h4⟩)
    · obtain ⟨hc1, hc2⟩ := hcomp q hq hne
      obtain ⟨i, k, l, h4, h5, h6, h7⟩ := (hasValue_iff hc2).1 h3
      have ok := hok q hq
      obtain ⟨o, r2, _, h8, h9⟩ := (ok.mapping hne).spec i r h4
      have : r2 = r' := ok.functional r _ _ h9 h1
      subst this
      obtain ⟨⟨s, e⟩, hr⟩ := Option.ne_none_iff_exists'.1 hne
      have h10 := (ok.range s e hr).2.2 l p h6
      have h10 : P.rows[s + l]? = some p' := by rw [← h2]; exact h10
      rw [hc1] at h5
      obtain ⟨g1, _⟩ := hg o r2 k (s + l) p' h8 (h5.valid hC) h10
      refine ⟨o, k, s + l, h8, h5, h10, ?_⟩
      rw [← h7]
      exact g1 q.piece (List.mem_map_of_mem hq) i l ⟨hne, r, p, h4, h1, h6, h2⟩
    · obtain ⟨o, ho, ho'⟩ := List.getElem_of_mem h1
      obtain ⟨j, hj, hj'⟩ := List.getElem_of_mem h3
      have ho2 : S.rows[o]? = some r' := by rw [List.getElem?_eq_getElem ho, ho']
      have hj2 : P.rows[j]? = some p' := by rw [List.getElem?_eq_getElem hj, hj']
      obtain ⟨_, g2⟩ := hg o r' k j p' ho2 (CompAt.valid hC h2) hj2
      refine ⟨o, k, j, ho2, h2, hj2, ?_⟩
      apply g2
      rintro q hq i l ⟨hne, r, p, h5, h6, h7, h8⟩
      obtain ⟨q, hq', rfl⟩ := List.mem_map.1 hq
      exact h4 q hq' ⟨hne, r, List.mem_of_getElem? h5, p, List.mem_of_getElem? h7, h6, h8⟩

end Equistore
