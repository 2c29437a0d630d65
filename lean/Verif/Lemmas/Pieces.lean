import Verif.Lemmas.MergeRows
import Verif.Lemmas.NdArray
import Verif.Spec.Merge

/-! Moving the data of several blocks in a new array. -/

namespace Equistore
open Spec NdArray

/-- Data of one block, to be moved in a larger array. -/
structure Piece where
  input : NdArray
  rows : List (List LabelValue)
  related : List LabelValue → List LabelValue → Prop
  mapping : List SampleMapping
  range : Option (Nat × Nat)
  props : List (List LabelValue)
  rename : List LabelValue → List LabelValue

def Piece.item (q : Piece) : (NdArray × List SampleMapping) × Option (Nat × Nat) :=
  ((q.input, q.mapping), q.range)

structure Piece.Ok (outS : List (List LabelValue)) (mid : List Nat) (outP : List (List LabelValue))
    (q : Piece) : Prop where
  shape : q.range ≠ none → q.input.shape = q.rows.length :: mid ++ [q.props.length]
  rows : q.range ≠ none → q.rows.Nodup
  mapping : q.range ≠ none → MapsTo q.related q.rows outS q.mapping
  functional : ∀ r a b, q.related r a → q.related r b → a = b
  injective : q.range ≠ none → ∀ r ∈ q.rows, ∀ s ∈ q.rows, ∀ a, q.related r a → q.related s a → r = s
  range : ∀ s e, q.range = some (s, e) → e = s + q.props.length ∧ e ≤ outP.length ∧
    ∀ (j : Nat) p, q.props[j]? = some p → outP[s + j]? = some (q.rename p)

/-- The value at a position comes from this piece. -/
def Piece.Covers (q : Piece) (r' p' : List LabelValue) (i j : Nat) : Prop :=
  q.range ≠ none ∧ ∃ r p, q.rows[i]? = some r ∧ q.related r r' ∧ q.props[j]? = some p ∧ q.rename p = p'

/-- Two pieces are never moved to the same place. -/
def Piece.Disjoint (q q' : Piece) : Prop :=
  q.range ≠ none → q'.range ≠ none →
    (∀ r ∈ q.rows, ∀ r' ∈ q'.rows, ∀ o, q.related r o → q'.related r' o → False) ∨
    (∀ p ∈ q.props, ∀ p' ∈ q'.props, q.rename p ≠ q'.rename p')

theorem some_ne_none' {α : Type} {o : Option α} {a : α} (h : o = some a) : o ≠ none := by
  rw [h]; simp

theorem pieces_spec {outS : List (List LabelValue)} {mid : List Nat}
    {outP : List (List LabelValue)} (hS : outS.Nodup) (hP : outP.Nodup) {pieces : List Piece}
    (hok : ∀ q ∈ pieces, q.Ok outS mid outP) (hd : pieces.Pairwise Piece.Disjoint)
    {zeros : NdArray} (hz : zeros = NdArray.create zeros (outS.length :: mid ++ [outP.length])) :
    ∃ out, moveAllProperties zeros (pieces.map Piece.item) = .ok out ∧ out.WF ∧
      out.shape = outS.length :: mid ++ [outP.length] ∧
      ∀ (o : Nat) r' k (j : Nat) p', outS[o]? = some r' → ValidIdx mid k → outP[j]? = some p' →
        (∀ q ∈ pieces, ∀ i l, q.Covers r' p' i l →
          out.get (o :: k ++ [j]) = q.input.get (i :: k ++ [l])) ∧
        ((∀ q ∈ pieces, ∀ i l, ¬ q.Covers r' p' i l) → out.get (o :: k ++ [j]) = 0) := by
  have hzs : zeros.shape = outS.length :: mid ++ [outP.length] := by rw [hz]; rfl
  have hzw : zeros.WF := by rw [hz]; exact build_wf _ _
  have hitem : ∀ it ∈ pieces.map Piece.item, ∀ s e, it.2 = some (s, e) →
      MoveOk outS.length mid outP.length it.1.1 it.1.2 s e := by
    intro it hit s e hr
    obtain ⟨q, hq, rfl⟩ := List.mem_map.1 hit
    have hr' : q.range = some (s, e) := hr
    have hne := some_ne_none' hr'
    have ok := hok q hq
    obtain ⟨h1, h2, h3⟩ := ok.range s e hr'
    refine ⟨by omega, h2, ⟨q.rows.length, ?_, ?_⟩, ?_⟩
    · rw [show e - s = q.props.length by omega]; exact ok.shape hne
    · intro m hm
      obtain ⟨_, r, r', h4, h5, _⟩ := (ok.mapping hne).mem hm
      exact ⟨(List.getElem?_eq_some_iff.1 h4).1, (List.getElem?_eq_some_iff.1 h5).1⟩
    · exact (ok.mapping hne).nodup (ok.rows hne) (ok.injective hne)
  have hdis : (pieces.map Piece.item).Pairwise MoveDisjoint := by
    rw [List.pairwise_map]
    refine List.Pairwise.imp_of_mem ?_ hd
    intro q q' hq hq' hdd s e s' e' hr hr' m hm m' hm' ho j hj1 hj2 hj3 hj4
    have hr1 : q.range = some (s, e) := hr
    have hr2 : q'.range = some (s', e') := hr'
    have hne := some_ne_none' hr1
    have hne' := some_ne_none' hr2
    have ok := hok q hq
    have ok' := hok q' hq'
    obtain ⟨_, r, ro, h4, h5, h6⟩ := (ok.mapping hne).mem hm
    obtain ⟨_, r', ro', h4', h5', h6'⟩ := (ok'.mapping hne').mem hm'
    rw [ho, h5', Option.some.injEq] at h5
    subst h5
    obtain ⟨h1, h2, h3⟩ := ok.range s e hr1
    obtain ⟨h1', h2', h3'⟩ := ok'.range s' e' hr2
    rcases hdd hne hne' with hdd | hdd
    · exact absurd h6' (hdd r (List.mem_of_getElem? h4) r' (List.mem_of_getElem? h4') ro' h6)
    · have hj : j - s < q.props.length := by omega
      have hj' : j - s' < q'.props.length := by omega
      have e1 := h3 _ _ (List.getElem?_eq_getElem hj)
      have e2 := h3' _ _ (List.getElem?_eq_getElem hj')
      rw [show s + (j - s) = j by omega] at e1
      rw [show s' + (j - s') = j by omega, e1, Option.some.injEq] at e2
      exact hdd _ (List.getElem_mem hj) _ (List.getElem_mem hj') e2
  obtain ⟨out, e1, w, hs, g1, g2⟩ := moveAllProperties_spec hitem hdis hzw hzs
  refine ⟨out, e1, w, hs.trans hzs, ?_⟩
  intro o r' k j p' ho hk hj
  have ho' := (List.getElem?_eq_some_iff.1 ho).1
  have hj' := (List.getElem?_eq_some_iff.1 hj).1
  constructor
  · rintro q hq i l ⟨hne, r, p, h1, h2, h3, h4⟩
    obtain ⟨⟨s, e⟩, hr⟩ := Option.ne_none_iff_exists'.1 hne
    have ok := hok q hq
    obtain ⟨h5, h6, h7⟩ := ok.range s e hr
    have hj2 := h7 l p h3
    rw [h4] at hj2
    have hjl : j = s + l := getElem?_nodup_inj hP hj hj2
    obtain ⟨o2, r2, h8, h9, h10⟩ := (ok.mapping hne).spec i r h1
    have : r2 = r' := ok.functional r _ _ h10 h2
    subst this
    have : o = o2 := getElem?_nodup_inj hS ho h9
    subst this
    have hl := (List.getElem?_eq_some_iff.1 h3).1
    have := g2 q.item (List.mem_map_of_mem hq) s e hr ⟨i, o⟩ (List.mem_of_getElem? h8) k j hk
      (by omega) (by omega)
    rw [this, show j - s = l by omega]
    rfl
  · intro hno
    rw [g1 o k j ho' hk hj']
    · rw [hz]; exact create_get _ (validIdx_mk ho' hk hj')
    · intro it hit s e hr hsj hje m hm hmo
      obtain ⟨q, hq, rfl⟩ := List.mem_map.1 hit
      have hr' : q.range = some (s, e) := hr
      have hne := some_ne_none' hr'
      have ok := hok q hq
      obtain ⟨h5, h6, h7⟩ := ok.range s e hr'
      obtain ⟨_, r, r2, h8, h9, h10⟩ := (ok.mapping hne).mem hm
      rw [hmo, ho, Option.some.injEq] at h9
      subst h9
      have hl : j - s < q.props.length := by omega
      have hj2 := h7 _ _ (List.getElem?_eq_getElem hl)
      rw [show s + (j - s) = j by omega, hj, Option.some.injEq] at hj2
      exact hno q hq m.input (j - s) ⟨hne, r, _, h8, h10, List.getElem?_eq_getElem hl, hj2.symm⟩

end Equistore
