import Verif.Model.Tensor
import Verif.Spec.Merge
import Verif.Lemmas.Labels
import Mathlib.Data.List.Dedup

namespace Equistore
open Spec

/-! ### Lexicographic order -/

theorem Int32.trichotomy (a b : Int32) : a < b ∨ a = b ∨ b < a := by
  rw [Int32.lt_iff_toInt_lt, Int32.lt_iff_toInt_lt, ← Int32.toInt_inj]; omega

theorem Int32.lt_asymm' {a b : Int32} (h : a < b) : ¬ b < a := by
  rw [Int32.lt_iff_toInt_lt] at *; omega

theorem lexLe_iff (a b : List LabelValue) : lexLe a b = true ↔ (a < b ∨ a = b) := by
  induction a generalizing b with
  | nil => cases b <;> simp [lexLe]
  | cons x a ih =>
    cases b with
    | nil => simp [lexLe]
    | cons y b =>
      simp only [lexLe, List.cons_lt_cons_iff, List.cons.injEq]
      by_cases h1 : x < y
      · simp [h1]
      · by_cases h2 : y < x
        · have : x ≠ y := by rintro rfl; exact Int32.lt_irrefl h2
          simp [h1, h2, this]
        · have : x = y := by rcases Int32.trichotomy x y with h | h | h <;> tauto
          subst this
          simp [h1, ih]

theorem rows_lt_trans {a b c : List LabelValue} (h : a < b) (h' : b < c) : a < c :=
  List.lt_trans h h'

theorem lexLe_trans (a b c : List LabelValue) (h : lexLe a b = true) (h' : lexLe b c = true) :
    lexLe a c = true := by
  rw [lexLe_iff] at *
  rcases h with h | rfl
  · rcases h' with h' | rfl
    · exact Or.inl (rows_lt_trans h h')
    · exact Or.inl h
  · exact h'

theorem rows_total (a b : List LabelValue) : a < b ∨ a = b ∨ b < a := by
  induction a generalizing b with
  | nil => cases b <;> simp
  | cons x a ih =>
    cases b with
    | nil => simp
    | cons y b =>
      simp only [List.cons_lt_cons_iff, List.cons.injEq]
      rcases Int32.trichotomy x y with h | rfl | h
      · simp [h]
      · rcases ih b with h | h | h <;> simp [h]
      · simp [h]

theorem lexLe_total (a b : List LabelValue) : (lexLe a b || lexLe b a) = true := by
  rw [Bool.or_eq_true, lexLe_iff, lexLe_iff]
  rcases rows_total a b with h | h | h <;> simp [h]

theorem insertRow_perm (r : List LabelValue) (l : List (List LabelValue)) :
    (insertRow r l).Perm (r :: l) := by
  induction l with
  | nil => exact .refl _
  | cons a l ih =>
    unfold insertRow
    split
    · exact .refl _
    · exact (ih.cons a).trans (.swap r a l)

theorem sortRows_perm (l : List (List LabelValue)) : (sortRows l).Perm l := by
  induction l with
  | nil => exact .refl _
  | cons a l ih => exact (insertRow_perm a _).trans (ih.cons a)

theorem insertRow_sorted {r : List LabelValue} {l : List (List LabelValue)}
    (h : l.Pairwise fun a b => lexLe a b = true) :
    (insertRow r l).Pairwise fun a b => lexLe a b = true := by
  induction l with
  | nil => simp [insertRow]
  | cons a l ih =>
    rw [List.pairwise_cons] at h
    unfold insertRow
    split
    · rename_i hr
      rw [List.pairwise_cons]
      refine ⟨?_, List.pairwise_cons.2 h⟩
      intro b hb
      rcases List.mem_cons.1 hb with rfl | hb
      · exact hr
      · exact lexLe_trans _ _ _ hr (h.1 b hb)
    · rename_i hr
      rw [List.pairwise_cons]
      refine ⟨?_, ih h.2⟩
      intro b hb
      rcases List.mem_cons.1 ((insertRow_perm r l).mem_iff.1 hb) with rfl | hb
      · have := lexLe_total b a
        simpa [hr] using this
      · exact h.1 b hb

theorem sortRows_le (l : List (List LabelValue)) :
    (sortRows l).Pairwise fun a b => lexLe a b = true := by
  induction l with
  | nil => exact .nil
  | cons a l ih => exact insertRow_sorted ih

/-- Sorting distinct rows gives strictly increasing rows. -/
theorem sortRows_sorted {l : List (List LabelValue)} (h : l.Nodup) :
    (sortRows l).Pairwise (· < ·) := by
  have h1 : (sortRows l).Pairwise fun a b => lexLe a b = true :=
    sortRows_le l
  have h2 : (sortRows l).Nodup := (sortRows_perm l).nodup_iff.2 h
  refine List.Pairwise.imp₂ ?_ h1 h2
  intro a b hab hne
  rw [lexLe_iff] at hab
  rcases hab with h | h
  · exact h
  · exact absurd h hne

/-! ### Distinct elements in order of appearance -/

section
variable {α : Type} [DecidableEq α]

theorem mem_indexSet {l : List α} {x : α} : x ∈ indexSet l ↔ x ∈ l := by
  unfold indexSet; exact List.mem_eraseDups

theorem indexSet_cons (a : α) (l : List α) :
    indexSet (a :: l) = a :: indexSet (l.filter fun b => !b == a) := by
  unfold indexSet; exact List.eraseDups_cons

theorem indexSet_spec (l : List α) : FirstAppearances l (indexSet l) := by
  induction h : l.length using Nat.strongRecOn generalizing l with
  | _ n ih =>
    cases l with
    | nil => exact ⟨by simp [indexSet], by simp [indexSet], by simp [indexSet]⟩
    | cons a l =>
      have hlen : (l.filter fun b => !b == a).length < n := by
        have := List.length_filter_le (fun b => !b == a) l
        simp at h; omega
      have ih := ih _ hlen (l.filter fun b => !b == a) rfl
      rw [indexSet_cons]
      refine ⟨?_, ?_, ?_⟩
      · rw [List.nodup_cons]
        refine ⟨?_, ih.nodup⟩
        rw [ih.same]; simp
      · intro x
        rw [List.mem_cons, ih.same]
        simp only [List.mem_filter, List.mem_cons, Bool.not_eq_true', beq_eq_false_iff_ne, ne_eq]
        by_cases hx : x = a <;> simp [hx]
      · rw [List.pairwise_cons]
        constructor
        · intro y hy
          rw [ih.same] at hy
          have : y ≠ a := by simpa using (List.mem_filter.1 hy).2
          rw [List.idxOf_cons_self, List.idxOf_cons_ne _ (Ne.symm this)]
          omega
        · refine List.Pairwise.imp_of_mem ?_ ih.order
          intro x y hx hy hxy
          rw [ih.same] at hx hy
          obtain ⟨hx1, hx2⟩ := List.mem_filter.1 hx
          obtain ⟨hy1, hy2⟩ := List.mem_filter.1 hy
          have hxa : x ≠ a := by simpa using hx2
          have hya : y ≠ a := by simpa using hy2
          rw [List.idxOf_cons_ne _ (Ne.symm hxa), List.idxOf_cons_ne _ (Ne.symm hya)]
          refine Nat.succ_lt_succ ?_
          clear ih h hlen hx hy
          -- filtering keeps the relative order of first appearances
          induction l with
          | nil => simp at hx1
          | cons b l ih =>
            by_cases hb : b = a
            · subst hb
              rw [List.filter_cons_of_neg (by simp)] at hxy
              rw [List.idxOf_cons_ne _ (Ne.symm hxa), List.idxOf_cons_ne _ (Ne.symm hya)]
              refine Nat.succ_lt_succ (ih hxy ?_ ?_)
              · simpa [hxa] using hx1
              · simpa [hya] using hy1
            · rw [List.filter_cons_of_pos (by simpa using hb)] at hxy
              by_cases hbx : b = x
              · subst hbx
                by_cases hby : b = y
                · subst hby; simp at hxy
                · rw [List.idxOf_cons_self, List.idxOf_cons_ne _ hby]; omega
              · by_cases hby : b = y
                · subst hby
                  rw [List.idxOf_cons_self] at hxy; omega
                · rw [List.idxOf_cons_ne _ hbx, List.idxOf_cons_ne _ hby] at hxy ⊢
                  refine Nat.succ_lt_succ (ih (by omega) ?_ ?_)
                  · rcases List.mem_cons.1 hx1 with h | h
                    · exact absurd h.symm hbx
                    · exact h
                  · rcases List.mem_cons.1 hy1 with h | h
                    · exact absurd h.symm hby
                    · exact h

theorem indexSet_nodup (l : List α) : (indexSet l).Nodup := (indexSet_spec l).nodup

theorem indexSet_of_nodup {l : List α} (h : l.Nodup) : indexSet l = l := by
  induction l with
  | nil => rfl
  | cons a l ih =>
    rw [List.nodup_cons] at h
    rw [indexSet_cons]
    have : l.filter (fun b => !b == a) = l := by
      rw [List.filter_eq_self]
      intro b hb
      have : b ≠ a := by rintro rfl; exact h.1 hb
      simpa using this
    rw [this, ih h.2]

/-- The specification determines the list. -/
theorem FirstAppearances.unique {l r r' : List α} (h : FirstAppearances l r)
    (h' : FirstAppearances l r') : r = r' := by
  have hp : r.Perm r' := by
    rw [List.perm_ext_iff_of_nodup h.nodup h'.nodup]
    intro x; rw [h.same, h'.same]
  refine hp.eq_of_pairwise ?_ h.order h'.order
  intro a b _ _ h1 h2; omega

end

end Equistore
