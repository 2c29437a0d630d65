import Verif.Spec.CApi
import Verif.Lemmas.CMemory
import Verif.Lemmas.Labels
import Verif.Lemmas.Res
import Verif.Lemmas.Blocks

/-!
# Conversion of labels from and to the C structure
-/

namespace Equistore
open Spec

theorem decodeName_of {memory : Bytes} {s : String} (h : IsCString memory s) :
    decodeName memory = .ok s := by
  obtain ⟨h0, rest, rfl⟩ := h
  unfold decodeName
  have := cstrStr_append h0 rest
  unfold utf8Bytes at this
  rw [this]
  rfl

theorem mapM_decodeName {memory : List Bytes} {names : List String}
    (h : List.Forall₂ IsCString memory names) : memory.mapM decodeName = .ok names :=
  mapM_eq_ok.2 (h.imp fun _ _ h => decodeName_of h)

/-- Importing a C structure is building labels with the names and entries it describes. -/
theorem ofC_eq_build {c : CLabels} {names : List String} {entries : List (List LabelValue)}
    (h : Describes c names entries) (hn : names ≠ []) : Labels.ofC c = Labels.build names entries := by
  have hpos : 0 < names.length := List.length_pos_iff.2 hn
  obtain ⟨memory, rest, hmem, hcs⟩ := h.names
  have hlen := hcs.length_eq
  have htake : (memory ++ rest).take names.length = memory := by
    rw [← hlen]; simp
  have hslice : (c.values.getD []).take (c.count * names.length) = entries.flatten := by
    have hl := flatten_length_const h.rows
    rcases h.values with ⟨hv, he⟩ | ⟨r, hv⟩
    · subst he; simp [hv]
    · rw [hv, h.count, ← hl]; simp
  have hguard : (!(c.values.isNone && decide (c.count > 0))) = true := by
    rcases h.values with ⟨hv, he⟩ | ⟨r, hv⟩
    · subst he; simp [h.count]
    · simp [hv]
  unfold Labels.ofC Labels.build
  simp only [hmem, hguard, htake, hslice, mapM_decodeName hcs, h.size, Res.okOr, Res.guardErr,
    Res.ok_bind, if_true]
  congr 1
  funext b
  congr 1
  by_cases he : entries.flatten.isEmpty
  · rw [if_pos he]
    have : entries = [] := by
      cases entries with
      | nil => rfl
      | cons e es =>
        exfalso
        have := h.rows e (by simp)
        simp only [List.isEmpty_iff, List.flatten_eq_nil_iff, List.mem_cons, forall_eq_or_imp] at he
        rw [he.1] at this
        simp at this
        omega
    subst this
    rfl
  · rw [if_neg he, chunksExact_flatten hpos h.rows]

theorem Labels.Holds.toC {l : Labels} {names : List String} {rows : List (List LabelValue)}
    (h : l.Holds names rows) :
    l.toC = .ok { labelsPtr := some l, names := some (names.map cstring),
                  values := if rows = [] then none else some rows.flatten,
                  size := names.length, count := rows.length } := by
  unfold Labels.toC
  have hs : (l.size == 0) = false := by simpa using h.size_ne_zero
  simp only [h.count_eq, Res.ok_bind, hs, Bool.or_false]
  by_cases hr : rows = []
  · subst hr
    simp [h.size_eq, h.names_eq]
  · have h0 : (rows.length == 0) = false := by simpa using hr
    have hlt : 0 < rows.length := List.length_pos_iff.2 hr
    have h1 : (rows[0]).length = names.length := h.row_length _ (List.getElem_mem hlt)
    have hpos : 0 < names.length := by
      have := h.size_ne_zero; rw [h.size_eq] at this; omega
    have h2 : ∃ v, (rows[0])[0]? = some v := ⟨_, List.getElem?_eq_getElem (by omega)⟩
    obtain ⟨v, hv⟩ := h2
    simp [h0, h.index_eq hlt, hv, hr, h.size_eq, h.names_eq, h.values_eq, Res.expect]

theorem identifier_no_nul {s : String} (h : Identifier s) : '\x00' ∉ s.toList := by
  obtain ⟨c, cs, hs, h1, h2⟩ := h
  rw [hs]
  have key : ¬ IdentRest '\x00' := by
    unfold IdentRest IdentStart; decide
  simp only [List.mem_cons, not_or]
  refine ⟨?_, fun hm => key (h2 _ hm)⟩
  rintro rfl
  exact key (.inl h1)

theorem isCString_cstring {s : String} (h : '\x00' ∉ s.toList) : IsCString (cstring s) s :=
  ⟨h, [], rfl⟩

end Equistore
