import Verif.Lemmas.Interrupted
import Verif.Props.Archive

/-! What is in a file after saving. -/

namespace Equistore
open Spec
variable {A : Type} [ArrayLike A] {build build' : Build} {py : PyLiteral} {native : Endian} {hash : HashOrder}

theorem save_of_written {t : TensorMap A} {archive : Archive}
    (h : Written build py native (tensorParts hash t) archive) : save build py native hash t = .ok archive := by
  rw [save_eq, mapM_eq_ok, tensorItems_parts, List.forall₂_map_left_iff]
  refine List.Forall₂.imp ?_ h
  rintro x entry ⟨bytes, h1, rfl⟩
  unfold writeItem
  rw [h1]
  rfl

theorem basicStorable_of_write {b : BasicBlock A} {bytes : Bytes} (hs : BasicSound b)
    (h : writeData build py native b.data = .ok bytes) : BasicStorable b := by
  obtain ⟨dims, elements, h1, h2⟩ := writeData_ok h
  obtain ⟨h3, h4⟩ := hs.data dims elements h1 h2
  exact ⟨hs.labels, dims, elements, h1, h2, h3, h4⟩

theorem storable_of_written {t : TensorMap A} (hv : TensorValid t) (hs : Sound t) {archive : Archive}
    (h : Written build py native (tensorParts hash t) archive) : Storable t := by
  refine ⟨hs.keys, fun b hb => ?_, fun b hb p g hg => ?_⟩
  · obtain ⟨i, hi, he⟩ := List.getElem_of_mem hb
    have hi' : t.blocks[i]? = some b := by rw [List.getElem?_eq_getElem hi, he]
    have hm : ((.values i .data, .data b.values.data) : Part × SaveSource A) ∈ tensorParts hash t :=
      mem_tensorParts.2 (.inr ⟨b, i, hi', .inl ⟨_, _, .data, rfl⟩⟩)
    obtain ⟨entry, -, bytes, h1, -⟩ := forall₂_mem_left h hm
    exact basicStorable_of_write (hs.values b hb) h1
  · obtain ⟨i, hi, he⟩ := List.getElem_of_mem hb
    have hi' : t.blocks[i]? = some b := by rw [List.getElem?_eq_getElem hi, he]
    have hg' := (gradient_eq_some (hv.blocks b hb).names).1 hg
    have hm : ((.gradient i p .data, .data g.data) : Part × SaveSource A) ∈ tensorParts hash t :=
      mem_tensorParts.2 (.inr ⟨b, i, hi', .inr ⟨p, g, _, _, hg', .data, by simp, rfl⟩⟩)
    obtain ⟨entry, -, bytes, h1, -⟩ := forall₂_mem_left h hm
    exact basicStorable_of_write (hs.gradients b hb p g hg) h1

/-- A complete archive is loaded back. -/
theorem load_written (hpy : LawfulPy py) {t : TensorMap A} (hv : TensorValid t) (hs : Sound t) {archive : Archive}
    (h : Written build py native (tensorParts hash t) archive) (hash1 hash2 : HashOrder) :
    ∃ t', load build' py hash1 hash2 archive = .ok t' ∧ SameContent t t' :=
  load_save hpy hv (storable_of_written hv hs h) hs.names (save_of_written h) hash1 hash2

/-- The entries in the archive, when `save` is done. -/
theorem saveTo_result {t : TensorMap A} {left : Option Nat} {w : ZipWriter} {r : Res Unit}
    (h : saveTo build py native hash t ⟨[], none, left⟩ = (w, r)) :
    (left = none → w.left = none) ∧
    (Written build py native (tensorParts hash t) w.entries ∨
     r ≠ .ok () ∧ ∃ before part source archive content, Stopped build py native t hash before part source archive content ∧
       w.entries = stoppedEntries part archive content ∧ (content = none → w.left = some 0)) := by
  rw [saveTo_eq, Act.bind_def] at h
  rcases h1 : writeParts build py native (tensorParts hash t) ⟨[], none, left⟩ with ⟨w1, r1⟩
  rw [h1] at h
  obtain ⟨hn, h2⟩ := writeParts_result h1
  rcases h2 with ⟨rfl, archive, hw, he⟩ | ⟨hr, before, part, source, after, archive, hp, hw, he⟩
  · have he : w1.entries = archive := he
    simp only [ZipWriter.finish] at h
    split at h
    · cases h
      exact ⟨hn, .inl (he ▸ hw)⟩
    · cases h
      refine ⟨fun hl => ?_, .inl ?_⟩
      · show w1.left.map (· - 1) = none
        rw [hn hl]
        rfl
      · have : (⟨w1.finished, w1.current, w1.left.map (· - 1)⟩ : ZipWriter).entries = w1.entries := rfl
        rw [this, he]
        exact hw
  · have hwr : w = w1 ∧ r ≠ .ok () := by
      cases r1 with
      | ok u => exact absurd rfl hr
      | err e => cases h; exact ⟨rfl, by simp⟩
      | panic m => cases h; exact ⟨rfl, by simp⟩
    obtain ⟨rfl, hr'⟩ := hwr
    refine ⟨hn, .inr ⟨hr', before, part, source, archive, ?_⟩⟩
    rcases he with ⟨he, hl⟩ | ⟨content, hi, he, -⟩
    · refine ⟨none, ⟨⟨after, hp⟩, hw, fun c hc => by cases hc⟩, ?_, fun _ => hl⟩
      rw [he]
      simp [stoppedEntries, ZipWriter.entries]
    · refine ⟨some content, ⟨⟨after, hp⟩, hw, fun c hc => ?_⟩, ?_, fun h => by cases h⟩
      · cases hc
        exact hi
      · rw [he]
        simp [stoppedEntries, ZipWriter.entries]

end Equistore
