import Verif.Props.PyLabels

/-!
# C61: `position` never gives a wrong position

For all labels a program can have, also views and copies made by indexing.
-/

namespace Equistore

open Spec

private theorem new_eqsLabels {names : List String} {values : ValuesArg} {c : Option CLabels} {v : PyLabels}
    (h : PyLabels.new names values c = .ok v) : v.eqsLabels = c := by
  unfold PyLabels.new at h
  split at h
  · cases h
  · split at h
    · split at h
      · cases h
      · split at h
        · cases h
        · simp only at h
          split at h
          · cases h; rfl
          · split at h
            · cases h
            · split at h
              · cases h
              · cases h; rfl
    · cases h

private theorem getItem_eqsLabels {v v' : PyLabels} {i : LabelsIndex} (h : v.getItem i = .ok v') : v'.eqsLabels = none := by
  unfold PyLabels.getItem at h
  split at h
  · split at h
    · cases h
    · cases h; rfl
  · split at h
    · cases h
    · cases h; rfl
  · split at h
    · cases h
    · split at h
      · cases h
      · cases h; rfl

private theorem position_none {v : PyLabels} (h : v.eqsLabels = none) (label : List Int) : v.position label = .error .exception := by
  unfold PyLabels.position
  rw [h]

/-- **C61.** Whatever labels a program has: if `position` gives a result for values which fit in 32 bits, the result is the position of
these values in the labels, as the program sees them, and `None` only if they are not there; the same for `in`. -/
theorem C61_position_right (v : PyLabels) (h : Obtained (fun _ => True) (fun _ => True) v) (label : List Int) (hfit : ∀ x ∈ label, Fits x) :
    (∀ r, v.position label = .ok r → ∃ entries, v.entries = some entries ∧ ∀ i, r = some i ↔ IsEntry entries i label) ∧
    (∀ b, v.contains label = .ok b → ∃ entries, v.entries = some entries ∧ (b = true ↔ ∃ i, IsEntry entries i label)) := by
  have hmain : v.eqsLabels = none ∨ ∃ (l : Labels) (c : CLabels), l.FromBuilder ∧ l.names ≠ [] ∧ l.iter ≠ .ok [] ∧ l.toC = .ok c ∧ PyLabels.ofC c = .ok v := by
    cases h with
    | new _ _ h => exact .inl (new_eqsLabels h)
    | @library l c _ hl hn hc hv =>
      have hw := hl.wf hn
      by_cases h0 : l.iter = .ok []
      · left
        rw [hw.iter_eq, Res.ok.injEq] at h0
        have := PyLabels.ofC_eq hw hn hc
        rw [if_pos h0, hv] at this
        cases this
        rfl
      · exact .inr ⟨l, c, hl, hn, h0, hc, hv⟩
    | index _ _ h => exact .inl (getItem_eqsLabels h)
  rcases hmain with hnone | ⟨l, c, hl, hn, h0, hc, hv⟩
  · constructor
    · intro r hr
      rw [position_none hnone] at hr
      cases hr
    · intro b hb
      unfold PyLabels.contains at hb
      rw [position_none hnone] at hb
      cases hb
  · obtain ⟨c', v', entries, h1, h2, -, -, h3, -, h4, h5⟩ := C61_read_back_partial l hl hn h0
    obtain rfl : c = c' := by rw [hc] at h1; cases h1; rfl
    obtain rfl : v = v' := by rw [hv] at h2; cases h2; rfl
    by_cases hlen : label.length = l.names.length
    · obtain ⟨⟨r, h6, h7⟩, b, h8, h9⟩ := h4 label hlen hfit
      constructor
      · intro r' hr
        rw [h6] at hr
        cases hr
        exact ⟨entries, h3, h7⟩
      · intro b' hb
        rw [h8] at hb
        cases hb
        exact ⟨entries, h3, h9⟩
    · constructor
      · intro r hr
        rw [h5 label hlen] at hr
        cases hr
      · intro b hb
        unfold PyLabels.contains at hb
        rw [h5 label hlen] at hb
        cases hb

/-- **C61.** `position` and `in` raise an exception for labels which were created in Python, and for everything taken from labels by
indexing, whatever was taken. -/
theorem C61_position_refused (v v' : PyLabels) (label : List Int) (i : LabelsIndex) (names : List String) (values : ValuesArg) :
    (PyLabels.new names values none = .ok v → v.position label = .error .exception ∧ v.contains label = .error .exception) ∧
    (v.getItem i = .ok v' → v'.position label = .error .exception ∧ v'.contains label = .error .exception) := by
  have key : ∀ w : PyLabels, w.eqsLabels = none → w.position label = .error .exception ∧ w.contains label = .error .exception := by
    intro w hw
    refine ⟨position_none hw label, ?_⟩
    unfold PyLabels.contains
    rw [position_none hw]
    rfl
  exact ⟨fun h => key v (new_eqsLabels h), fun h => key v' (getItem_eqsLabels h)⟩

/-- Non-vacuity of `C61_position_right`: labels of the library where one entry is found and another is not. -/
example : ∃ v : PyLabels, Obtained (fun _ => True) (fun _ => True) v ∧ v.position [3, 4] = .ok (some 1) ∧ v.position [3, 5] = .ok none ∧
    v.contains [3, 4] = .ok true := by
  let l := Labels.mk' ["a", "b"] [[1, 2], [3, 4]]
  have hb : l.FromBuilder := ⟨["a", "b"], [[1, 2], [3, 4]], by decide +kernel⟩
  have h : l.toC = .ok ⟨some l, some [[97, 0], [98, 0]], some [1, 2, 3, 4], 2, 2⟩ := by decide +kernel
  exact ⟨PyLabels.ofMemory ["a", "b"] [1, 2, 3, 4] 2 (some ⟨some l, some [[97, 0], [98, 0]], some [1, 2, 3, 4], 2, 2⟩),
    .library hb (by decide +kernel) h (by decide +kernel), by decide +kernel, by decide +kernel, by decide +kernel⟩

open PyLabels.Example in
/-- Non-vacuity of `C61_position_refused`: the labels and the index exist. -/
example : (∃ names values, PyLabels.new names values none = .ok labels) ∧
    (∃ v', labels.getItem (.positions [2, 0]) = .ok v' ∧ v'.entries = some [[5, 6], [1, 2]]) :=
  ⟨⟨_, _, labels_new⟩, ⟨PyLabels.ofMemory ["a", "b"] [5, 6, 1, 2] 2 none, by decide +kernel⟩⟩

end Equistore
