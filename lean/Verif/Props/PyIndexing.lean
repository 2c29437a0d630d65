import Verif.Lemmas.PyIndexing
import Verif.Props.PyLabels

/-!
# Indexing labels in Python
-/

namespace Equistore
open Spec

theorem PyLabels.obtained_shows {allowedNames : List String → Prop} {allowedIndex : LabelsIndex → Prop} {v : PyLabels}
    (h : Obtained allowedNames allowedIndex v) : ∃ full, v.Shows full := by
  induction h with
  | @new names values v hn hc h =>
    obtain ⟨_, _, rows, h1, _, _, _, h3, _⟩ := PyLabels.new_eq_ok hc h
    refine ⟨rows, h1.shows h3 ?_⟩
    obtain ⟨names', memory, count, c, rfl⟩ : ∃ names' memory count c, v = PyLabels.ofMemory names' memory count c := by
      cases values with
      | other => cases h
      | array integers shape elements =>
        unfold PyLabels.new at h
        simp only at h
        repeat' split at h
        all_goals first | (cases h; exact ⟨_, _, _, _, rfl⟩) | cases h
    exact Nat.zero_le _
  | @library l c v hl hn hc h =>
    have hw := hl.wf hn
    rw [PyLabels.ofC_eq hw hn hc] at h
    cases h
    refine ⟨_, (PyLabels.canonical_ofMemory _ hw.row_length).shows ?_ (Nat.zero_le _)⟩
    rw [PyLabels.names_ofMemory]
    exact hw.names_ok.2
  | @index v i v' _ hi h ih =>
    obtain ⟨full, hs⟩ := ih
    cases i with
    | slice start stop step =>
      obtain ⟨-, _, -, -, h3, -⟩ := hs.slice h
      exact ⟨_, h3⟩
    | positions indices =>
      obtain ⟨_, -, -, -, h3, -⟩ := hs.positions h
      exact ⟨_, h3⟩
    | names names => exact ⟨_, (hs.select h).2.1⟩

/-- Labels the program can have, without restriction. -/
abbrev Spec.Any (v : PyLabels) : Prop := Obtained (fun _ => True) (fun _ => True) v

theorem entriesAt_pick {fields : List (String × Nat)} {full : List (List LabelValue)} {positions : List Nat}
    (h : ∀ p ∈ positions, p < full.length) :
    EntriesAt (full.map (PyLabels.pick fields)) positions
      ((positions.map fun p => full.getD p []).map (PyLabels.pick fields)) := by
  unfold EntriesAt
  rw [List.map_map, List.forall₂_map_right_iff, List.forall₂_same]
  intro p hp
  simp [h p hp]

/-- **C112**, slices: `labels[start:stop:step]` gives the entries at the documented positions, in order, with the same names. The only
exception is a `ValueError` for a step of 0. This is for all labels, in particular the result of other operations. -/
theorem C112_slice (v : PyLabels) (h : Any v) (start stop step : Option Int) :
    ∃ entries, v.entries = some entries ∧
      if step = some 0 then v.getItem (.slice start stop step) = .error .valueError
      else ∃ v' entries' positions, v.getItem (.slice start stop step) = .ok v' ∧ v'.names = v.names ∧
        v'.entries = some entries' ∧ SliceTakes entries.length start stop (step.getD 1) positions ∧
        EntriesAt entries positions entries' := by
  obtain ⟨full, hs⟩ := PyLabels.obtained_shows h
  refine ⟨_, hs.entries, ?_⟩
  split
  · next h0 =>
    unfold PyLabels.getItem
    simp only [PyLabels.sliceIndices_none.2 h0]
  · next h0 =>
    have : ∃ v', v.getItem (.slice start stop step) = .ok v' := by
      unfold PyLabels.getItem
      cases hi : sliceIndices v.count start stop step with
      | none => exact absurd (PyLabels.sliceIndices_none.1 hi) h0
      | some q =>
        simp only [hi]
        exact ⟨_, rfl⟩
    obtain ⟨v', hv⟩ := this
    obtain ⟨h1, positions, h2, h3, h4, h5, -⟩ := hs.slice hv
    refine ⟨v', _, positions, hv, h1, h4.entries, by simpa using h2, ?_⟩
    rw [h5]
    exact entriesAt_pick h3

/-- **C112**, positions: `labels[[2, 0, -1]]` gives the entries at these positions, in this order, with the same names. Negative positions count
from the end. The only exception is an `IndexError` if there is no entry at one of the positions. -/
theorem C112_positions (v : PyLabels) (h : Any v) (indices : List Int) :
    ∃ entries, v.entries = some entries ∧
      if ∃ i ∈ indices, ¬ (0 ≤ fromEnd entries.length i ∧ fromEnd entries.length i < entries.length) then
        v.getItem (.positions indices) = .error .indexError
      else ∃ v' entries', ∃ positions : List Nat, v.getItem (.positions indices) = .ok v' ∧ v'.names = v.names ∧
        v'.entries = some entries' ∧ positions.map Int.ofNat = indices.map (fromEnd entries.length) ∧
        EntriesAt entries positions entries' := by
  obtain ⟨full, hs⟩ := PyLabels.obtained_shows h
  refine ⟨_, hs.entries, ?_⟩
  rw [List.length_map]
  split
  · next h0 =>
    simp only [PyLabels.getItem]
    rw [hs.count, PyLabels.wrapIndices_none.2 h0]
  · next h0 =>
    have : ∃ v', v.getItem (.positions indices) = .ok v' := by
      simp only [PyLabels.getItem]
      rw [hs.count]
      cases hm : indices.mapM (wrapIndex full.length) with
      | none => exact absurd (PyLabels.wrapIndices_none.1 hm) h0
      | some => exact ⟨_, rfl⟩
    obtain ⟨v', hv⟩ := this
    obtain ⟨positions, hp, h1, h2, h3, h4, -⟩ := hs.positions hv
    refine ⟨v', _, positions, hv, h2, h3.entries, hp, ?_⟩
    rw [h4]
    exact entriesAt_pick h1

theorem PyLabels.pick_select {fields selected : List (String × Nat)} (hsub : ∀ f ∈ selected, f ∈ fields)
    (r : List LabelValue) :
    ValuesOf (fields.map Prod.fst) (PyLabels.pick fields r) (selected.map Prod.fst) (PyLabels.pick selected r) := by
  unfold ValuesOf
  unfold PyLabels.pick
  rw [List.forall₂_map_left_iff, List.forall₂_map_right_iff, List.forall₂_same]
  intro f hf
  obtain ⟨i, hi, he⟩ := List.getElem_of_mem (hsub f hf)
  exact ⟨i, by simp [hi, he], by simp [hi, he]⟩

/-- **C112**, names: `labels[["b", "a"]]` gives the values with these names, in this order, for all entries. The exceptions are a `KeyError` if
a name is missing, and a `ValueError` if a name is repeated or there are none. -/
theorem C112_names (v : PyLabels) (h : Any v) (names : List String) :
    ∃ entries, v.entries = some entries ∧
      if names = [] ∨ ¬ names.Nodup then v.getItem (.names names) = .error .valueError
      else if ∃ n ∈ names, n ∉ v.names then v.getItem (.names names) = .error .keyError
      else ∃ v' entries', v.getItem (.names names) = .ok v' ∧ v'.names = names ∧
        v'.entries = some entries' ∧ List.Forall₂ (fun e e' => ValuesOf v.names e names e') entries entries' := by
  obtain ⟨full, hs⟩ := PyLabels.obtained_shows h
  refine ⟨_, hs.entries, ?_⟩
  split
  · next h0 =>
    simp only [PyLabels.getItem]
    rw [if_pos]
    simpa using h0
  · next h0 =>
    have h0' : ¬(names.isEmpty || !decide names.Nodup) = true := by simpa using h0
    split
    · next h1 =>
      obtain ⟨n, hn, hnot⟩ := h1
      simp only [PyLabels.getItem]
      rw [if_neg h0']
      split
      · rfl
      · next fields hm =>
        obtain ⟨h2, h3⟩ := PyLabels.mapM_lookup hm
        rw [← h2] at hn
        obtain ⟨f, hf, rfl⟩ := List.mem_map.1 hn
        exact absurd (List.mem_map_of_mem (h3 f hf)) hnot
    · next h1 =>
      have : ∃ v', v.getItem (.names names) = .ok v' := by
        simp only [PyLabels.getItem]
        rw [if_neg h0']
        split
        · next hm =>
          obtain ⟨x, hx, hx'⟩ := PyLabels.mapM_lookup_none hm
          exact absurd ⟨x, hx, hx'⟩ h1
        · exact ⟨_, rfl⟩
      obtain ⟨v', hv⟩ := this
      obtain ⟨h2, h3, h4, -⟩ := hs.select hv
      refine ⟨v', _, hv, h2, h3.entries, ?_⟩
      rw [List.forall₂_map_left_iff, List.forall₂_map_right_iff, List.forall₂_same]
      intro r hr
      have := PyLabels.pick_select h4 r
      change ValuesOf v.names _ v'.names _ at this
      rwa [h2] at this

namespace PyLabels.Example

/-- `labels[::-2][["b"]][[1, 1]]` -/
def indexed : Except PyExc PyLabels := do
  let a ← labels.getItem (.slice none none (some (-2)))
  let b ← a.getItem (.names ["b"])
  b.getItem (.positions [1, 1])

theorem labels_any : Any labels :=
  .new (names := ["a", "b"]) trivial (by simp [ValuesArg.Complete, matrix]) labels_new

end PyLabels.Example

open PyLabels.Example in
/-- Non-vacuity of the theorems above: labels obtained with all three kinds of indexing, where the entries are `(1, 2), (3, 4), (5, 6)`. -/
example : ∃ v, indexed = .ok v ∧ Any v ∧ v.names = ["b"] ∧ v.entries = some [[2], [2]] := by
  have e : ∃ a b v, labels.getItem (.slice none none (some (-2))) = .ok a ∧ a.getItem (.names ["b"]) = .ok b ∧
      b.getItem (.positions [1, 1]) = .ok v ∧ v.names = ["b"] ∧ v.entries = some [[2], [2]] :=
    ⟨_, _, _, rfl, rfl, rfl, by decide +kernel, by decide +kernel⟩
  obtain ⟨a, b, v, h1, h2, h3, h4, h5⟩ := e
  refine ⟨v, ?_, .index (.index (.index labels_any trivial h1) trivial h2) trivial h3, h4, h5⟩
  unfold indexed
  rw [h1]
  change (do let b ← a.getItem (.names ["b"]); b.getItem (.positions [1, 1])) = _
  rw [h2]
  exact h3

/-- Non-vacuity of `SliceTakes`: the positions of `[-4:-1:2]` and `[10:0:-3]` for 5 and 8 elements. -/
example : SliceTakes 5 (some (-4)) (some (-1)) 2 [1, 3] ∧ SliceTakes 8 (some 10) (some 0) (-3) [7, 4, 1] :=
  ⟨(PyLabels.sliceIndices_takes (n := 5) (start := some (-4)) (stop := some (-1)) (step := some 2) (first := 1) (count := 2)
      (by decide +kernel)).2.2.2,
    (PyLabels.sliceIndices_takes (n := 8) (start := some 10) (stop := some 0) (step := some (-3)) (first := 7) (count := 3)
      (by decide +kernel)).2.2.2⟩

/-- A slice takes no position twice. -/
theorem Spec.SliceTakes.nodup {n : Nat} {start stop : Option Int} {step : Int} {positions : List Nat}
    (h : SliceTakes n start stop step positions) : positions.Nodup := by
  unfold SliceTakes at h
  split at h
  · exact h.1.imp fun hab => Nat.ne_of_lt hab
  · exact h.1.imp fun hab => Nat.ne_of_gt hab

/-! ### Unique entries and `asarray` -/

/-- **C112**, in full: all labels a program can have contain different entries, as documented, and `asarray` gives these entries
(or raises an exception, when the entries are not in one piece of memory). This is false. -/
def C112_full_statement : Prop :=
  ∀ v : PyLabels, Any v → v.names ≠ [] → ∃ entries, v.entries = some entries ∧ entries.Nodup ∧
    (v.asarray = .ok entries ∨ ∃ e, v.asarray = .error e)

theorem entriesAt_nodup {entries entries' : List (List LabelValue)} {positions : List Nat} (h : entries.Nodup)
    (hp : positions.Nodup) (ha : EntriesAt entries positions entries') : entries'.Nodup := by
  unfold EntriesAt at ha
  induction ha with
  | nil => exact List.nodup_nil
  | @cons i e positions entries' he hf ih =>
    rw [List.nodup_cons] at hp ⊢
    refine ⟨fun hm => hp.1 ?_, ih hp.2⟩
    clear ih hp
    induction hf with
    | nil => cases hm
    | @cons i' e' positions entries' he' hf ih =>
      rcases List.mem_cons.1 hm with rfl | hm
      · obtain ⟨h1, h2⟩ := List.getElem?_eq_some_iff.1 he
        obtain ⟨h3, h4⟩ := List.getElem?_eq_some_iff.1 he'
        have : i = i' := (List.Nodup.getElem_inj_iff h).1 (h2.trans h4.symm)
        rw [this]
        exact List.mem_cons_self
      · exact List.mem_cons_of_mem _ (ih hm)

/-- **C112**, partial: entries stay different with slices (any step) and lists of different positions. Missing: repeated positions and
selecting names, see `C112_counterexample` and `C112_counterexample_repeated`. -/
theorem C112_unique_partial (v : PyLabels) (h : Obtained (fun names => names ≠ []) TakesOnce v) :
    v.names ≠ [] ∧ ∃ entries, v.entries = some entries ∧ entries.Nodup := by
  induction h with
  | @new names values v hn hc h =>
    obtain ⟨_, _, rows, h1, _, _, h2, _, _, h4⟩ := PyLabels.new_eq_ok hc h
    refine ⟨?_, rows, h1.entries, h4 rfl hn⟩
    rw [h2]
    intro he
    apply hn
    have := congrArg List.length he
    simpa [fieldNames] using this
  | @library l c v hl hn hc h =>
    have hw := hl.wf hn
    rw [PyLabels.ofC_eq hw hn hc] at h
    cases h
    refine ⟨by rw [PyLabels.names_ofMemory]; exact hn, _, (PyLabels.canonical_ofMemory _ hw.row_length).entries, hw.nodup⟩
  | @index v i v' hv hi h ih =>
    obtain ⟨hn, entries, he, hnd⟩ := ih
    have hany : Any v := by
      clear he hnd hn h hi
      induction hv with
      | new _ hc h => exact .new trivial hc h
      | library hl hn hc h => exact .library hl hn hc h
      | index _ _ h ih => exact .index ih trivial h
    cases i with
    | slice start stop step =>
      obtain ⟨entries₁, he₁, h1⟩ := C112_slice v hany start stop step
      rw [he] at he₁
      cases he₁
      split at h1
      · rw [h] at h1
        cases h1
      · obtain ⟨v₁, entries', positions, h2, h3, h4, h5, h6⟩ := h1
        rw [h] at h2
        cases h2
        exact ⟨by rwa [h3], entries', h4, entriesAt_nodup hnd h5.nodup h6⟩
    | positions indices =>
      obtain ⟨entries₁, he₁, h1⟩ := C112_positions v hany indices
      rw [he] at he₁
      cases he₁
      split at h1
      · rw [h] at h1
        cases h1
      · obtain ⟨v₁, entries', positions, h2, h3, h4, h5, h6⟩ := h1
        rw [h] at h2
        cases h2
        have : (indices.map (fromEnd entries.length)).Nodup := by
          refine (List.nodup_map_iff_inj_on hi.1).2 fun i hm j hm' he => ?_
          unfold fromEnd at he
          rcases hi.2 with hp | hp
          · rwa [if_neg (by have := hp i hm; omega), if_neg (by have := hp j hm'; omega)] at he
          · rw [if_pos (hp i hm), if_pos (hp j hm')] at he
            omega
        rw [← h5] at this
        exact ⟨by rwa [h3], entries', h4, entriesAt_nodup hnd this.of_map h6⟩
    | names names => exact hi.elim

open PyLabels.Example in
/-- Non-vacuity of `C112_unique_partial`: `labels[::-2]`. -/
example : ∃ v, labels.getItem (.slice none none (some (-2))) = .ok v ∧ Obtained (fun names => names ≠ []) TakesOnce v ∧
    v.entries = some [[5, 6], [1, 2]] :=
  ⟨_, rfl, .index (.new (names := ["a", "b"]) (by decide) (by simp [ValuesArg.Complete, matrix]) labels_new)
    (show TakesOnce (.slice none none (some (-2))) from trivial) rfl, by decide +kernel⟩

open PyLabels.Example in
/-- The positions in `TakesOnce` have to be counted in the same way: `labels[[2, -1]]` has the last entry twice. -/
example : ∃ v, labels.getItem (.positions [2, -1]) = .ok v ∧ v.entries = some [[5, 6], [5, 6]] :=
  ⟨_, rfl, by decide +kernel⟩

/-- Without selecting names, the fields are all the elements of memory. -/
theorem PyLabels.obtained_whole {allowedNames : List String → Prop} {v : PyLabels} (h : Obtained allowedNames WithoutNames v) :
    v.itemsize = v.names.length ∧ v.fields = v.names.zipIdx := by
  induction h with
  | @new names values v hn hc h =>
    obtain ⟨_, _, rows, h1, _⟩ := PyLabels.new_eq_ok hc h
    exact ⟨h1.itemsize, h1.fields⟩
  | @library l c v hl hn hc h =>
    have hw := hl.wf hn
    rw [PyLabels.ofC_eq hw hn hc] at h
    cases h
    have := PyLabels.canonical_ofMemory (c := if l.rows = [] then none else some c) hw.row_length
    exact ⟨(PyLabels.canonical_ofMemory _ hw.row_length).itemsize, (PyLabels.canonical_ofMemory _ hw.row_length).fields⟩
  | @index v i v' hv hi h ih =>
    obtain ⟨full, hs⟩ := PyLabels.obtained_shows hv
    cases i with
    | slice start stop step =>
      obtain ⟨h1, _, -, -, -, h2, h3⟩ := hs.slice h
      rw [h1, h2, h3]
      exact ih
    | positions indices =>
      obtain ⟨_, -, -, h1, -, h2, h3, -⟩ := hs.positions h
      rw [h1, h2, h3]
      exact ih
    | names names => exact hi.elim

theorem PyLabels.pick_whole {names : List String} {r : List LabelValue} (h : r.length = names.length) :
    PyLabels.pick names.zipIdx r = r := by
  unfold PyLabels.pick
  have : (names.zipIdx.map fun f => r.getD f.2 0) = (names.zipIdx.map Prod.snd).map fun j => r.getD j 0 := by
    rw [List.map_map]; rfl
  rw [this, zipIdx_map_snd, ← h, map_range_getElem]
  intro j hj
  simp [hj]

/-- **C112**, `asarray`, partial: without selecting names, `asarray` gives the entries, if there is at least one and they are one after the other
in memory, or there is a single name; otherwise it raises a `ValueError`. Missing: selecting names, see
`C112_counterexample`. -/
theorem C112_asarray_partial (v : PyLabels) (h : Obtained (fun _ => True) WithoutNames v) (hn : v.names ≠ []) :
    ∃ entries, v.entries = some entries ∧
      v.asarray = if entries = [] ∨ v.names.length ≠ 1 ∧ 1 < entries.length ∧ v.stride ≠ v.itemsize then .error .valueError
        else .ok entries := by
  obtain ⟨full, hs⟩ := PyLabels.obtained_shows h
  obtain ⟨h1, h2⟩ := PyLabels.obtained_whole h
  have hpick : full.map (PyLabels.pick v.fields) = full := by
    conv => rhs; rw [← List.map_id full]
    apply List.map_congr_left
    intro r hr
    rw [h2]
    exact PyLabels.pick_whole (by rw [hs.row r hr, h1])
  have he := hs.entries
  rw [hpick] at he
  refine ⟨full, he, ?_⟩
  unfold PyLabels.asarray
  rw [hs.count, ← h1]
  by_cases h0 : full = []
  · simp [h0]
  · have hl : full.length ≠ 0 := by simpa using h0
    have hf : v.fields.isEmpty = false := by
      cases hv : v.fields with
      | nil => exact absurd (by simp [PyLabels.names, hv]) hn
      | cons => rfl
    rw [if_neg hl, hf]
    simp only [h0, false_or, Bool.false_eq_true, if_false]
    split
    · rfl
    · rw [mapM_option_eq (g := fun i => full.getD i [])]
      · rw [map_range_getElem]
        intro i hi
        simp [hi]
      · intro i hi
        have hi : i < full.length := by simpa using hi
        have hr := hs.row _ (List.getElem_mem hi)
        rw [mapM_option_eq (g := fun j => (full[i]).getD j 0)]
        · rw [← hr, map_range_getElem]
          · simp [hi]
          · intro j hj
            simp [hj]
        · intro j hj
          have hj : j < v.itemsize := by simpa using hj
          rw [hs.read i hi j hj]
          simp [hr, hj]

open PyLabels.Example in
/-- Non-vacuity of `C112_asarray_partial`: `labels[1:]` and `labels[::2]`. -/
example : (∃ v, labels.getItem (.slice (some 1) none none) = .ok v ∧ Obtained (fun _ => True) WithoutNames v ∧
      v.asarray = .ok [[3, 4], [5, 6]]) ∧
    (∃ v, labels.getItem (.slice none none (some 2)) = .ok v ∧ Obtained (fun _ => True) WithoutNames v ∧
      v.asarray = .error .valueError) := by
  have h0 : Obtained (fun _ => True) WithoutNames labels :=
    .new (names := ["a", "b"]) trivial (by simp [ValuesArg.Complete, matrix]) labels_new
  exact ⟨⟨_, rfl, .index (i := .slice (some 1) none none) h0 trivial rfl, by decide +kernel⟩,
    ⟨_, rfl, .index (i := .slice none none (some 2)) h0 trivial rfl, by decide +kernel⟩⟩

open PyLabels.Example in
/-- **C112** is false: `labels[["b"]].asarray()` gives the values of `a` as well. -/
theorem C112_counterexample : ¬ C112_full_statement := by
  intro h
  obtain ⟨entries, h1, -, h2⟩ := h _ (.index (i := .names ["b"]) labels_any trivial rfl) (by decide +kernel)
  have h3 : entries = [[2], [4], [6]] := by
    have : some entries = some [[2], [4], [6]] := by rw [← h1]; decide +kernel
    exact Option.some.inj this
  subst h3
  revert h2
  rw [show PyLabels.asarray _ = .ok [[1, 2], [3, 4], [5, 6]] from by decide +kernel]
  rintro (h2 | ⟨e, h2⟩)
  · simp at h2
  · cases h2

open PyLabels.Example in
/-- **C112** is false also without selecting names: the entries of `labels[[0, 0]]` are not different. -/
theorem C112_counterexample_repeated :
    ∃ v, Obtained (fun _ => True) WithoutNames v ∧ v.entries = some [[1, 2], [1, 2]] ∧ ¬ C112_full_statement :=
  ⟨_, .index (i := .positions [0, 0]) (.new (names := ["a", "b"]) trivial (by simp [ValuesArg.Complete, matrix]) labels_new)
    trivial rfl, by decide +kernel, by
    intro h
    obtain ⟨entries, h1, h2, -⟩ := h _ (.index (i := .positions [0, 0]) labels_any trivial rfl) (by decide +kernel)
    have h3 : some entries = some [[1, 2], [1, 2]] := by rw [← h1]; decide +kernel
    rw [Option.some.inj h3] at h2
    exact absurd h2 (by decide)⟩

/-! ### C60 -/

theorem PyLabels.Shows.sees {v : PyLabels} {full : List (List LabelValue)} (hs : v.Shows full) (hc : Contiguous v) (hn : v.names ≠ [])
    (hz : ∀ n ∈ v.names, '\x00' ∉ n.toList) :
    LibrarySees v ∧ ∃ entries, v.entries = some entries ∧ entries.length = v.count ∧
      ((∃ l, Labels.ofC v.toC = .ok l) ↔ (∀ n ∈ v.names, Identifier n) ∧ entries.Nodup) := by
  obtain ⟨hst, hi, hf⟩ := hc
  have hpos : 0 < v.itemsize := by
    rw [hi]
    exact List.length_pos_iff.2 hn
  have hmem : ∃ rest, v.memory.drop v.start = full.flatten ++ rest := by
    have hread : ∀ i (hi : i < full.length) j (hj : j < v.itemsize),
        (v.memory.drop v.start)[i * v.itemsize + j]? = (full[i])[j]? := by
      intro i hi j hj
      rw [← hs.read i hi j hj]
      unfold PyLabels.read
      have e : (v.start + i * v.stride + j : Int) = ((v.start + (i * v.itemsize + j) : Nat) : Int) := by
        rcases hst with hst | hst
        · have : i = 0 := by have := hs.count; omega
          subst this
          push_cast
          omega
        · rw [hst]
          push_cast
          omega
      simp only [e, Int.toNat_natCast]
      rw [if_pos (by omega), List.getElem?_drop]
    refine ⟨(v.memory.drop v.start).drop full.flatten.length, ?_⟩
    conv => lhs; rw [← List.take_append_drop full.flatten.length (v.memory.drop v.start)]
    congr 1
    have hlen := flatten_length_const hs.row
    apply List.ext_getElem?
    intro k
    rw [List.getElem?_take]
    split
    · next hk =>
      rw [hlen] at hk
      have hki : k / v.itemsize < full.length := Nat.div_lt_of_lt_mul (by rwa [Nat.mul_comm] at hk)
      have hkj : k % v.itemsize < v.itemsize := Nat.mod_lt _ hpos
      have e : k = k / v.itemsize * v.itemsize + k % v.itemsize := by
        rw [Nat.mul_comm]
        exact (Nat.div_add_mod _ _).symm
      have h1 := flatten_getElem? hs.row hki hkj []
      rw [List.append_nil, ← e] at h1
      have h2 := hread _ hki _ hkj
      rw [← e] at h2
      rw [h1, h2, List.getElem?_eq_getElem]
    · next hk => rw [List.getElem?_eq_none (by omega)]
  have hrow : ∀ r ∈ full, r.length = v.names.length := fun r hr => by rw [hs.row r hr, hi]
  have hent : v.entries = some full := by
    rw [hs.entries]
    congr 1
    conv => rhs; rw [← List.map_id full]
    apply List.map_congr_left
    intro r hr
    rw [hf]
    exact PyLabels.pick_whole (hrow r hr)
  obtain ⟨rest, hm⟩ := hmem
  have hd : Describes v.toC v.names full := by
    refine ⟨rfl, hs.count, ⟨v.names.map cstring, [], by simp [PyLabels.toC], ?_⟩, .inr ⟨rest, by simp [PyLabels.toC, hm]⟩, hrow⟩
    rw [List.forall₂_map_left_iff, List.forall₂_same]
    exact fun n hmem => isCString_cstring (hz n hmem)
  obtain ⟨h3, h4⟩ := C04_import v.toC v.names full hd hn
  refine ⟨⟨?_, fun l hl => ?_⟩, full, hent, hs.count.symm, ?_⟩
  · unfold PyLabels.readable
    rw [hm, hs.count, decide_eq_true_eq, List.length_append, flatten_length_const hrow]
    omega
  · obtain ⟨_, h5, _, h6⟩ := h4 l hl
    exact ⟨h5, full, hent, h6⟩
  · rw [h3]
    exact ⟨fun ⟨a, _, b⟩ => ⟨a, b⟩, fun ⟨a, b⟩ => ⟨a, hs.names, b⟩⟩

/-- **C60.** For all labels which are contiguous in memory, however they were obtained, with names which contain no NUL: the library sees the same names and entries, and
accepts them if and only if the names are identifiers and the entries are different. What is missing from the full statement: labels
which are not contiguous, for example `labels[::2]`. -/
theorem C60_contiguous_partial (v : PyLabels) (h : Any v) (hc : Contiguous v) (hn : v.names ≠ [])
    (hz : ∀ n ∈ v.names, '\x00' ∉ n.toList) :
    LibrarySees v ∧ ∃ entries, v.entries = some entries ∧ entries.length = v.count ∧
      ((∃ l, Labels.ofC v.toC = .ok l) ↔ (∀ n ∈ v.names, Identifier n) ∧ entries.Nodup) := by
  obtain ⟨full, hs⟩ := PyLabels.obtained_shows h
  exact hs.sees hc hn hz

open PyLabels.Example in
/-- Non-vacuity of `C60_contiguous_partial`: `labels[::-2][[1, 0]]`, where the slice itself is not contiguous. -/
example : ∃ v w, labels.getItem (.slice none none (some (-2))) = .ok v ∧ ¬ Contiguous v ∧ v.getItem (.positions [1, 0]) = .ok w ∧
    Any w ∧ Contiguous w ∧ seen w = some (["a", "b"], [[1, 2], [5, 6]]) :=
  ⟨_, _, rfl, by unfold Contiguous; decide +kernel, rfl,
    .index (i := .positions [1, 0]) (.index (i := .slice none none (some (-2))) labels_any trivial rfl) trivial rfl, by unfold Contiguous; decide +kernel, by decide +kernel⟩

end Equistore
