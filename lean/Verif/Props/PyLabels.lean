import Verif.Spec.PyLabels
import Verif.Lemmas.PyLabels
import Verif.Props.CLabels

/-!
# Labels in Python (C59, C60, C61)
-/

namespace Equistore
open Spec

theorem exists_rows {α : Type} {n k : Nat} {l : List α} (h : l.length = k * n) :
    ∃ rows : List (List α), rows.length = k ∧ (∀ r ∈ rows, r.length = n) ∧ rows.flatten = l := by
  induction k generalizing l with
  | zero => exact ⟨[], rfl, by simp, by simp at h; simp [h]⟩
  | succ k ih =>
    rw [Nat.add_mul] at h
    obtain ⟨rows, h1, h2, h3⟩ := ih (l := l.drop n) (by simp; omega)
    refine ⟨l.take n :: rows, by simp [h1], ?_, by simp [h3]⟩
    intro r hr
    rcases List.mem_cons.1 hr with rfl | hr
    · simp; omega
    · exact h2 r hr

theorem fieldNames_eq {names : List String} (h : "" ∉ names) : fieldNames names = names := by
  unfold fieldNames
  have : ∀ p ∈ names.zipIdx, (fun (name, i) => if name = "" then "f" ++ toString i else name) p = p.1 := by
    rintro ⟨n, i⟩ hp
    have hm := List.mem_map_of_mem (f := Prod.fst) hp
    rw [zipIdx_map_fst'] at hm
    simp only
    rw [if_neg]
    rintro rfl
    exact h hm
  rw [List.map_congr_left this]
  exact zipIdx_map_fst' names

theorem fieldNames_length (names : List String) : (fieldNames names).length = names.length := by
  simp [fieldNames]

theorem toInt_ofInt {x : Int} (h : Fits x) : (Int32.ofInt x).toInt = x := by
  obtain ⟨h1, h2⟩ := h
  exact Int32.toInt_ofInt_of_le (by simpa using h1) (by simpa using h2)

theorem map_toInt_ofInt {l : List Int} (h : ∀ x ∈ l, Fits x) : (l.map Int32.ofInt).map Int32.toInt = l := by
  rw [List.map_map]
  conv_rhs => rw [← List.map_id l]
  exact List.map_congr_left fun x hx => toInt_ofInt (h x hx)

theorem map_ofInt_toInt (l : List LabelValue) : (l.map Int32.toInt).map Int32.ofInt = l := by
  rw [List.map_map]
  conv_rhs => rw [← List.map_id l]
  exact List.map_congr_left fun x _ => by simp

theorem toInt_map_injective : Function.Injective (List.map Int32.toInt) :=
  List.map_injective_iff.2 fun a b h => by simpa using congrArg Int32.ofInt h

/-- What `Labels(names, values)` accepts, and what it makes. -/
theorem PyLabels.new_eq_ok {names : List String} {values : ValuesArg} {c : Option CLabels} {v : PyLabels}
    (hc : ValuesArg.Complete values) (h : PyLabels.new names values c = .ok v) :
    ∃ elements, values = .array true [v.count, names.length] elements ∧
      ∃ rows, v.Canonical rows ∧ rows.flatten = elements.map Int32.ofInt ∧ (∀ r ∈ rows, r.length = names.length) ∧
        v.names = fieldNames names ∧ v.names.Nodup ∧ v.eqsLabels = c ∧ (c = none → names ≠ [] → rows.Nodup) := by
  cases values with
  | other => cases h
  | array integers shape elements =>
    unfold PyLabels.new at h
    simp only at h
    split at h
    · next count size =>
      by_cases h1 : names.length = size
      · rw [if_neg (by simpa using h1)] at h
        cases integers with
        | false => cases h
        | true =>
          rw [if_neg (by simp)] at h
          subst h1
          have hl : (elements.map Int32.ofInt).length = count * names.length := by
            rw [List.length_map]
            simpa [ValuesArg.Complete] using hc
          obtain ⟨rows, r1, r2, r3⟩ := exists_rows hl
          by_cases h2 : names.length = 0
          · rw [if_pos h2] at h
            have hn : names = [] := by simpa using h2
            subst hn
            cases h
            refine ⟨elements, rfl, rows, ?_, r3, r2, ?_, ?_, rfl, by simp⟩
            · rw [← r3, ← r1]
              exact PyLabels.canonical_ofMemory c r2
            · rw [PyLabels.names_ofMemory]; rfl
            · rw [PyLabels.names_ofMemory]; simp
          · rw [if_neg h2] at h
            by_cases h3 : (fieldNames names).Nodup
            · rw [if_neg (by simpa using h3)] at h
              split at h
              · cases h
              · next h4 =>
                cases h
                have hcan := PyLabels.canonical_ofMemory (names := fieldNames names) (rows := rows) c
                  (by rw [fieldNames_length]; exact r2)
                rw [r3, r1] at hcan
                refine ⟨elements, rfl, rows, hcan, r3, r2, PyLabels.names_ofMemory _ _ _ _, ?_, rfl, ?_⟩
                · rw [PyLabels.names_ofMemory]; exact h3
                · rintro rfl _
                  rw [← r3, chunksExact_flatten (Nat.pos_of_ne_zero h2) r2] at h4
                  simp only [Option.isNone_none, Bool.true_and, bne_iff_ne, ne_eq, not_not] at h4
                  rw [← r1] at h4
                  exact countDistinct_eq_length.1 h4
            · rw [if_pos (by simpa using h3)] at h
              cases h
      · rw [if_pos h1] at h
        cases h
    · cases h

/-! ### C59 -/

/-- **C59**, full statement: labels have the names and values given when creating them. -/
def C59_full_statement : Prop :=
  ∀ (names : List String) (rows : List (List Int)) (v : PyLabels), names ≠ [] → (∀ r ∈ rows, r.length = names.length) →
    PyLabels.new names (matrix names.length rows) none = .ok v →
    v.names = names ∧ ∃ entries, v.entries = some entries ∧ entries.map (·.map Int32.toInt) = rows

/-- **C59** is false: values which do not fit in 32 bits are changed. Empty names are changed as well, see
`fieldNames`. -/
theorem C59_counterexample : ¬ C59_full_statement := by
  intro h
  obtain ⟨_, entries, h1, h2⟩ := h ["a"] [[4294967301]] (PyLabels.ofMemory ["a"] [5] 1 none) (by decide) (by decide)
    (by decide +kernel)
  have : (PyLabels.ofMemory ["a"] [5] 1 none).entries = some [[5]] := by decide +kernel
  rw [this] at h1
  cases h1
  exact absurd h2 (by decide +kernel)

/-- **C59.** If all values fit in 32 bits and no name is empty: the labels are created if and only if the names are different and
the rows are different, and then have these names and values. What is missing from the full statement: other values. -/
theorem C59_new_partial (names : List String) (rows : List (List Int)) (hn : names ≠ []) (he : "" ∉ names)
    (hr : ∀ r ∈ rows, r.length = names.length) (hf : ∀ r ∈ rows, ∀ x ∈ r, Fits x) :
    ((∃ v, PyLabels.new names (matrix names.length rows) none = .ok v) ↔ names.Nodup ∧ rows.Nodup) ∧
    (∀ v, PyLabels.new names (matrix names.length rows) none = .ok v →
      v.names = names ∧ ∃ entries, v.entries = some entries ∧ entries.map (·.map Int32.toInt) = rows) := by
  have hpos : names.length ≠ 0 := by simpa using hn
  have hlen : rows.flatten.length = rows.length * names.length := flatten_length_const hr
  have hconv : ∀ r ∈ rows, (r.map Int32.ofInt).map Int32.toInt = r := fun r h => map_toInt_ofInt (hf r h)
  have hchunks : chunksExact names.length (rows.flatten.map Int32.ofInt) = rows.map (·.map Int32.ofInt) := by
    rw [List.map_flatten, chunksExact_flatten (Nat.pos_of_ne_zero hpos)]
    intro r hm
    obtain ⟨r', h1, rfl⟩ := List.mem_map.1 hm
    simp [hr r' h1]
  have hback : (rows.map (·.map Int32.ofInt)).map (·.map Int32.toInt) = rows := by
    rw [List.map_map]
    conv_rhs => rw [← List.map_id rows]
    exact List.map_congr_left hconv
  have hnodup : (rows.map (·.map Int32.ofInt)).Nodup ↔ rows.Nodup := by
    constructor
    · intro h
      have := h.map (f := List.map Int32.toInt) toInt_map_injective
      rwa [hback] at this
    · intro h
      rw [← hback] at h
      exact List.Nodup.of_map _ h
  have hiff : ∀ v, PyLabels.new names (matrix names.length rows) none = .ok v ↔
      names.Nodup ∧ rows.Nodup ∧ v = PyLabels.ofMemory names (rows.flatten.map Int32.ofInt) rows.length none := by
    intro v
    unfold PyLabels.new matrix
    simp only [ne_eq, not_true_eq_false, if_false, Bool.not_true, Bool.false_eq_true, hpos, fieldNames_eq he]
    by_cases h1 : names.Nodup
    · rw [if_neg (by simpa using h1), hchunks]
      by_cases h2 : rows.Nodup
      · have h3 := countDistinct_eq_length.2 (hnodup.2 h2)
        rw [if_neg (by simp only [h3]; simp)]
        simp [h1, h2, eq_comm]
      · have h3 : countDistinct (rows.map (·.map Int32.ofInt)) ≠ rows.length := by
          intro h
          exact h2 (hnodup.1 (countDistinct_eq_length.1 (by simpa using h)))
        rw [if_pos (by simpa using h3)]
        simp [h2]
    · rw [if_pos (by simpa using h1)]
      simp [h1]
  refine ⟨⟨?_, ?_⟩, ?_⟩
  · rintro ⟨v, hv⟩
    have := (hiff v).1 hv
    exact ⟨this.1, this.2.1⟩
  · rintro ⟨h1, h2⟩
    exact ⟨_, (hiff _).2 ⟨h1, h2, rfl⟩⟩
  · intro v hv
    obtain ⟨_, _, rfl⟩ := (hiff v).1 hv
    refine ⟨PyLabels.names_ofMemory _ _ _ _, rows.map (·.map Int32.ofInt), ?_, hback⟩
    have := PyLabels.canonical_ofMemory (names := names) (rows := rows.map (·.map Int32.ofInt)) none (by
      intro r hm
      obtain ⟨r', h1, rfl⟩ := List.mem_map.1 hm
      simp [hr r' h1])
    rw [← List.map_flatten, List.length_map] at this
    exact this.entries

/-- Non-vacuity of `C59_new_partial`: two rows, in an array of integers. -/
example :
    (∃ v, PyLabels.new ["a", "b"] (matrix 2 [[0, -1], [2147483647, -2147483648]]) none = .ok v ∧
      v.names = ["a", "b"] ∧ v.entries = some [[0, -1], [2147483647, -2147483648]]) ∧
    PyLabels.new ["a", "b"] (matrix 2 [[0, 1], [0, 1]]) none = .error .valueError ∧
    PyLabels.new ["a", "a"] (matrix 2 [[0, 1]]) none = .error .valueError :=
  ⟨⟨PyLabels.ofMemory ["a", "b"] [0, -1, 2147483647, -2147483648] 2 none, by decide +kernel⟩, by decide +kernel,
    by decide +kernel⟩

/-- **C59.** Whatever the values, names and entries of new labels are all different, also after the conversion. -/
theorem C59_distinct (names : List String) (values : ValuesArg) (v : PyLabels) (hc : ValuesArg.Complete values)
    (hn : names ≠ []) (h : PyLabels.new names values none = .ok v) :
    v.names.Nodup ∧ ∃ entries, v.entries = some entries ∧ entries.length = v.count ∧ entries.Nodup := by
  obtain ⟨_, _, rows, hcan, _, _, _, h1, _, h2⟩ := PyLabels.new_eq_ok hc h
  exact ⟨h1, rows, hcan.entries, hcan.count.symm, h2 rfl hn⟩

/-- Non-vacuity of `C59_distinct`: rows which are only different before the conversion are rejected. -/
example : PyLabels.new ["a"] (matrix 1 [[1], [4294967297]]) none = .error .valueError ∧
    (∃ v, PyLabels.new ["a"] (matrix 1 [[1], [4294967298]]) none = .ok v ∧ v.entries = some [[1], [2]]) :=
  ⟨by decide +kernel, PyLabels.ofMemory ["a"] [1, 2] 2 none, by decide +kernel⟩

/-- **C59.** Only two-dimensional arrays of integers with one column per name are accepted. -/
theorem C59_accepts (names : List String) (values : ValuesArg) (v : PyLabels) (hc : ValuesArg.Complete values)
    (h : PyLabels.new names values none = .ok v) :
    ∃ rows elements, values = .array true [rows, names.length] elements ∧ v.count = rows ∧
      v.names.length = names.length := by
  obtain ⟨elements, h1, rows, _, _, _, h2, _⟩ := PyLabels.new_eq_ok hc h
  exact ⟨v.count, elements, h1, rfl, by rw [h2, fieldNames_length]⟩

/-- Non-vacuity of `C59_accepts`: the errors for other parameters. -/
example :
    PyLabels.new ["a", "b"] .other none = .error .valueError ∧
    PyLabels.new ["a", "b"] (.array true [2] [0, 1]) none = .error .valueError ∧
    PyLabels.new ["a", "b"] (.array true [1, 3] [0, 1, 2]) none = .error .valueError ∧
    PyLabels.new ["a", "b"] (.array false [1, 2] []) none = .error .typeError ∧
    (∃ v, PyLabels.new ["a", "b"] (.array true [1, 2] [0, 1]) none = .ok v) :=
  ⟨rfl, rfl, by decide +kernel, by decide +kernel, PyLabels.ofMemory ["a", "b"] [0, 1] 1 none, by decide +kernel⟩

/-! ### C60 -/

/-- **C60**, full statement: the library sees the labels which the program sees, for all labels a program can have. -/
def C60_full_statement : Prop :=
  ∀ v, Obtained (fun _ => True) (fun _ => True) v → v.names ≠ [] → LibrarySees v

namespace PyLabels.Example

/-- `Labels(["a", "b"], [[1, 2], [3, 4], [5, 6]])` -/
def labels : PyLabels := ofMemory ["a", "b"] [1, 2, 3, 4, 5, 6] 3 none

theorem labels_new : PyLabels.new ["a", "b"] (matrix 2 [[1, 2], [3, 4], [5, 6]]) none = .ok labels := by decide +kernel

theorem labels_obtained : Obtained (fun _ => True) (fun _ => True) labels :=
  .new trivial (by simp [ValuesArg.Complete, matrix]) labels_new

/-- The labels the library makes from some labels. -/
def seen (v : PyLabels) : Option (List String × List (List LabelValue)) :=
  match Labels.ofC v.toC with
  | .ok l => some (l.names, l.rows)
  | _ => none

theorem not_librarySees {v : PyLabels} {names : List String} {rows : List (List LabelValue)}
    (h : seen v = some (names, rows)) (hne : v.names ≠ names ∨ v.entries ≠ some rows) (hn : names ≠ []) : ¬ LibrarySees v := by
  rintro ⟨_, h'⟩
  unfold seen at h
  split at h
  · next l hl =>
    simp only [Option.some.injEq, Prod.mk.injEq] at h
    obtain ⟨h1, entries, h2, h3⟩ := h' l hl
    have hs : (l.size != 0) = true := by
      have : l.names ≠ [] := by rw [h.1]; exact hn
      simpa [Labels.size] using this
    simp [Labels.iter, Res.assert, hs] at h3
    rcases hne with hne | hne
    · exact hne (by rw [← h1, h.1])
    · exact hne (by rw [h2, ← h.2, h3])
  · cases h

end PyLabels.Example

open PyLabels.Example in
/-- **C60** is false: `labels[::2]`, `labels[["b", "a"]]` and `labels[["b"]]` are given to the library with
other entries, without an error. -/
theorem C60_counterexample :
    (∃ v, labels.getItem (.slice none none (some 2)) = .ok v ∧ v.entries = some [[1, 2], [5, 6]] ∧
      seen v = some (["a", "b"], [[1, 2], [3, 4]])) ∧
    (∃ v, labels.getItem (.names ["b", "a"]) = .ok v ∧ v.entries = some [[2, 1], [4, 3], [6, 5]] ∧
      seen v = some (["b", "a"], [[1, 2], [3, 4], [5, 6]])) ∧
    (∃ v, labels.getItem (.names ["b"]) = .ok v ∧ v.entries = some [[2], [4], [6]] ∧
      seen v = some (["b"], [[1], [2], [3]])) ∧
    ¬ C60_full_statement := by
  refine ⟨⟨{ labels with stride := 4, count := 2 }, by decide +kernel⟩,
    ⟨{ labels with fields := [("b", 1), ("a", 0)] }, by decide +kernel⟩,
    ⟨{ labels with fields := [("b", 1)] }, by decide +kernel⟩, fun h => ?_⟩
  have hv : labels.getItem (.names ["b", "a"]) = .ok { labels with fields := [("b", 1), ("a", 0)] } := by decide +kernel
  exact not_librarySees (names := ["b", "a"]) (rows := [[1, 2], [3, 4], [5, 6]]) (by decide +kernel)
    (.inr (by decide +kernel)) (by decide) (h _ (.index labels_obtained trivial hv) (by decide))

open PyLabels.Example in
/-- **C60** is false: for `labels[::-1]` the library reads outside of the memory of the labels. -/
theorem C60_counterexample_memory :
    ∃ v, labels.getItem (.slice none none (some (-1))) = .ok v ∧ v.entries = some [[5, 6], [3, 4], [1, 2]] ∧
      v.readable = false ∧ ¬ LibrarySees v :=
  ⟨{ labels with start := 4, stride := -2 }, by decide +kernel, by decide +kernel, by decide +kernel,
    fun h => absurd h.1 (by decide +kernel)⟩

open PyLabels.Example in
/-- **C60** is false: a name is cut at the first NUL. -/
theorem C60_counterexample_names :
    ∃ v, PyLabels.new ["a\x00b"] (matrix 1 [[1]]) none = .ok v ∧ v.names = ["a\x00b"] ∧ seen v = some (["a"], [[1]]) :=
  ⟨PyLabels.ofMemory ["a\x00b"] [1] 1 none, by decide +kernel⟩

/-- The labels of the library, as seen in Python. -/
theorem PyLabels.ofC_eq {l : Labels} {names : List String} {rows : List (List LabelValue)} (h : l.Holds names rows)
    (hn : names ≠ []) {c : CLabels} (hc : l.toC = .ok c) :
    PyLabels.ofC c = .ok (ofMemory names rows.flatten rows.length (if rows = [] then none else some c)) := by
  rw [h.toC] at hc
  have hid : ∀ n ∈ names, Identifier n := fun n hm => (isValidLabelName_iff n).1 (h.names_ok.1 n hm)
  have hdec : ((names.map cstring).take names.length).mapM decodeName = .ok names := by
    rw [List.take_of_length_le (by simp)]
    refine mapM_decodeName ?_
    rw [List.forall₂_map_left_iff, List.forall₂_same]
    exact fun n hm => isCString_cstring (identifier_no_nul (hid n hm))
  have he : "" ∉ names := by
    intro hm
    obtain ⟨c, cs, h1, _⟩ := hid "" hm
    cases h1
  have hpos : names.length ≠ 0 := by simpa using hn
  have hnd : names.Nodup := h.names_ok.2
  cases hc
  unfold PyLabels.ofC
  simp only [Option.getD_some, hdec, pyCheck]
  by_cases hr : rows = []
  · subst hr
    simp only [List.length_nil, ne_eq, not_true_eq_false, if_false]
    change PyLabels.new names (.array true [0, names.length] []) none = _
    unfold PyLabels.new
    simp [hpos, fieldNames_eq he, hnd, chunksExact, countDistinct]
  · have hlen : rows.length ≠ 0 := by simpa using hr
    simp only [ne_eq, hlen, not_false_eq_true, if_true, hr, if_false, Option.getD_some]
    rw [List.take_of_length_le (by rw [flatten_length_const h.row_length]; exact Nat.le_refl _)]
    change PyLabels.new names (.array true [rows.length, names.length] _) (some _) = _
    unfold PyLabels.new
    simp only [ne_eq, not_true_eq_false, if_false, Bool.not_true, Bool.false_eq_true, hpos, fieldNames_eq he,
      map_ofInt_toInt, Option.isNone_some, Bool.false_and, hnd, decide_true]

theorem PyLabels.obtained_canonical {v : PyLabels} (h : Obtained PlainNames TakesEntries v) :
    (∃ rows, v.Canonical rows) ∧ v.names.Nodup ∧ ∀ n ∈ v.names, '\x00' ∉ n.toList := by
  induction h with
  | @new names values v hn hc h =>
    obtain ⟨_, _, rows, h1, _, _, h2, h3, _⟩ := PyLabels.new_eq_ok hc h
    refine ⟨⟨rows, h1⟩, h3, ?_⟩
    rw [h2, fieldNames_eq fun h => (hn "" h).1 rfl]
    exact fun n hm => (hn n hm).2
  | @library l c v hl hn hc h =>
    have hw := hl.wf hn
    rw [PyLabels.ofC_eq hw hn hc] at h
    cases h
    refine ⟨⟨_, PyLabels.canonical_ofMemory _ hw.row_length⟩, ?_, ?_⟩
    · rw [PyLabels.names_ofMemory]
      exact hw.names_ok.2
    · rw [PyLabels.names_ofMemory]
      exact fun n hm => identifier_no_nul ((isValidLabelName_iff n).1 (hw.names_ok.1 n hm))
  | @index v i v' _ hi h ih =>
    obtain ⟨⟨rows, hr⟩, h1, h2⟩ := ih
    cases i with
    | slice start stop step =>
      obtain ⟨first, count, h3, h4⟩ := hr.slice (by rcases hi with rfl | rfl <;> rfl) h
      exact ⟨⟨_, h3⟩, by rwa [h4], by rwa [h4]⟩
    | positions indices =>
      obtain ⟨_, _, _, h3, h4⟩ := hr.positions h
      exact ⟨⟨_, h3⟩, by rwa [h4], by rwa [h4]⟩
    | names names => exact hi.elim

/-- **C60.** For labels created with names which are not empty and contain no NUL, or given by the library, and entries taken from such
labels with slices without a step or lists of positions: the library accepts them if and only if the names are identifiers
and the entries are different, and sees the same names and entries. What is missing from the full statement: selecting
fields, slices with a step, other names. -/
theorem C60_library_sees_partial (v : PyLabels) (h : Obtained PlainNames TakesEntries v) (hn : v.names ≠ []) :
    LibrarySees v ∧ ∃ entries, v.entries = some entries ∧ entries.length = v.count ∧
      ((∃ l, Labels.ofC v.toC = .ok l) ↔ (∀ n ∈ v.names, Identifier n) ∧ entries.Nodup) := by
  obtain ⟨⟨rows, hr⟩, h1, h2⟩ := PyLabels.obtained_canonical h
  obtain ⟨h3, h4⟩ := C04_import v.toC v.names rows (hr.describes h2) hn
  refine ⟨⟨hr.readable, fun l hl => ?_⟩, rows, hr.entries, hr.count.symm, ?_⟩
  · obtain ⟨_, h5, _, h6⟩ := h4 l hl
    exact ⟨h5, rows, hr.entries, h6⟩
  · rw [h3]
    exact ⟨fun ⟨a, _, b⟩ => ⟨a, b⟩, fun ⟨a, b⟩ => ⟨a, h1, b⟩⟩

open PyLabels.Example in
/-- Non-vacuity of `C60_library_sees_partial`: `labels[-2:][[1, 0]]`. -/
example : ∃ v v', labels.getItem (.slice (some (-2)) none none) = .ok v ∧ v.getItem (.positions [1, 0]) = .ok v' ∧
    Obtained PlainNames TakesEntries v' ∧ v'.entries = some [[5, 6], [3, 4]] ∧
    seen v' = some (["a", "b"], [[5, 6], [3, 4]]) := by
  have h0 : Obtained PlainNames TakesEntries labels :=
    .new (names := ["a", "b"]) (by unfold PlainNames; decide +kernel) (by simp [ValuesArg.Complete, matrix]) labels_new
  have h1 : labels.getItem (.slice (some (-2)) none none) = .ok { labels with start := 2, count := 2 } := by decide +kernel
  have h2 : PyLabels.getItem { labels with start := 2, count := 2 } (.positions [1, 0]) =
      .ok { labels with memory := [5, 6, 3, 4], count := 2 } := by decide +kernel
  exact ⟨_, _, h1, h2, .index (.index h0 (show TakesEntries (.slice (some (-2)) none none) from Or.inl rfl) h1)
    (show TakesEntries (.positions [1, 0]) from trivial) h2, by decide +kernel, by decide +kernel⟩

/-- **C60.** Taking entries gives the entries one asks for, in this order; negative positions count from the end. -/
theorem C60_positions (v v' : PyLabels) (h : Obtained PlainNames TakesEntries v) (indices : List Int)
    (hi : v.getItem (.positions indices) = .ok v') :
    ∃ entries entries', v.entries = some entries ∧ v'.entries = some entries' ∧ v'.names = v.names ∧
      List.Forall₂ (fun i e => ∃ p : Nat, fromEnd entries.length i = p ∧ entries[p]? = some e) indices entries' := by
  obtain ⟨⟨rows, hr⟩, _, _⟩ := PyLabels.obtained_canonical h
  obtain ⟨positions, hp, h1, h2, h3⟩ := hr.positions hi
  refine ⟨rows, _, hr.entries, h2.entries, h3, ?_⟩
  rw [List.forall₂_map_right_iff]
  clear hi h2 h3
  induction positions generalizing indices with
  | nil =>
    cases indices with
    | nil => exact .nil
    | cons => cases hp
  | cons p positions ih =>
    cases indices with
    | nil => cases hp
    | cons i indices =>
      rw [List.map_cons, List.map_cons, List.cons.injEq] at hp
      exact .cons ⟨p, hp.1.symm, by simp [h1 p (by simp)]⟩ (ih indices hp.2 fun q hq => h1 q (by simp [hq]))

/-- Non-vacuity of `C60_positions`. -/
example : ∃ v, PyLabels.Example.labels.getItem (.positions [-1, 0]) = .ok v ∧ v.entries = some [[5, 6], [1, 2]] :=
  ⟨{ PyLabels.Example.labels with memory := [5, 6, 1, 2], count := 2 }, by decide +kernel⟩

/-! ### C61 -/

/-- **C61**, full statement: the labels of a block or tensor map seen in Python have the names and the entries of the
labels in the library, can be read as an array, and `position` finds exactly the entries. -/
def C61_full_statement : Prop :=
  ∀ l : Labels, l.FromBuilder → l.names ≠ [] →
    ∃ c v entries, l.toC = .ok c ∧ PyLabels.ofC c = .ok v ∧ l.iter = .ok entries ∧
      v.names = l.names ∧ v.entries = some entries ∧ v.asarray = .ok entries ∧
      ∀ label : List Int, label.length = l.names.length →
        ∃ r, v.position label = .ok r ∧ ∀ i, r = some i ↔ IsEntry entries i label

/-- `position` for labels with entries. -/
theorem PyLabels.position_eq {l : Labels} (hl : l.FromBuilder) (hn : l.names ≠ []) {c : CLabels} (hc : l.toC = .ok c)
    {v : PyLabels} (hv : v.eqsLabels = some c) {label : List Int} (hlen : label.length = l.names.length) :
    ∃ r, v.position label = .ok r ∧ ∀ i, r = some i ↔ l.rows[i]? = some (label.map Int32.ofInt) := by
  have hw := hl.wf hn
  obtain ⟨h1, _⟩ := C04_position l hl hn c hc (label.map Int32.ofInt) label.length (by simp)
  have hs : c.size = l.names.length := by
    rw [hw.toC] at hc
    cases hc
    rfl
  obtain ⟨r, h2, h3, h4⟩ := h1 (by rw [hlen, hs])
  have htake : (label.map Int32.ofInt).take label.length = label.map Int32.ofInt := List.take_of_length_le (by simp)
  rw [htake] at h3 h4
  have hidx : ∀ i e, l.index i = .ok e ↔ l.rows[i]? = some e := by
    intro i e
    by_cases hi : i < l.rows.length
    · rw [hw.index_eq hi, List.getElem?_eq_getElem hi]
      simp
    · rw [hw.index_panic hi, List.getElem?_eq_none (by omega)]
      simp
  refine ⟨if r ≥ 0 then some r.toNat else none, by simp [position, hv, h2, pyCheck], fun i => ?_⟩
  rw [← hidx, ← h3]
  by_cases hr : r ≥ 0
  · rw [if_pos hr]
    simp only [Option.some.injEq]
    omega
  · rw [if_neg hr]
    simp only [reduceCtorEq, false_iff]
    omega

theorem isEntry_iff {entries : List (List LabelValue)} {i : Nat} {label : List Int} (hf : ∀ x ∈ label, Fits x) :
    IsEntry entries i label ↔ entries[i]? = some (label.map Int32.ofInt) := by
  constructor
  · rintro ⟨e, h1, rfl⟩
    rw [h1, map_ofInt_toInt]
  · intro h
    exact ⟨_, h, map_toInt_ofInt hf⟩

/-- **C61.** For labels with at least one entry, and values which fit in 32 bits. What is missing from the full
statement: labels without entries, and other values. -/
theorem C61_read_back_partial (l : Labels) (hl : l.FromBuilder) (hn : l.names ≠ []) (h0 : l.iter ≠ .ok []) :
    ∃ c v entries, l.toC = .ok c ∧ PyLabels.ofC c = .ok v ∧ l.iter = .ok entries ∧
      v.names = l.names ∧ v.entries = some entries ∧ v.asarray = .ok entries ∧
      (∀ label : List Int, label.length = l.names.length → (∀ x ∈ label, Fits x) →
        (∃ r, v.position label = .ok r ∧ ∀ i, r = some i ↔ IsEntry entries i label) ∧
        (∃ b, v.contains label = .ok b ∧ (b = true ↔ ∃ i, IsEntry entries i label))) ∧
      (∀ label : List Int, label.length ≠ l.names.length → v.position label = .error .equistoreError) := by
  have hw := hl.wf hn
  have hne : l.rows ≠ [] := fun h => h0 (by rw [hw.iter_eq, h])
  obtain ⟨c, hc⟩ : ∃ c, l.toC = .ok c := ⟨_, hw.toC⟩
  have hv := PyLabels.ofC_eq hw hn hc
  rw [if_neg hne] at hv
  have hcan := PyLabels.canonical_ofMemory (names := l.names) (some c) hw.row_length
  have hnames := PyLabels.names_ofMemory l.names l.rows.flatten l.rows.length (some c)
  refine ⟨c, _, l.rows, hc, hv, hw.iter_eq, hnames, hcan.entries, ?_, ?_, ?_⟩
  · have hlen : l.rows.length ≠ 0 := by simpa using hne
    have hf : l.names.zipIdx.isEmpty = false := by
      cases h : l.names with
      | nil => exact absurd h hn
      | cons n ns => rfl
    have hall : ((List.range l.rows.length).mapM fun i => (List.range l.names.length).mapM fun j =>
        (PyLabels.ofMemory l.names l.rows.flatten l.rows.length (some c)).read i j) = some l.rows := by
      rw [mapM_option_eq (g := fun i => l.rows.getD i []), map_range_getElem]
      · intro i hi; simp [hi]
      · intro i hi
        have hi : i < l.rows.length := by simpa using hi
        have hrl := hw.row_length _ (List.getElem_mem hi)
        rw [mapM_option_eq (g := fun j => (l.rows[i]).getD j 0), ← hrl, map_range_getElem]
        · simp [hi]
        · intro j hj; simp [hj]
        · intro j hj
          have hj : j < l.names.length := by simpa using hj
          rw [hcan.read hi (by rw [hnames]; exact hj)]
          simp [hrl, hj]
    have h2 : ¬ (l.names.length ≠ 1 ∧ 1 < l.rows.length ∧ (l.names.length : Int) ≠ l.names.length) := fun h => h.2.2 rfl
    unfold PyLabels.asarray
    change (if l.rows.length = 0 then Except.error PyExc.valueError
      else if l.names.zipIdx.isEmpty = true then .ok (List.replicate l.rows.length [])
      else if l.names.length ≠ 1 ∧ 1 < l.rows.length ∧ (l.names.length : Int) ≠ l.names.length then .error .valueError
      else match (List.range l.rows.length).mapM fun i => (List.range l.names.length).mapM fun j =>
        (PyLabels.ofMemory l.names l.rows.flatten l.rows.length (some c)).read i j with
        | some rows => Except.ok rows
        | none => Except.error PyExc.exception) = _
    rw [if_neg hlen, if_neg (by simp [hf]), if_neg h2, hall]
  · intro label hlen hfit
    obtain ⟨r, h1, h2⟩ := PyLabels.position_eq hl hn hc (v := PyLabels.ofMemory l.names l.rows.flatten l.rows.length (some c))
      rfl hlen
    have h3 : ∀ i, r = some i ↔ IsEntry l.rows i label := fun i => (h2 i).trans (isEntry_iff hfit).symm
    refine ⟨⟨r, h1, h3⟩, r.isSome, by simp [PyLabels.contains, h1], ?_⟩
    rw [Option.isSome_iff_exists]
    exact exists_congr h3
  · intro label hlen
    have hs : c.size = l.names.length := by
      rw [hw.toC] at hc
      cases hc
      rfl
    obtain ⟨m, hm⟩ := (C04_position l hl hn c hc (label.map Int32.ofInt) label.length (by simp)).2 (by rw [hs]; exact hlen)
    simp [PyLabels.position, PyLabels.ofMemory, hm, pyCheck]

/-- Non-vacuity of `C61_read_back_partial`: finding entries, and what is not an entry. -/
example :
    let l := Labels.mk' ["a", "b"] [[1, 2], [-3, 4]]
    ∃ c v, l.toC = .ok c ∧ PyLabels.ofC c = .ok v ∧ v.asarray = .ok [[1, 2], [-3, 4]] ∧
      v.position [-3, 4] = .ok (some 1) ∧ v.position [4, -3] = .ok none ∧ v.contains [1, 2] = .ok true ∧
      v.position [1] = .error .equistoreError := by
  intro l
  have h : l.toC = .ok ⟨some l, some [[97, 0], [98, 0]], some [1, 2, -3, 4], 2, 2⟩ := by decide +kernel
  exact ⟨_, PyLabels.ofMemory ["a", "b"] [1, 2, -3, 4] 2
    (some ⟨some l, some [[97, 0], [98, 0]], some [1, 2, -3, 4], 2, 2⟩), h, by decide +kernel, by decide +kernel,
    by decide +kernel, by decide +kernel, by decide +kernel, by decide +kernel⟩

/-- **C61** is false: for labels without entries, `position`, `in` and `asarray` always raise exceptions. -/
theorem C61_no_entries (l : Labels) (hl : l.FromBuilder) (hn : l.names ≠ []) (h0 : l.iter = .ok []) :
    ∃ c v, l.toC = .ok c ∧ PyLabels.ofC c = .ok v ∧ v.names = l.names ∧ v.entries = some [] ∧
      v.asarray = .error .valueError ∧ (∀ label, v.position label = .error .exception) ∧
      ∀ label, v.contains label = .error .exception := by
  have hw := hl.wf hn
  have he : l.rows = [] := by
    have := hw.iter_eq
    rw [h0, Res.ok.injEq] at this
    exact this.symm
  obtain ⟨c, hc⟩ : ∃ c, l.toC = .ok c := ⟨_, hw.toC⟩
  have hv := PyLabels.ofC_eq hw hn hc
  rw [if_pos he] at hv
  have hcan := PyLabels.canonical_ofMemory (names := l.names) none hw.row_length
  refine ⟨c, _, hc, hv, PyLabels.names_ofMemory _ _ _ _, by rw [hcan.entries, he], ?_, fun _ => rfl, fun _ => rfl⟩
  unfold PyLabels.asarray
  exact if_pos (show l.rows.length = 0 by rw [he]; rfl)

/-- Non-vacuity of `C61_no_entries`. -/
example : (Labels.mk' ["a"] []).FromBuilder ∧ (Labels.mk' ["a"] []).iter = .ok [] :=
  ⟨⟨["a"], [], by decide +kernel⟩, by decide +kernel⟩

/-- **C61** is false: `position` only looks at the last 32 bits of integers. -/
theorem C61_wraps (l : Labels) (hl : l.FromBuilder) (hn : l.names ≠ []) (entries : List (List LabelValue))
    (he : l.iter = .ok entries) (i : Nat) (label : List Int) (h : IsEntry entries i label) (multiples : List Int)
    (hm : multiples.length = label.length) :
    ∃ c v, l.toC = .ok c ∧ PyLabels.ofC c = .ok v ∧
      v.position (List.zipWith (fun x k => x + 4294967296 * k) label multiples) = .ok (some i) := by
  have hw := hl.wf hn
  have : l.rows = entries := by
    have := hw.iter_eq
    rw [he] at this
    cases this
    rfl
  subst this
  obtain ⟨entry, h1, rfl⟩ := h
  have hne : l.rows ≠ [] := by
    intro h
    rw [h] at h1
    simp at h1
  have hlen : entry.length = l.names.length := hw.row_length _ (List.mem_of_getElem? h1)
  obtain ⟨c, hc⟩ : ∃ c, l.toC = .ok c := ⟨_, hw.toC⟩
  have hv := PyLabels.ofC_eq hw hn hc
  rw [if_neg hne] at hv
  obtain ⟨r, h2, h3⟩ := PyLabels.position_eq hl hn hc
    (v := PyLabels.ofMemory l.names l.rows.flatten l.rows.length (some c)) rfl
    (label := List.zipWith (fun x k => x + 4294967296 * k) (entry.map Int32.toInt) multiples) (by simp at hm ⊢; omega)
  have hwrap : ∀ (entry : List LabelValue) (multiples : List Int), multiples.length = entry.length →
      (List.zipWith (fun x k => x + 4294967296 * k) (entry.map Int32.toInt) multiples).map Int32.ofInt = entry := by
    intro entry
    induction entry with
    | nil => simp
    | cons x xs ih =>
      intro ms hms
      cases ms with
      | nil => simp at hms
      | cons m ms =>
        simp only [List.map_cons, List.zipWith_cons_cons, List.cons.injEq]
        refine ⟨?_, ih ms (by simpa using hms)⟩
        apply Int32.toInt_inj.1
        rw [Int32.toInt_ofInt]
        have h4 := Int32.toInt_lt x
        have h5 := Int32.le_toInt x
        change (x.toInt + 4294967296 * m).bmod 4294967296 = _
        rw [Int.bmod_def]
        omega
  refine ⟨c, _, hc, hv, ?_⟩
  rw [h2, (h3 i).2 (by rw [h1, hwrap entry multiples (by simpa using hm)])]

/-- **C61** is false. -/
theorem C61_counterexample : ¬ C61_full_statement := by
  intro h
  have hb : (Labels.mk' ["a"] []).FromBuilder := ⟨["a"], [], by decide +kernel⟩
  obtain ⟨c, v, entries, h1, h2, _, _, _, h3, _⟩ := h (Labels.mk' ["a"] []) hb (by decide +kernel)
  obtain ⟨c', v', h1', h2', _, _, h3', _⟩ := C61_no_entries (Labels.mk' ["a"] []) hb (by decide +kernel) (by decide +kernel)
  rw [h1] at h1'
  cases h1'
  rw [h2] at h2'
  cases h2'
  rw [h3] at h3'
  cases h3'

/-- Non-vacuity of `C61_wraps`: `4294967297` is found in labels with the entry 1. -/
example :
    let l := Labels.mk' ["a"] [[1]]
    l.FromBuilder ∧ IsEntry [[1]] 0 [1] ∧ ∃ c v, l.toC = .ok c ∧ PyLabels.ofC c = .ok v ∧
      v.position [4294967297] = .ok (some 0) := by
  intro l
  have hb : l.FromBuilder := ⟨["a"], [[1]], by decide +kernel⟩
  have he : IsEntry [[1]] 0 [1] := ⟨[1], rfl, by decide +kernel⟩
  exact ⟨hb, he, C61_wraps l hb (by decide +kernel) [[1]] (by decide +kernel) 0 [1] he [1] rfl⟩

/-- **C61.** Labels given to the library and read back from it are the same, for the labels of
`C60_library_sees_partial`. -/
theorem C61_round_trip_partial (v : PyLabels) (h : Obtained PlainNames TakesEntries v) (hn : v.names ≠ []) (l : Labels)
    (hl : Labels.ofC v.toC = .ok l) :
    ∃ c v', l.toC = .ok c ∧ PyLabels.ofC c = .ok v' ∧ v'.names = v.names ∧ v'.entries = v.entries := by
  obtain ⟨⟨rows, hr⟩, h1, h2⟩ := PyLabels.obtained_canonical h
  obtain ⟨_, h4⟩ := C04_import v.toC v.names rows (hr.describes h2) hn
  obtain ⟨hb, h5, _, h6⟩ := h4 l hl
  have hnl : l.names ≠ [] := by rw [h5]; exact hn
  have hw := hb.wf hnl
  have hrows : l.rows = rows := by
    have := hw.iter_eq
    rw [h6] at this
    cases this
    rfl
  obtain ⟨c, hc⟩ : ∃ c, l.toC = .ok c := ⟨_, hw.toC⟩
  refine ⟨c, _, hc, PyLabels.ofC_eq hw hnl hc, by rw [PyLabels.names_ofMemory, h5], ?_⟩
  rw [(PyLabels.canonical_ofMemory (names := l.names) _ hw.row_length).entries, hr.entries, hrows]

/-- Non-vacuity of `C61_round_trip_partial`. -/
example : Obtained PlainNames TakesEntries PyLabels.Example.labels ∧
    ∃ l, Labels.ofC PyLabels.Example.labels.toC = .ok l ∧ l.rows = [[1, 2], [3, 4], [5, 6]] :=
  ⟨.new (names := ["a", "b"]) (by unfold PlainNames; decide +kernel) (by simp [ValuesArg.Complete, matrix])
    PyLabels.Example.labels_new, Labels.mk' ["a", "b"] [[1, 2], [3, 4], [5, 6]], by decide +kernel⟩

/-- **C61.** `as_namedtuples` gives the names and values of the entries, unless a name is a keyword of
Python or starts with an underscore: it raises an exception in this case. -/
theorem C61_namedtuples (l : Labels) (hl : l.FromBuilder) (hn : l.names ≠ []) :
    ∃ c v entries, l.toC = .ok c ∧ PyLabels.ofC c = .ok v ∧ l.iter = .ok entries ∧
      ((∃ name ∈ l.names, name ∈ PyLabels.keywords ∨ name.startsWith "_" = true) → v.asNamedtuples = .error .valueError) ∧
      ((∀ name ∈ l.names, name ∉ PyLabels.keywords ∧ name.startsWith "_" = false) →
        v.asNamedtuples = .ok (entries.map fun entry => l.names.zip entry)) := by
  have hw := hl.wf hn
  obtain ⟨c, hc⟩ : ∃ c, l.toC = .ok c := ⟨_, hw.toC⟩
  have hcan := fun o => PyLabels.canonical_ofMemory (names := l.names) o hw.row_length
  refine ⟨c, _, l.rows, hc, PyLabels.ofC_eq hw hn hc, hw.iter_eq, ?_, ?_⟩
  · rintro ⟨name, h1, h2⟩
    unfold PyLabels.asNamedtuples
    rw [if_pos]
    rw [PyLabels.names_ofMemory, List.any_eq_true]
    exact ⟨name, h1, by rcases h2 with h2 | h2 <;> simp [h2]⟩
  · intro h
    unfold PyLabels.asNamedtuples
    rw [if_neg, (hcan _).entries, PyLabels.names_ofMemory]
    rw [PyLabels.names_ofMemory, List.any_eq_true]
    rintro ⟨name, h1, h2⟩
    have := h name h1
    simp [hw.names_ok.1 name h1, this.1, this.2] at h2

/-- Non-vacuity of `C61_namedtuples`: `Labels.single()`, labels with a name of angular momenta, and others. -/
example :
    (∃ v, PyLabels.single = .ok v ∧ v.names = ["_"] ∧ v.asNamedtuples = .error .valueError) ∧
    (∃ v, PyLabels.new ["lambda"] (matrix 1 [[0]]) none = .ok v ∧ v.asNamedtuples = .error .valueError) ∧
    (∃ v, PyLabels.new ["l"] (matrix 1 [[0], [1]]) none = .ok v ∧ v.asNamedtuples = .ok [[("l", 0)], [("l", 1)]]) :=
  ⟨⟨PyLabels.ofMemory ["_"] [0] 1 none, by decide +kernel⟩, ⟨PyLabels.ofMemory ["lambda"] [0] 1 none, by decide +kernel⟩,
    ⟨PyLabels.ofMemory ["l"] [0, 1] 2 none, by decide +kernel⟩⟩

end Equistore
