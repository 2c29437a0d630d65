import Verif.Spec.Labels
import Verif.Lemmas.Labels

/-!
# Properties of labels (C01, C02, C03)
-/

namespace Equistore

/-! ### C01 -/

/-- **C01.** Labels built from a list of entries hold exactly these entries in
this order: the names, the count, iteration, fixed-size iteration (in debug and
release builds) and indexing all agree with the list of entries, and indexing
past the end panics. -/
theorem C01_labels_hold_entries (names : List String) (entries : List (List LabelValue))
    (l : Labels) (hn : names ≠ []) (hb : Labels.build names entries = .ok l) :
    l.names = names ∧
    l.count = .ok entries.length ∧
    l.iter = .ok entries ∧
    (∀ build, l.iterFixedSize build names.length = .ok entries) ∧
    (∀ i (hi : i < entries.length), l.index i = .ok entries[i]) ∧
    (∀ i, entries.length ≤ i → ∃ m, l.index i = .panic m) := by
  have hpos : 0 < names.length := List.length_pos_iff.2 hn
  have h := (Labels.build_eq_ok hpos).1 hb
  refine ⟨h.names_eq, h.count_eq, h.iter_eq, ?_, fun i hi => h.index_eq hi, fun i hi => ?_⟩
  · intro build
    have hs : (l.size != 0) = true := by simpa using h.size_ne_zero
    have hs' : (names.length == l.size) = true := by simp [h.size_eq]
    simp only [Labels.iterFixedSize, hs, hs', Build.debugAssert_true, Res.assert_true, Res.ok_bind]
    rw [h.values_eq]
    apply fixedSizeCollect_flatten hpos h.row_length
    rw [flatten_length_const h.row_length]
    exact Nat.le_mul_of_pos_right _ hpos
  · exact ⟨_, h.index_panic (by omega)⟩

/-- Non-vacuity of `C01_labels_hold_entries`. -/
example : ∃ l, Labels.build ["foo", "bar"] [[2, 3], [1, 243], [-4, -2413]] = .ok l ∧
    l.index 2 = .ok [-4, -2413] :=
  ⟨Labels.mk' ["foo", "bar"] [[2, 3], [1, 243], [-4, -2413]], by decide +kernel, by decide +kernel⟩

/-- **C01**, labels without names: they are empty and the functions which
divide by the number of names panic. -/
theorem C01_labels_without_names (entries : List (List LabelValue)) (l : Labels)
    (hb : Labels.build [] entries = .ok l) :
    l.names = [] ∧ l.size = 0 ∧ (∃ m, l.count = .panic m) ∧ (∃ m, l.iter = .panic m) := by
  obtain ⟨_, rfl⟩ := Labels.build_nil_eq_ok.1 hb
  exact ⟨rfl, rfl, ⟨_, rfl⟩, ⟨_, rfl⟩⟩

/-! ### C02 -/

/-- **C02.** `position` is the exact inverse of indexing, `contains` agrees with
it, and the position of an entry of the wrong length is a panic. -/
theorem C02_position_inverse_of_index (names : List String) (entries : List (List LabelValue))
    (l : Labels) (hn : names ≠ []) (hb : Labels.build names entries = .ok l) :
    (∀ e i, l.position e = .ok (some i) ↔ l.index i = .ok e) ∧
    (∀ e, e.length = names.length → (l.position e = .ok none ↔ ∀ i, l.index i ≠ .ok e)) ∧
    (∀ e, l.contains e = true ↔ ∃ i, l.index i = .ok e) ∧
    (∀ e, e.length ≠ names.length → ∃ m, l.position e = .panic m) := by
  have hpos : 0 < names.length := List.length_pos_iff.2 hn
  have h := (Labels.build_eq_ok hpos).1 hb
  have hidx : ∀ i e, l.index i = .ok e ↔ entries[i]? = some e := by
    intro i e
    by_cases hi : i < entries.length
    · rw [h.index_eq hi, List.getElem?_eq_getElem hi]; simp
    · rw [h.index_panic hi, List.getElem?_eq_none (by omega)]; simp
  refine ⟨?_, ?_, ?_, ?_⟩
  · intro e i; rw [h.position_eq_some, hidx]
  · intro e he
    rw [h.position_eq he]
    simp only [Res.ok.injEq, h.lookup_eq_none, ne_eq, hidx]
    rw [List.mem_iff_getElem?]
    simp
  · intro e
    rw [h.contains_eq, List.mem_iff_getElem?]
    simp only [hidx]
  · intro e he
    have : (e.length == l.size) = false := by rw [h.size_eq]; simpa using he
    exact ⟨_, by simp [Labels.position, this]; rfl⟩

/-- Non-vacuity of `C02_position_inverse_of_index`. -/
example : ∃ l, Labels.build ["foo", "bar"] [[2, 3], [1, 243]] = .ok l ∧
    l.position [1, 243] = .ok (some 1) ∧ l.position [1, 2] = .ok none ∧ l.contains [1, 2] = false :=
  ⟨Labels.mk' ["foo", "bar"] [[2, 3], [1, 243]], by decide +kernel, by decide +kernel,
    by decide +kernel, by decide +kernel⟩

/-! ### C03 -/

/-- `isValidLabelName` accepts exactly the identifiers. -/
theorem C03_valid_names (s : String) : isValidLabelName s = true ↔ Spec.Identifier s :=
  isValidLabelName_iff s

/-- **C03.** A sequence of builder calls yields labels exactly when all names
are distinct identifiers, all entries have one value per name, and no entry is
repeated. Otherwise it panics (it never returns anything else). -/
theorem C03_builder_accepts_iff (names : List String) (entries : List (List LabelValue)) :
    ((∃ l, Labels.build names entries = .ok l) ↔
      (∀ n ∈ names, Spec.Identifier n) ∧ names.Nodup ∧
      (∀ e ∈ entries, e.length = names.length) ∧ entries.Nodup) ∧
    (∀ e, Labels.build names entries ≠ .err e) := by
  constructor
  · by_cases hn : names = []
    · subst hn
      simp only [Labels.build_nil_eq_ok]
      constructor
      · rintro ⟨l, h | h, rfl⟩ <;> subst h <;> simp
      · rintro ⟨_, _, h1, h2⟩
        refine ⟨⟨[], [], []⟩, ?_, rfl⟩
        have h1' : ∀ e ∈ entries, e = [] := by intro e he; simpa using h1 e he
        cases entries with
        | nil => simp
        | cons a t =>
          cases t with
          | nil => right; rw [h1' a (by simp)]
          | cons b t =>
            rw [h1' a (by simp), h1' b (by simp)] at h2
            simp at h2
    · have hpos : 0 < names.length := List.length_pos_iff.2 hn
      simp only [Labels.build_eq_ok hpos]
      constructor
      · rintro ⟨l, h⟩
        exact ⟨fun n hn => (isValidLabelName_iff n).1 (h.names_ok.1 n hn), h.names_ok.2,
          h.row_length, h.nodup⟩
      · rintro ⟨h1, h2, h3, h4⟩
        exact ⟨_, Labels.mk'_holds ⟨fun n hn => (isValidLabelName_iff n).2 (h1 n hn), h2⟩ hpos h3 h4⟩
  · intro e he
    unfold Labels.build at he
    simp only [Res.bind_eq_err] at he
    rcases he with he | ⟨b, _, he | ⟨b', _, he⟩⟩
    · unfold LabelsBuilder.new at he
      split at he
      · simp at he
      · simp [Res.bind_eq_err] at he
    · exact LabelsBuilder.addAll_ne_err he
    · unfold LabelsBuilder.finish at he
      split at he <;> simp [Res.bind_eq_err] at he

/-- Non-vacuity of `C03_builder_accepts_iff`: accepted and rejected inputs. -/
example : (∃ l, Labels.build ["_", "a1"] [[0, 1], [1, 0]] = .ok l) ∧
    (∃ m, Labels.build ["1a"] [] = .panic m) ∧ (∃ m, Labels.build ["a", "a"] [] = .panic m) ∧
    (∃ m, Labels.build ["a"] [[0], [0]] = .panic m) ∧ (∃ m, Labels.build ["a"] [[0, 1]] = .panic m) :=
  ⟨⟨Labels.mk' ["_", "a1"] [[0, 1], [1, 0]], by decide +kernel⟩,
    ⟨"all labels names must be valid identifiers, '1a' is not", by decide +kernel⟩,
    ⟨"invalid labels: the same name is used multiple times", by decide +kernel⟩,
    ⟨"can not have the same label value multiple time: [0] is already present at position 0",
      by decide +kernel⟩,
    ⟨"wrong size for added label: got 2, but expected 1", by decide +kernel⟩⟩

end Equistore
