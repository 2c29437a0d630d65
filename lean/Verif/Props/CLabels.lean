import Verif.Lemmas.CLabels
import Verif.Props.Labels

/-!
# Labels through the C API (C04)
-/

namespace Equistore
open Spec

/-- **C04.** Exporting labels with at least one name to C works, the C structure describes the names
and entries of the labels (with a NULL pointer for values if and only if there are no entries), and importing it
again gives equal labels. -/
theorem C04_export_import (l : Labels) (hl : l.FromBuilder) (hn : l.names ≠ []) :
    ∃ c entries, l.toC = .ok c ∧ l.iter = .ok entries ∧ Describes c l.names entries ∧
      (c.values = none ↔ entries = []) ∧ Labels.ofC c = .ok l := by
  have h := hl.wf hn
  have hd : Describes { labelsPtr := some l, names := some (l.names.map cstring),
                        values := if l.rows = [] then none else some l.rows.flatten,
                        size := l.names.length, count := l.rows.length } l.names l.rows := by
    refine ⟨rfl, rfl, ⟨l.names.map cstring, [], by simp, ?_⟩, ?_, h.row_length⟩
    · rw [List.forall₂_map_left_iff, List.forall₂_same]
      intro n hn
      exact isCString_cstring (identifier_no_nul ((isValidLabelName_iff n).1 (h.names_ok.1 n hn)))
    · by_cases hr : l.rows = []
      · exact .inl ⟨if_pos hr, hr⟩
      · exact .inr ⟨[], by simp [hr]⟩
  refine ⟨_, l.rows, h.toC, h.iter_eq, hd, ?_, ?_⟩
  · by_cases hr : l.rows = [] <;> simp [hr]
  · rw [ofC_eq_build hd hn]
    exact (Labels.build_eq_ok h.names_pos).2 h

/-- Non-vacuity of `C04_export_import`: labels with two names and two entries, and without entries. -/
example :
    (∃ c, (Labels.mk' ["a", "b"] [[1, 2], [-3, 4]]).toC = .ok c ∧ c.count = 2 ∧ c.size = 2 ∧
      c.values = some [1, 2, -3, 4] ∧ c.names = some [[97, 0], [98, 0]]) ∧
    (∃ c, (Labels.mk' ["a", "b"] []).toC = .ok c ∧ c.count = 0 ∧ c.size = 2 ∧ c.values = none) :=
  ⟨⟨_, (Labels.mk'_holds (by unfold NamesOk; decide +kernel) (by decide) (by decide) (by decide)).toC, rfl, rfl,
      by decide, by decide +kernel⟩,
   ⟨_, (Labels.mk'_holds (by unfold NamesOk; decide +kernel) (by decide) (by decide) (by decide)).toC, rfl, rfl,
      by decide⟩⟩

/-- **C04.** A C structure describing some names and entries is accepted if and only if names are
different identifiers and entries are all different. The labels have these names and entries. -/
theorem C04_import (c : CLabels) (names : List String) (entries : List (List LabelValue))
    (h : Describes c names entries) (hn : names ≠ []) :
    ((∃ l, Labels.ofC c = .ok l) ↔
      (∀ n ∈ names, Identifier n) ∧ names.Nodup ∧ entries.Nodup) ∧
    (∀ l, Labels.ofC c = .ok l → l.FromBuilder ∧ l.names = names ∧ l.count = .ok entries.length ∧
      l.iter = .ok entries) := by
  rw [ofC_eq_build h hn]
  have hpos : 0 < names.length := List.length_pos_iff.2 hn
  refine ⟨?_, fun l hl => ?_⟩
  · constructor
    · rintro ⟨l, hl⟩
      have hh := (Labels.build_eq_ok hpos).1 hl
      exact ⟨fun n hn => (isValidLabelName_iff n).1 (hh.names_ok.1 n hn), hh.names_ok.2, hh.nodup⟩
    · rintro ⟨h1, h2, h3⟩
      exact ⟨_, (Labels.build_eq_ok hpos).2
        (Labels.mk'_holds ⟨fun n hn => (isValidLabelName_iff n).2 (h1 n hn), h2⟩ hpos h.rows h3)⟩
  · have hh := (Labels.build_eq_ok hpos).1 hl
    exact ⟨⟨_, _, hl⟩, hh.names_eq, hh.count_eq, hh.iter_eq⟩

/-- Non-vacuity of `C04_import`: a structure written by hand, with more memory behind the
names and the values than needed. -/
example : Describes { labelsPtr := none, names := some [[97, 0, 5], [98, 98, 0], [1]],
                      values := some [1, 2, 3, 4, 5], size := 2, count := 2 } ["a", "bb"] [[1, 2], [3, 4]] := by
  refine ⟨rfl, rfl, ⟨[[97, 0, 5], [98, 98, 0]], [[1]], rfl, ?_⟩, .inr ⟨[5], rfl⟩, by decide⟩
  refine .cons ⟨by decide, [5], by decide +kernel⟩ (.cons ⟨by decide, [], by decide +kernel⟩ .nil)

/-- **C04.** NULL pointers are reported as errors. -/
theorem C04_import_null (c : CLabels) :
    (c.names = none → ∃ m, Labels.ofC c = .err (.invalidParameter m)) ∧
    (c.values = none → 0 < c.count → ∃ m, Labels.ofC c = .err (.invalidParameter m)) := by
  constructor
  · intro h
    exact ⟨_, by simp [Labels.ofC, h, Res.okOr]; rfl⟩
  · intro h hc
    cases hn : c.names with
    | none => exact ⟨_, by simp [Labels.ofC, hn, Res.okOr]; rfl⟩
    | some names => exact ⟨_, by simp [Labels.ofC, hn, h, hc, Res.okOr, Res.guardErr]; rfl⟩

/-- **C04.** `eqs_labels_position` on labels coming from the library: the result is the index of the
entry, or -1 if the entry is not part of the labels. -/
theorem C04_position (l : Labels) (hl : l.FromBuilder) (hn : l.names ≠ []) (c : CLabels)
    (hc : l.toC = .ok c) (values : List LabelValue) (count : Nat) (hcount : count ≤ values.length) :
    (count = c.size → ∃ r, labelsPosition c values count = .ok r ∧
      (∀ i : Nat, r = i ↔ l.index i = .ok (values.take count)) ∧
      (r = -1 ↔ ∀ i, l.index i ≠ .ok (values.take count))) ∧
    (count ≠ c.size → ∃ m, labelsPosition c values count = .panic m) := by
  have h := hl.wf hn
  rw [h.toC] at hc
  cases hc
  obtain ⟨names, entries, hb⟩ := hl
  have hne : names ≠ [] := by
    rintro rfl
    obtain ⟨_, rfl⟩ := Labels.build_nil_eq_ok.1 hb
    exact hn rfl
  obtain ⟨p1, p2, _, p4⟩ := C02_position_inverse_of_index names entries l hne hb
  have hnames := ((Labels.build_eq_ok (List.length_pos_iff.2 hne)).1 hb).names_eq
  have hlen : (values.take count).length = count := by simp [hcount]
  constructor
  · intro hs
    simp only at hs
    have hpos := h.position_eq (e := values.take count) (by rw [hlen, hs])
    cases hp : l.positions.lookup (values.take count) with
    | none =>
      rw [hp] at hpos
      have hno := (p2 (values.take count) (by rw [hlen, hs, hnames])).1 hpos
      refine ⟨-1, by simp [labelsPosition, Res.okOr, hpos], fun i => ⟨fun hi => ?_, fun hi => absurd hi (hno i)⟩,
        fun _ => hno, fun _ => rfl⟩
      omega
    | some p =>
      rw [hp] at hpos
      have hip := (p1 _ _).1 hpos
      refine ⟨p, by simp [labelsPosition, Res.okOr, hpos], fun i => ⟨fun hi => ?_, fun hi => ?_⟩,
        fun hi => ?_, fun hi => absurd hip (hi p)⟩
      · have : p = i := by omega
        exact this ▸ hip
      · have := (p1 _ _).2 hi
        rw [hpos] at this
        cases this
        rfl
      · omega
  · intro hs
    simp only at hs
    obtain ⟨m, hm⟩ := p4 (values.take count) (by rw [hlen, ← hnames]; exact hs)
    exact ⟨m, by simp [labelsPosition, Res.okOr, hm]⟩

/-- Non-vacuity of `C04_position`. -/
example : ∃ c, (Labels.mk' ["a", "b"] [[1, 2], [-3, 4]]).toC = .ok c ∧
    labelsPosition c [-3, 4, 9] 2 = .ok 1 ∧ labelsPosition c [-3, 5] 2 = .ok (-1) :=
  ⟨_, (Labels.mk'_holds (by unfold NamesOk; decide +kernel) (by decide) (by decide) (by decide)).toC,
    by decide +kernel, by decide +kernel⟩

/-- **C04.** Labels which do not come from the library do not support
`eqs_labels_position`. -/
theorem C04_position_foreign (c : CLabels) (h : c.labelsPtr = none) (values : List LabelValue) (count : Nat) :
    ∃ m, labelsPosition c values count = .err (.invalidParameter m) :=
  ⟨_, by simp [labelsPosition, h, Res.okOr]; rfl⟩

/-- **C04**, labels without names: they can be imported (with any count), but exporting them panics
(although `src/c_api/labels.rs` lines 76 and 82 take care of this case). -/
theorem C04_no_names :
    (∀ c : CLabels, c.size = 0 → c.names ≠ none → (c.values ≠ none ∨ c.count = 0) →
      ∃ l, Labels.ofC c = .ok l ∧ l.names = []) ∧
    (∀ l : Labels, l.FromBuilder → l.names = [] → ∃ m, l.toC = .panic m) := by
  constructor
  · intro c hs hn hv
    obtain ⟨names, hn⟩ := Option.ne_none_iff_exists'.1 hn
    refine ⟨⟨[], [], []⟩, ?_, rfl⟩
    have hg : (!(c.values.isNone && decide (c.count > 0))) = true := by
      rcases hv with hv | hv
      · obtain ⟨v, hv⟩ := Option.ne_none_iff_exists'.1 hv
        simp [hv]
      · simp [hv]
    simp only [Labels.ofC, hn, hg, hs, Res.okOr, Res.guardErr]
    simp [LabelsBuilder.new, LabelsBuilder.finish, countDistinct]
  · intro l hl hn
    obtain ⟨names, entries, hb⟩ := hl
    cases names with
    | nil =>
      obtain ⟨_, rfl⟩ := Labels.build_nil_eq_ok.1 hb
      exact ⟨_, rfl⟩
    | cons n ns =>
      have := ((Labels.build_eq_ok (by simp)).1 hb).names_eq
      rw [hn] at this
      cases this

end Equistore
