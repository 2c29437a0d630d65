import Verif.Model.Labels
import Verif.Lemmas.Res
import Verif.Spec.Labels
import Mathlib.Data.List.Nodup
import Mathlib.Data.List.Dedup

/-! Representation invariant of `Labels`. -/

namespace Equistore

variable {α : Type}

theorem flatten_length_const {n : Nat} {rows : List (List α)}
    (h : ∀ r ∈ rows, r.length = n) : rows.flatten.length = rows.length * n := by
  induction rows with
  | nil => simp
  | cons r rs ih =>
    simp only [List.flatten_cons, List.length_append, List.length_cons]
    rw [ih (fun r hr => h r (List.mem_cons_of_mem _ hr)), h r List.mem_cons_self]
    grind

theorem flatten_drop_const {n : Nat} {rows : List (List α)}
    (h : ∀ r ∈ rows, r.length = n) (i : Nat) :
    rows.flatten.drop (i * n) = (rows.drop i).flatten := by
  induction rows generalizing i with
  | nil => simp
  | cons r rs ih =>
    cases i with
    | zero => simp
    | succ i =>
      have hr : r.length = n := h r List.mem_cons_self
      have : (i + 1) * n = r.length + i * n := by grind
      rw [this, List.flatten_cons, List.drop_append, List.drop_succ_cons]
      simp only [Nat.add_sub_cancel_left]
      rw [ih (fun r hr => h r (List.mem_cons_of_mem _ hr))]
      simp

theorem flatten_chunk_const {n : Nat} {rows : List (List α)}
    (h : ∀ r ∈ rows, r.length = n) {i : Nat} (hi : i < rows.length) :
    (rows.flatten.drop (i * n)).take n = rows[i] := by
  rw [flatten_drop_const h, List.drop_eq_getElem_cons hi, List.flatten_cons]
  have : rows[i].length = n := h _ (List.getElem_mem hi)
  rw [← this, List.take_left]

/-- Cutting a flat array of rows in chunks gives back the rows. -/
theorem chunksExact_flatten {n : Nat} (hn : 0 < n) {rows : List (List α)}
    (h : ∀ r ∈ rows, r.length = n) : chunksExact n rows.flatten = rows := by
  unfold chunksExact
  rw [flatten_length_const h, Nat.mul_div_cancel _ hn]
  apply List.ext_getElem (by simp)
  intro i h1 h2
  simp only [List.getElem_map, List.getElem_range]
  exact flatten_chunk_const h h2

theorem chunksExact_length (n : Nat) (l : List α) :
    (chunksExact n l).length = l.length / n := by
  simp [chunksExact]

theorem chunksExact_zero (l : List α) : chunksExact 0 l = [] := by
  simp [chunksExact]

theorem chunksExact_row_length {n : Nat} {l : List α} {r : List α}
    (h : r ∈ chunksExact n l) : r.length = n := by
  simp only [chunksExact, List.mem_map, List.mem_range] at h
  obtain ⟨i, hi, rfl⟩ := h
  rw [List.length_take, List.length_drop]
  have : (i + 1) * n ≤ l.length := Nat.le_trans (Nat.mul_le_mul_right n hi) (Nat.div_mul_le_self _ _)
  grind

/-! ### Association list of positions -/

/-- The table `positions` for given rows. -/
def positionTable (rows : List (List LabelValue)) : List (List LabelValue × Nat) :=
  rows.zipIdx

theorem lookup_zipIdx_some [BEq α] [LawfulBEq α] {rows : List α} (hn : rows.Nodup) {e : α} {k i : Nat} :
    (rows.zipIdx k).lookup e = some i ↔ ∃ j, i = k + j ∧ rows[j]? = some e := by
  induction rows generalizing k i with
  | nil => simp
  | cons r rs ih =>
    rw [List.nodup_cons] at hn
    simp only [List.zipIdx_cons, List.lookup_cons]
    rcases Classical.em (e = r) with he | he
    · subst he
      simp only [beq_self_eq_true, Option.some.injEq]
      constructor
      · rintro rfl; exact ⟨0, rfl, rfl⟩
      · rintro ⟨j, rfl, hj⟩
        cases j with
        | zero => rfl
        | succ j =>
          simp only [List.getElem?_cons_succ] at hj
          exact absurd (List.mem_of_getElem? hj) hn.1
    · have : (e == r) = false := by simpa using he
      simp only [this, ih hn.2]
      constructor
      · rintro ⟨j, rfl, hj⟩; exact ⟨j + 1, by omega, by simpa using hj⟩
      · rintro ⟨j, rfl, hj⟩
        cases j with
        | zero => simp at hj; exact absurd hj.symm he
        | succ j => exact ⟨j, by omega, by simpa using hj⟩

theorem lookup_zipIdx_none [BEq α] [LawfulBEq α] {rows : List α} {e : α} {k : Nat} :
    (rows.zipIdx k).lookup e = none ↔ e ∉ rows := by
  induction rows generalizing k with
  | nil => simp
  | cons r rs ih =>
    simp only [List.zipIdx_cons, List.lookup_cons]
    rcases Classical.em (e = r) with he | he
    · subst he; simp
    · have : (e == r) = false := by simpa using he
      simp [this, ih, he]

theorem countDistinct_eq_length [DecidableEq α] {l : List α} :
    countDistinct l = l.length ↔ l.Nodup := by
  unfold countDistinct
  generalize hn : l.length = n
  induction n using Nat.strongRecOn generalizing l with
  | _ n ih =>
    subst hn
    cases l with
    | nil => simp
    | cons a l =>
      rw [List.eraseDups_cons, List.length_cons, List.length_cons, List.nodup_cons]
      have hle : (l.filter fun b => !b == a).length ≤ l.length := List.length_filter_le _ _
      have hle2 : ∀ (m : List α), m.eraseDups.length ≤ m.length := fun m => by
        generalize hk : m.length = k
        induction k using Nat.strongRecOn generalizing m with
        | _ k ihk =>
          subst hk
          cases m with
          | nil => simp
          | cons b m =>
            rw [List.eraseDups_cons, List.length_cons, List.length_cons]
            have h1 : (m.filter fun c => !c == b).length ≤ m.length := List.length_filter_le _ _
            have := ihk _ (by simp; omega) (m.filter fun c => !c == b) rfl
            omega
      have key : (l.filter fun b => !b == a).length = l.length ↔ a ∉ l := by
        rw [List.length_filter_eq_length_iff]
        constructor
        · intro h hm; have := h a hm; simp at this
        · intro h b hb; simp; rintro rfl; exact h hb
      constructor
      · intro h
        have h2 := hle2 (l.filter fun b => !b == a)
        have h3 : (l.filter fun b => !b == a).length = l.length := by omega
        have h4 := key.1 h3
        have h5 : (l.filter fun b => !b == a) = l := by
          apply List.filter_eq_self.2
          intro b hb; simp; rintro rfl; exact h4 hb
        rw [h5] at h
        exact ⟨h4, (ih l.length (by simp) rfl).1 (by omega)⟩
      · rintro ⟨h1, h2⟩
        have h5 : (l.filter fun b => !b == a) = l := by
          apply List.filter_eq_self.2
          intro b hb; simp; rintro rfl; exact h1 hb
        rw [h5, (ih l.length (by simp) rfl).2 h2]

/-! ### The builder -/

/-- State of a builder after adding `entries`. -/
def LabelsBuilder.Holds (b : LabelsBuilder) (names : List String) (entries : List (List LabelValue)) : Prop :=
  b.names = names ∧ b.values = entries.flatten ∧ b.positions = positionTable entries

theorem LabelsBuilder.add_holds {b : LabelsBuilder} {names : List String}
    {entries : List (List LabelValue)} (hb : b.Holds names entries) (e : List LabelValue) {b' : LabelsBuilder} :
    b.add e = .ok b' ↔
      (e.length = names.length ∧ e ∉ entries ∧
        b' = ⟨names, (entries ++ [e]).flatten, positionTable (entries ++ [e])⟩) := by
  obtain ⟨h1, h2, h3⟩ := hb
  unfold LabelsBuilder.add LabelsBuilder.addState LabelsBuilder.size
  rw [h1]
  by_cases hl : names.length = e.length
  · simp only [hl, ne_eq, not_true_eq_false, if_false, h3, positionTable]
    cases hlk : (entries.zipIdx).lookup e with
    | some p =>
      have : e ∈ entries := by
        by_contra hc; rw [lookup_zipIdx_none.2 hc] at hlk; cases hlk
      simp [this]
    | none =>
      have := lookup_zipIdx_none.1 hlk
      simp only [this, not_false_eq_true, true_and, Res.ok.injEq]
      rw [List.zipIdx_append]
      simp only [h2, List.flatten_append, List.flatten_cons, List.flatten_nil, List.append_nil,
        List.length_zipIdx, List.zipIdx_singleton]
      simp only [Nat.zero_add]
      exact eq_comm
  · have hl' : ¬ e.length = names.length := fun h => hl h.symm
    simp [hl, hl']

theorem LabelsBuilder.addAll_holds {b : LabelsBuilder} {names : List String}
    {entries : List (List LabelValue)} (hb : b.Holds names entries) (hn : entries.Nodup)
    (es : List (List LabelValue)) {b' : LabelsBuilder} :
    b.addAll es = .ok b' ↔
      ((∀ e ∈ es, e.length = names.length) ∧ (entries ++ es).Nodup ∧
        b' = ⟨names, (entries ++ es).flatten, positionTable (entries ++ es)⟩) := by
  induction es generalizing b entries with
  | nil =>
    obtain ⟨h1, h2, h3⟩ := hb
    cases b
    simp only at h1 h2 h3
    subst h1 h2 h3
    simp [LabelsBuilder.addAll, hn, eq_comm]
  | cons e es ih =>
    simp only [LabelsBuilder.addAll, Res.bind_eq_ok, LabelsBuilder.add_holds hb]
    constructor
    · rintro ⟨b1, ⟨hl, hne, rfl⟩, h⟩
      have hn' : (entries ++ [e]).Nodup := by
        rw [List.nodup_append]; refine ⟨hn, by simp, ?_⟩
        intro a ha b hb; simp at hb; subst hb; rintro rfl; exact hne ha
      have := (ih (entries := entries ++ [e]) ⟨rfl, rfl, rfl⟩ hn').1 h
      simp only [List.append_assoc, List.singleton_append] at this
      refine ⟨?_, this.2.1, this.2.2⟩
      intro x hx
      rcases List.mem_cons.1 hx with rfl | hx
      · exact hl
      · exact this.1 x hx
    · rintro ⟨hl, hnd, rfl⟩
      have hnd' : ((entries ++ [e]) ++ es).Nodup := by simpa using hnd
      have hn' : (entries ++ [e]).Nodup := (List.nodup_append.1 hnd').1
      have hne : e ∉ entries := by
        intro h
        exact (List.nodup_append.1 hn').2.2 e h e (by simp) rfl
      refine ⟨_, ⟨hl e List.mem_cons_self, hne, rfl⟩, ?_⟩
      rw [ih (entries := entries ++ [e]) ⟨rfl, rfl, rfl⟩ hn']
      refine ⟨fun x hx => hl x (List.mem_cons_of_mem _ hx), hnd', by simp⟩

/-- Names accepted by the builder. -/
def NamesOk (names : List String) : Prop :=
  (∀ n ∈ names, isValidLabelName n = true) ∧ names.Nodup

theorem LabelsBuilder.new_eq_ok {names : List String} {b : LabelsBuilder} :
    LabelsBuilder.new names = .ok b ↔ (NamesOk names ∧ b = ⟨names, [], []⟩) := by
  unfold LabelsBuilder.new NamesOk
  cases h : names.find? (fun name => !isValidLabelName name) with
  | some n =>
    have h1 := List.find?_some h
    have h2 := List.mem_of_find?_eq_some h
    simp only [reduceCtorEq, false_iff, not_and]
    rintro ⟨h3, _⟩
    have := h3 n h2
    simp [this] at h1
  | none =>
    rw [List.find?_eq_none] at h
    have h' : ∀ n ∈ names, isValidLabelName n = true := by
      intro n hn; simpa using h n hn
    simp only [Res.bind_eq_ok, Res.assert_eq_ok, beq_iff_eq, countDistinct_eq_length,
      Res.pure_eq, Res.ok.injEq]
    constructor
    · rintro ⟨_, h1, rfl⟩; exact ⟨⟨h', h1⟩, rfl⟩
    · rintro ⟨⟨_, h1⟩, rfl⟩; exact ⟨(), h1, rfl⟩

/-- The labels with given names and rows. -/
def Labels.mk' (names : List String) (rows : List (List LabelValue)) : Labels :=
  ⟨names, rows.flatten, positionTable rows⟩

/-- Representation invariant: the labels hold the given rows. -/
structure Labels.Holds (l : Labels) (names : List String) (rows : List (List LabelValue)) : Prop where
  names_eq : l.names = names
  values_eq : l.values = rows.flatten
  positions_eq : l.positions = positionTable rows
  names_ok : NamesOk names
  names_pos : 0 < names.length
  row_length : ∀ r ∈ rows, r.length = names.length
  nodup : rows.Nodup

theorem Labels.mk'_holds {names : List String} {rows : List (List LabelValue)}
    (h1 : NamesOk names) (h2 : 0 < names.length)
    (h3 : ∀ r ∈ rows, r.length = names.length) (h4 : rows.Nodup) :
    (Labels.mk' names rows).Holds names rows :=
  ⟨rfl, rfl, rfl, h1, h2, h3, h4⟩

namespace Labels.Holds
variable {l : Labels} {names : List String} {rows : List (List LabelValue)}

theorem eq_mk' (h : l.Holds names rows) : l = Labels.mk' names rows := by
  cases l
  have h1 := h.names_eq; have h2 := h.values_eq; have h3 := h.positions_eq
  simp only at h1 h2 h3
  simp [Labels.mk', h1, h2, h3]

theorem size_eq (h : l.Holds names rows) : l.size = names.length := by
  simp [Labels.size, h.names_eq]

theorem size_ne_zero (h : l.Holds names rows) : l.size ≠ 0 := by
  rw [h.size_eq]; have := h.names_pos; omega

theorem rows_eq (h : l.Holds names rows) : l.rows = rows := by
  unfold Labels.rows
  rw [h.size_eq, h.values_eq]
  exact chunksExact_flatten h.names_pos h.row_length

theorem count_eq (h : l.Holds names rows) : l.count = .ok rows.length := by
  have hp := h.names_pos
  simp only [Labels.count, h.size_eq, h.values_eq, flatten_length_const h.row_length]
  have : (names.length != 0) = true := by simp; rintro rfl; simp at hp
  rw [this, Nat.mul_div_cancel _ hp]
  rfl

theorem iter_eq (h : l.Holds names rows) : l.iter = .ok rows := by
  have hp := h.names_pos
  simp only [Labels.iter, h.rows_eq, h.size_eq]
  have : (names.length != 0) = true := by simp; rintro rfl; simp at hp
  rw [this]; rfl

theorem index_eq (h : l.Holds names rows) {i : Nat} (hi : i < rows.length) :
    l.index i = .ok rows[i] := by
  unfold Labels.index
  simp only [h.size_eq, h.values_eq, flatten_length_const h.row_length]
  rw [if_pos (Nat.mul_le_mul_right _ hi)]
  have : (i + 1) * names.length - i * names.length = names.length := by
    rw [← Nat.sub_mul]; simp
  rw [this, flatten_chunk_const h.row_length hi]

theorem index_panic (h : l.Holds names rows) {i : Nat} (hi : ¬ i < rows.length) :
    l.index i = .panic "range end index out of range for slice" := by
  unfold Labels.index
  simp only [h.size_eq, h.values_eq, flatten_length_const h.row_length]
  rw [if_neg]
  intro hc
  have := Nat.le_of_mul_le_mul_right hc h.names_pos
  omega

theorem lookup_eq_some (h : l.Holds names rows) {e : List LabelValue} {i : Nat} :
    l.positions.lookup e = some i ↔ rows[i]? = some e := by
  rw [h.positions_eq, positionTable, lookup_zipIdx_some h.nodup]
  constructor
  · rintro ⟨j, rfl, hj⟩; simpa using hj
  · intro hj; exact ⟨i, by omega, hj⟩

theorem lookup_eq_none (h : l.Holds names rows) {e : List LabelValue} :
    l.positions.lookup e = none ↔ e ∉ rows := by
  rw [h.positions_eq, positionTable, lookup_zipIdx_none]

theorem position_eq (h : l.Holds names rows) {e : List LabelValue} (he : e.length = names.length) :
    l.position e = .ok (l.positions.lookup e) := by
  simp [Labels.position, h.size_eq, he]

theorem position_eq_some (h : l.Holds names rows) {e : List LabelValue} {i : Nat} :
    l.position e = .ok (some i) ↔ rows[i]? = some e := by
  constructor
  · intro hp
    simp only [Labels.position, Res.bind_eq_ok, Res.pure_eq, Res.ok.injEq] at hp
    obtain ⟨_, _, hp⟩ := hp
    exact h.lookup_eq_some.1 hp
  · intro hr
    have := h.row_length e (List.mem_of_getElem? hr)
    rw [h.position_eq this, h.lookup_eq_some.2 hr]

theorem contains_eq (h : l.Holds names rows) {e : List LabelValue} :
    l.contains e = true ↔ e ∈ rows := by
  unfold Labels.contains
  cases hl : l.positions.lookup e with
  | none => simp [h.lookup_eq_none.1 hl]
  | some i => simp [List.mem_of_getElem? (h.lookup_eq_some.1 hl)]

end Labels.Holds

theorem Labels.build_eq_ok {names : List String} {entries : List (List LabelValue)} {l : Labels}
    (hpos : 0 < names.length) :
    Labels.build names entries = .ok l ↔ l.Holds names entries := by
  unfold Labels.build
  simp only [Res.bind_eq_ok, LabelsBuilder.new_eq_ok]
  have hfin : ∀ b : LabelsBuilder, b.names = names →
      b.finish = .ok ⟨b.names, b.values, b.positions⟩ := by
    intro b hb
    unfold LabelsBuilder.finish
    have : b.names.isEmpty = false := by
      rw [hb]; cases names <;> simp_all
    simp [this]
  constructor
  · rintro ⟨b, ⟨hnm, rfl⟩, b', hb', hf⟩
    rw [LabelsBuilder.addAll_holds (entries := []) ⟨rfl, rfl, rfl⟩ List.nodup_nil] at hb'
    obtain ⟨h1, h2, rfl⟩ := hb'
    rw [hfin _ rfl] at hf
    simp only [List.nil_append, Res.ok.injEq] at hf h2
    subst hf
    exact ⟨rfl, rfl, rfl, hnm, hpos, h1, h2⟩
  · intro h
    refine ⟨_, ⟨h.names_ok, rfl⟩, ⟨names, entries.flatten, positionTable entries⟩, ?_, ?_⟩
    · rw [LabelsBuilder.addAll_holds (entries := []) ⟨rfl, rfl, rfl⟩ List.nodup_nil]
      exact ⟨h.row_length, by simpa using h.nodup, by simp⟩
    · rw [hfin _ rfl, h.eq_mk']; rfl

/-- Labels without names: only the empty sequence or the single empty entry. -/
theorem Labels.build_nil_eq_ok {entries : List (List LabelValue)} {l : Labels} :
    Labels.build [] entries = .ok l ↔ ((entries = [] ∨ entries = [[]]) ∧ l = ⟨[], [], []⟩) := by
  unfold Labels.build
  simp only [Res.bind_eq_ok, LabelsBuilder.new_eq_ok]
  constructor
  · rintro ⟨b, ⟨hnm, rfl⟩, b', hb', hf⟩
    rw [LabelsBuilder.addAll_holds (entries := []) ⟨rfl, rfl, rfl⟩ List.nodup_nil] at hb'
    obtain ⟨h1, h2, rfl⟩ := hb'
    simp only [List.nil_append] at h2
    have h1' : ∀ e ∈ entries, e = [] := by intro e he; simpa using h1 e he
    constructor
    · cases entries with
      | nil => simp
      | cons a t =>
        cases t with
        | nil => right; rw [h1' a (by simp)]
        | cons b t =>
          rw [h1' a (by simp), h1' b (by simp)] at h2
          simp at h2
    · simp only [LabelsBuilder.finish, List.isEmpty_nil, if_true, Res.bind_eq_ok, Res.pure_eq,
        Res.ok.injEq] at hf
      obtain ⟨_, _, rfl⟩ := hf
      rfl
  · rintro ⟨h | h, rfl⟩ <;> subst h
    · refine ⟨_, ⟨by simp [NamesOk], rfl⟩, _, rfl, rfl⟩
    · refine ⟨_, ⟨by simp [NamesOk], rfl⟩, _, rfl, rfl⟩

/-- Labels with at least one name satisfying the representation invariant. -/
def Labels.WF (l : Labels) : Prop := l.Holds l.names l.rows

theorem Labels.Holds.wf {l : Labels} {names : List String} {rows : List (List LabelValue)}
    (h : l.Holds names rows) : l.WF := by
  unfold Labels.WF; rw [h.rows_eq, h.names_eq]; exact h

/-- Valid labels are determined by their names and rows. -/
theorem Labels.WF.ext {l l' : Labels} (h : l.WF) (h' : l'.WF) (hn : l.names = l'.names)
    (hr : l.rows = l'.rows) : l = l' := by
  rw [Labels.Holds.eq_mk' h, Labels.Holds.eq_mk' h', hn, hr]

theorem Labels.single_holds : ∃ l, Labels.single = .ok l ∧ l.Holds ["_"] [[0]] := by
  have h : (Labels.mk' ["_"] [[0]]).Holds ["_"] [[0]] := by
    apply Labels.mk'_holds
    · exact ⟨by decide +kernel, by decide⟩
    · decide
    · decide
    · decide
  exact ⟨_, by decide +kernel, h⟩

theorem LabelsBuilder.add_ne_err {b : LabelsBuilder} {e : List LabelValue} {er : Error} :
    b.add e ≠ .err er := by
  unfold LabelsBuilder.add LabelsBuilder.addState
  intro h
  split at h <;> try simp at h
  rename_i hs
  split at hs
  · simp at hs
  · split at hs <;> simp at hs

theorem LabelsBuilder.addAll_ne_err {b : LabelsBuilder} {es : List (List LabelValue)} {er : Error} :
    b.addAll es ≠ .err er := by
  induction es generalizing b with
  | nil => simp [LabelsBuilder.addAll]
  | cons e es ih =>
    simp only [LabelsBuilder.addAll, ne_eq, Res.bind_eq_err, not_or, not_exists, not_and]
    exact ⟨LabelsBuilder.add_ne_err, fun b _ => ih⟩

theorem fixedSizeCollect_flatten {n : Nat} (hn : 0 < n) {rows : List (List LabelValue)}
    (h : ∀ r ∈ rows, r.length = n) {fuel : Nat} (hf : rows.length ≤ fuel) :
    Labels.fixedSizeCollect n fuel rows.flatten = .ok rows := by
  induction rows generalizing fuel with
  | nil => unfold Labels.fixedSizeCollect; simp [Labels.fixedSizeNext]
  | cons r rs ih =>
    have hr : r.length = n := h r List.mem_cons_self
    unfold Labels.fixedSizeCollect
    have hne : (r :: rs).flatten.isEmpty = false := by
      cases r with
      | nil => simp at hr; omega
      | cons a t => simp
    have hle : n ≤ (r :: rs).flatten.length := by simp; omega
    simp only [Labels.fixedSizeNext, hne, Bool.false_eq_true, if_false, hle, if_true, Res.ok_bind]
    cases fuel with
    | zero => simp at hf
    | succ fuel =>
      have h1 : (r :: rs).flatten.take n = r := by rw [List.flatten_cons, ← hr, List.take_left]
      have h2 : (r :: rs).flatten.drop n = rs.flatten := by rw [List.flatten_cons, ← hr, List.drop_left]
      simp only [h1, h2]
      rw [ih (fun r hr => h r (List.mem_cons_of_mem _ hr)) (by simp at hf; omega)]
      rfl

theorem isValidLabelName_iff (s : String) : isValidLabelName s = true ↔ Spec.Identifier s := by
  have hstart : ∀ c : Char, (!c.isDigit && (c.isAlphanum || c == '_')) = true ↔ Spec.IdentStart c := by
    intro c
    simp only [Spec.IdentStart, Char.isDigit, Char.isAlphanum, Char.isAlpha, Char.isUpper,
      Char.isLower, Bool.and_eq_true, Bool.or_eq_true, beq_iff_eq, Bool.not_eq_true',
      decide_eq_true_eq, Bool.and_eq_false_iff, decide_eq_false_iff_not, Char.le_def,
      Char.ext_iff, ge_iff_le, UInt32.le_iff_toNat_le, ← UInt32.toNat_inj]
    have e1 : 'a'.val.toNat = 97 := rfl
    have e2 : 'z'.val.toNat = 122 := rfl
    have e3 : 'A'.val.toNat = 65 := rfl
    have e4 : 'Z'.val.toNat = 90 := rfl
    have e5 : '_'.val.toNat = 95 := rfl
    rw [e1, e2, e3, e4, e5]
    have e12 : '0'.val.toNat = 48 := rfl
    have e13 : '9'.val.toNat = 57 := rfl
    rw [e12, e13]
    omega
  have hrest : ∀ c : Char, (c.isAlphanum || c == '_') = true ↔ Spec.IdentRest c := by
    intro c
    simp only [Spec.IdentRest, Spec.IdentStart, Char.isDigit, Char.isAlphanum, Char.isAlpha,
      Char.isUpper, Char.isLower, Bool.and_eq_true, Bool.or_eq_true, beq_iff_eq,
      decide_eq_true_eq, Char.le_def, Char.ext_iff, ge_iff_le, UInt32.le_iff_toNat_le,
      ← UInt32.toNat_inj]
    have e1 : 'a'.val.toNat = 97 := rfl
    have e2 : 'z'.val.toNat = 122 := rfl
    have e3 : 'A'.val.toNat = 65 := rfl
    have e4 : 'Z'.val.toNat = 90 := rfl
    have e5 : '_'.val.toNat = 95 := rfl
    have e12 : '0'.val.toNat = 48 := rfl
    have e13 : '9'.val.toNat = 57 := rfl
    rw [e1, e2, e3, e4, e5, e12, e13]
    omega
  unfold isValidLabelName Spec.Identifier
  by_cases he : s.isEmpty = true
  · simp only [he, if_true, Bool.false_eq_true, false_iff]
    rintro ⟨c, cs, h, _⟩
    rw [String.isEmpty_iff] at he
    subst he
    simp at h
  · simp only [he]
    cases hs : s.toList with
    | nil =>
      exfalso; apply he
      rw [String.isEmpty_iff]
      exact String.toList_inj.1 (by simpa using hs)
    | cons c cs =>
      have hz : (cs.zipIdx 1).all (fun (c, i) => !(i == 0 && c.isDigit) && (c.isAlphanum || c == '_'))
          = cs.all (fun c => c.isAlphanum || c == '_') := by
        rw [Bool.eq_iff_iff, List.all_eq_true, List.all_eq_true]
        constructor
        · intro h d hd
          obtain ⟨k, hk⟩ := List.mem_iff_getElem?.1 hd
          have := h (d, 1 + k) (by
            rw [List.mem_iff_getElem?]; exact ⟨k, by simp [hk]⟩)
          simp only [Bool.and_eq_true] at this
          exact this.2
        · rintro h ⟨d, k⟩ hd
          have h1 := List.le_snd_of_mem_zipIdx hd
          have h2 := List.fst_mem_of_mem_zipIdx hd
          simp only at h1 h2 ⊢
          have h4 : (k == 0) = false := by simp; omega
          simp only [h4, Bool.false_and, Bool.not_false, Bool.true_and]
          exact h d h2
      simp only [Bool.false_eq_true, if_false, List.zipIdx_cons, List.all_cons, Nat.zero_add, hz]
      simp only [beq_self_eq_true, Bool.true_and, Bool.and_eq_true (_ && _), hstart, List.all_eq_true, hrest]
      constructor
      · rintro ⟨h1, h2⟩; exact ⟨c, cs, rfl, h1, h2⟩
      · rintro ⟨c', cs', h, h1, h2⟩
        rw [List.cons.injEq] at h
        obtain ⟨rfl, rfl⟩ := h
        exact ⟨h1, h2⟩

end Equistore
