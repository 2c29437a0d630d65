import Verif.Spec.LabelsPrint
import Verif.Props.PyPrint
import Verif.Props.Labels
import Verif.Lemmas.CMemory

/-!
# C98: Printed labels in Rust show the names and all entries
-/

namespace Equistore
open Spec

theorem lines_all {ls : List (List Char)} (h : ∀ l ∈ ls, '\n' ∉ l) (text : List Char) :
    lines ((ls.flatMap fun l => l ++ ['\n']) ++ text) = ls ++ lines text := by
  induction ls with
  | nil => rfl
  | cons l ls ih =>
    rw [List.flatMap_cons, List.append_assoc, List.append_assoc, List.singleton_append,
      lines_cons (h l List.mem_cons_self), ih fun l hl => h l (List.mem_cons_of_mem _ hl)]
    rfl

private theorem comma : ¬ IdentRest ',' := by unfold IdentRest IdentStart; decide
private theorem space : ¬ IdentRest ' ' := by unfold IdentRest IdentStart; decide
private theorem newline : ¬ IdentRest '\n' := by unfold IdentRest IdentStart; decide

theorem withoutCommas_name {n : String} (h : Identifier n) : withoutCommas n.toList = n.toList := by
  unfold withoutCommas
  refine (List.map_congr_left fun c hc => ?_).trans (List.map_id _)
  rw [if_neg]
  · rfl
  · rintro rfl
    exact identifier_not_mem h comma hc

theorem name_ne_nil {n : String} (h : Identifier n) : n.toList ≠ [] := by
  obtain ⟨c, cs, e, _⟩ := h
  rw [e]
  simp

theorem words_joinNames {names : List String} (h : ∀ n ∈ names, Identifier n) :
    words (withoutCommas (Labels.joinNames names)) = names.map (·.toList) := by
  induction names with
  | nil => rfl
  | cons n names ih =>
    have hn := h n List.mem_cons_self
    have hs := identifier_not_mem hn space
    cases names with
    | nil =>
      rw [Labels.joinNames, withoutCommas_name hn]
      have := words_word (text := []) (name_ne_nil hn) hs (.inl rfl)
      rw [List.append_nil] at this
      rw [this]
      rfl
    | cons m names =>
      have e : withoutCommas (Labels.joinNames (n :: m :: names)) =
          n.toList ++ ' ' :: ' ' :: withoutCommas (Labels.joinNames (m :: names)) := by
        rw [Labels.joinNames, withoutCommas, List.map_append, List.map_append]
        · change withoutCommas n.toList ++ _ ++ _ = _
          rw [withoutCommas_name hn, List.append_assoc]
          rfl
        · simp
      rw [e, words_word (name_ne_nil hn) hs (.inr rfl), words, if_pos rfl, words, if_pos rfl,
        ih fun n hn => h n (List.mem_cons_of_mem _ hn)]
      rfl

theorem newline_joinNames {names : List String} (h : ∀ n ∈ names, Identifier n) : '\n' ∉ Labels.joinNames names := by
  induction names with
  | nil => simp [Labels.joinNames]
  | cons n names ih =>
    have hn := identifier_not_mem (h n List.mem_cons_self) newline
    cases names with
    | nil => exact hn
    | cons m names =>
      rw [Labels.joinNames]
      · simp only [List.mem_append, not_or]
        exact ⟨⟨hn, by decide⟩, ih fun n hn => h n (List.mem_cons_of_mem _ hn)⟩
      · simp

theorem space_decimal (x : Int) : ' ' ∉ decimal x := decimal_not_mem (by decide) (by decide) x

theorem newline_center (width : Nat) (x : Int) : '\n' ∉ center width (decimal x) := by
  unfold center
  simp only [List.mem_append, not_or, List.mem_replicate]
  exact ⟨⟨by simp, decimal_not_mem (by decide) (by decide) x⟩, by simp⟩

theorem words_center (width : Nat) (x : Int) {text : List Char} (ht : text.head? = some ' ') :
    words (center width (decimal x) ++ text) = decimal x :: words text := by
  unfold center
  rw [List.append_assoc, List.append_assoc, words_spaces, words_word (decimal_ne_nil x) (space_decimal x),
    words_spaces]
  right
  cases h : (width - (decimal x).length + 1) / 2 with
  | zero => simpa using ht
  | succ n => rfl

theorem debugEntry_words {names : List String} {entry : List LabelValue} (h : entry.length = names.length) :
    words (Labels.debugEntry names entry) = entry.map fun x => decimal x.toInt := by
  have key : ∀ {names : List String} {entry : List LabelValue}, entry.length = names.length →
      words ((entry.zip (names.map fun s => s.utf8ByteSize)).flatMap fun (value, width) =>
        center width (decimal value.toInt) ++ "  ".toList) = entry.map fun x => decimal x.toInt := by
    intro names entry h
    induction entry generalizing names with
    | nil => rfl
    | cons x entry ih =>
      cases names with
      | nil => cases h
      | cons n names =>
        simp only [List.map_cons, List.zip_cons_cons, List.flatMap_cons, List.append_assoc]
        rw [words_center _ _ rfl]
        exact congrArg _ ((words_spaces 2 _).trans (ih (Nat.succ.inj h)))
  rw [Labels.debugEntry]
  exact (words_spaces 4 _).trans (key h)

theorem newline_debugEntry (names : List String) (entry : List LabelValue) : '\n' ∉ Labels.debugEntry names entry := by
  unfold Labels.debugEntry
  simp only [List.mem_append, not_or, List.mem_flatMap, not_exists, not_and]
  exact ⟨by decide, fun p _ => ⟨newline_center _ _, by decide⟩⟩

/-- **C98**, full statement: labels can always be printed, and the text shows the names and all entries. -/
def C98_full_statement : Prop :=
  ∀ (names : List String) (entries : List (List LabelValue)) (l : Labels), Labels.build names entries = .ok l →
    ∃ text, l.debug = .ok text ∧ ShowsEntries names entries text

theorem debug_lines {names : List String} {entries : List (List LabelValue)} {l : Labels} (hn : names ≠ [])
    (hb : Labels.build names entries = .ok l) : ∃ text, l.debug = .ok text ∧
      lines text = "Labels{".toList :: ("    ".toList ++ Labels.joinNames names) ::
        entries.map (Labels.debugEntry names) ++ ["}".toList, []] := by
  obtain ⟨h1, _, h3, _⟩ := C01_labels_hold_entries names entries l hn hb
  obtain ⟨hi, _⟩ := (C03_builder_accepts_iff names entries).1.1 ⟨l, hb⟩
  unfold Labels.debug
  rw [h1, h3]
  refine ⟨_, rfl, ?_⟩
  have e : "Labels{\n    ".toList ++ Labels.joinNames names ++ ['\n'] ++
      (entries.flatMap fun entry => Labels.debugEntry names entry ++ ['\n']) ++ "}\n".toList =
      (("Labels{".toList :: ("    ".toList ++ Labels.joinNames names) :: entries.map (Labels.debugEntry names) ++
        ["}".toList]).flatMap fun l => l ++ ['\n']) ++ [] := by
    rw [List.append_nil, List.flatMap_append, List.flatMap_cons, List.flatMap_cons, List.flatMap_map]
    change _ = (_ ++ _) ++ ("}".toList ++ ['\n'] ++ [])
    rw [show "Labels{\n    ".toList = "Labels{".toList ++ ['\n'] ++ "    ".toList from rfl,
      show "}\n".toList = "}".toList ++ ['\n'] ++ [] from rfl]
    simp only [List.append_assoc]
  change lines ("Labels{\n    ".toList ++ Labels.joinNames names ++ ['\n'] ++
      (entries.flatMap fun entry => Labels.debugEntry names entry ++ ['\n']) ++ "}\n".toList) = _
  rw [e, lines_all]
  · simp [lines]
  · intro l hl
    simp only [List.mem_append, List.mem_cons, List.mem_map, List.not_mem_nil, or_false] at hl
    rcases hl with (rfl | rfl | ⟨entry, _, rfl⟩) | rfl
    · decide
    · simp only [List.mem_append, not_or]
      exact ⟨by decide, newline_joinNames hi⟩
    · exact newline_debugEntry names entry
    · decide

/-- **C98**, partial: for labels with at least one name. -/
theorem C98_partial (names : List String) (entries : List (List LabelValue)) (l : Labels) (hn : names ≠ [])
    (hb : Labels.build names entries = .ok l) : ∃ text, l.debug = .ok text ∧ ShowsEntries names entries text := by
  obtain ⟨hi, _, hl, _⟩ := (C03_builder_accepts_iff names entries).1.1 ⟨l, hb⟩
  obtain ⟨text, ht, e⟩ := debug_lines hn hb
  refine ⟨text, ht, _, _, e, ?_, ?_⟩
  · unfold withoutCommas
    rw [List.map_append]
    exact (words_spaces 4 _).trans (words_joinNames hi)
  · rw [List.map_map, tableOf]
    exact List.map_congr_left fun entry he => debugEntry_words (hl entry he)

/-- Labels which are printed in the same way are the same. -/
theorem C98_determines (names names' : List String) (entries entries' : List (List LabelValue)) (l l' : Labels)
    (hn : names ≠ []) (hn' : names' ≠ []) (hb : Labels.build names entries = .ok l)
    (hb' : Labels.build names' entries' = .ok l') (h : l.debug = l'.debug) : names = names' ∧ entries = entries' := by
  obtain ⟨text, ht, a, b, e1, e2, e3⟩ := C98_partial names entries l hn hb
  obtain ⟨text', ht', a', b', e1', e2', e3'⟩ := C98_partial names' entries' l' hn' hb'
  rw [ht, ht', Res.ok.injEq] at h
  subst h
  rw [e1] at e1'
  simp only [List.cons_append, List.cons.injEq, true_and] at e1'
  obtain ⟨rfl, hab⟩ := e1'
  obtain rfl := List.append_cancel_right hab
  refine ⟨?_, tableOf_injective (e3.symm.trans e3')⟩
  exact List.map_injective_iff.2 (fun _ _ h => String.toList_inj.1 h) (e2.symm.trans e2')

theorem joinNames_cell {names : List String} {j : Nat} (hj : j < names.length) :
    ((Labels.joinNames names).drop ((names.take j).map fun n => n.length + 2).sum).take (names.getD j "").length =
      (names.getD j "").toList := by
  induction names generalizing j with
  | nil => cases hj
  | cons n names ih =>
    cases j with
    | zero =>
      have h : ∃ tail, Labels.joinNames (n :: names) = n.toList ++ tail := by
        cases names with
        | nil => exact ⟨[], by simp [Labels.joinNames]⟩
        | cons m names => exact ⟨", ".toList ++ Labels.joinNames (m :: names), by simp [Labels.joinNames]⟩
      obtain ⟨tail, e⟩ := h
      rw [e]
      simp only [List.take_zero, List.map_nil, List.sum_nil, List.drop_zero, List.getD_cons_zero]
      rw [← String.length_toList, List.take_left]
    | succ j =>
      cases names with
      | nil => exact absurd hj (by simp)
      | cons m names =>
        have e : Labels.joinNames (n :: m :: names) = (n.toList ++ ", ".toList) ++ Labels.joinNames (m :: names) := by
          simp [Labels.joinNames]
        rw [e, List.take_succ_cons, List.map_cons, List.sum_cons, List.getD_cons_succ, ← List.drop_drop,
          show n.length + 2 = (n.toList ++ ", ".toList).length by simp [← String.length_toList], List.drop_left]
        exact ih (Nat.lt_of_succ_lt_succ hj)

theorem length_center {width : Nat} {text : List Char} (h : text.length ≤ width) : (center width text).length = width := by
  unfold center
  simp only [List.length_append, List.length_replicate]
  omega

theorem byteSize_name {n : String} (h : Identifier n) : n.utf8ByteSize = n.length := by
  have key : ∀ l : List Char, (∀ c ∈ l, c.val ≤ 127) → (l.flatMap String.utf8EncodeChar).length = l.length := by
    intro l hl
    rw [List.length_flatMap]
    induction l with
    | nil => rfl
    | cons c l ih =>
      rw [List.map_cons, List.sum_cons, ih fun c hc => hl c (List.mem_cons_of_mem _ hc), String.length_utf8EncodeChar,
        Char.utf8Size_eq_one_iff.2 (hl c List.mem_cons_self), List.length_cons, Nat.add_comm]
  have e : n.utf8ByteSize = (n.toList.flatMap String.utf8EncodeChar).length := by
    rw [← utf8Bytes_eq]
    rfl
  rw [e, key, String.length_toList]
  intro c hc
  have hr : IdentRest c := by
    by_contra hr
    exact identifier_not_mem h hr hc
  unfold IdentRest IdentStart at hr
  simp only [Char.le_def] at hr
  rcases hr with (⟨_, h⟩ | ⟨_, h⟩ | rfl) | ⟨_, h⟩
  · exact UInt32.le_trans h (by decide)
  · exact UInt32.le_trans h (by decide)
  · decide
  · exact UInt32.le_trans h (by decide)

theorem entry_cell {names : List String} {entry : List LabelValue} (hi : ∀ n ∈ names, Identifier n)
    (hl : entry.length = names.length) (hw : ∀ k, ∀ x ∈ entry[k]?, (decimal x.toInt).length ≤ (names.getD k "").length)
    {j : Nat} {x : LabelValue} (hj : entry[j]? = some x) :
    (((entry.zip (names.map fun s => s.utf8ByteSize)).flatMap fun (value, width) =>
        center width (decimal value.toInt) ++ "  ".toList).drop
          ((names.take j).map fun n => n.length + 2).sum).take (names.getD j "").length =
      center (names.getD j "").length (decimal x.toInt) := by
  induction entry generalizing names j with
  | nil => cases hj
  | cons y entry ih =>
    cases names with
    | nil => cases hl
    | cons n names =>
      have hy : (decimal y.toInt).length ≤ n.length := hw 0 y rfl
      have hc := length_center hy
      simp only [List.map_cons, List.zip_cons_cons, List.flatMap_cons, byteSize_name (hi n List.mem_cons_self)]
      cases j with
      | zero =>
        obtain rfl := Option.some.inj hj
        simp only [List.take_zero, List.map_nil, List.sum_nil, List.drop_zero, List.getD_cons_zero]
        rw [List.append_assoc]
        exact List.take_left' hc
      | succ j =>
        rw [List.take_succ_cons, List.map_cons, List.sum_cons, List.getD_cons_succ, ← List.drop_drop]
        rw [show n.length + 2 = (center n.length (decimal y.toInt) ++ "  ".toList).length by simp [hc], List.drop_left]
        exact ih (fun n hn => hi n (List.mem_cons_of_mem _ hn)) (Nat.succ.inj hl) (fun k => hw (k + 1)) hj

/-- Columns: the values of entries which are not longer than the names are printed below their names. -/
theorem C98_columns (names : List String) (entries : List (List LabelValue)) (l : Labels) (hn : names ≠ [])
    (hb : Labels.build names entries = .ok l) : ∃ text namesLine table, l.debug = .ok text ∧
      lines text = "Labels{".toList :: namesLine :: table ++ ["}".toList, []] ∧
      (∀ j, j < names.length → below names j namesLine = (names.getD j "").toList) ∧
      ∀ (i : Nat) (line : List Char) (entry : List LabelValue), table[i]? = some line → entries[i]? = some entry →
        (∀ k, ∀ x ∈ entry[k]?, (decimal x.toInt).length ≤ (names.getD k "").length) →
        ∀ j x, entry[j]? = some x → words (below names j line) = [decimal x.toInt] := by
  obtain ⟨hi, _, hl, _⟩ := (C03_builder_accepts_iff names entries).1.1 ⟨l, hb⟩
  obtain ⟨text, ht, e⟩ := debug_lines hn hb
  refine ⟨text, _, _, ht, e, fun j hj => ?_, fun i line entry h1 h2 hw j x hx => ?_⟩
  · unfold below column
    rw [← List.drop_drop]
    exact joinNames_cell hj
  · rw [List.getElem?_map, h2] at h1
    obtain rfl := Option.some.inj h1
    unfold below column Labels.debugEntry
    rw [← List.drop_drop]
    have h := entry_cell hi (hl entry (List.mem_of_getElem? h2)) hw hx
    refine (congrArg words h).trans ?_
    unfold center
    rw [List.append_assoc, words_spaces, words_word (decimal_ne_nil _) (space_decimal _)]
    · have := words_spaces (((names.getD j "").length - (decimal x.toInt).length + 1) / 2) []
      rw [List.append_nil] at this
      rw [this]
      rfl
    · cases ((names.getD j "").length - (decimal x.toInt).length + 1) / 2 with
      | zero => exact .inl rfl
      | succ n => exact .inr rfl

/-- **C98** is false: labels without names panic. -/
theorem C98_counterexample : ¬ C98_full_statement := by
  intro h
  obtain ⟨text, ht, _⟩ := h [] [] ⟨[], [], []⟩ (by decide +kernel)
  cases ht

/-- The hypotheses are met, and the text for two names and three entries, the last one with a value which is longer than
the name. -/
example :
    (Labels.build ["structure", "n"] [[0, 1], [-25, 3], [2, 100]]).bind Labels.debug =
      .ok "Labels{\n    structure, n\n        0      1  \n       -25     3  \n        2      100  \n}\n".toList := by
  decide +kernel

end Equistore
