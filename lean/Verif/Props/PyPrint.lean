import Verif.Lemmas.PyPrint
import Verif.Props.PySelection

/-!
# C76: printing a tensor map

`print(tensor)` shows the number of blocks, the names of the keys and a table with the keys. The texts are read by
splitting them into lines and words.
-/

namespace Equistore
open Spec
variable {A : Type} [ArrayLike A]

/-- The keys, as they are given to Python. -/
theorem pyKeys_canonical {t : TensorMap A} (ht : TensorValid t) :
    ∃ v, pyKeys t = .ok v ∧ v.names = t.keys.names ∧ v.Canonical t.keys.rows ∧ t.keys.rows.length = t.blocks.length := by
  have hkn := keys_names_ne ht
  have hkw := ht.keys.wf hkn
  have hcount : t.keys.rows.length = t.blocks.length := by
    have := hkw.count_eq
    rw [ht.count, Res.ok.injEq] at this
    exact this.symm
  obtain ⟨c, hc⟩ : ∃ c, t.keys.toC = .ok c := ⟨_, hkw.toC⟩
  have h := PyLabels.ofC_eq hkw hkn hc
  have hcan := PyLabels.canonical_ofMemory (names := t.keys.names) (rows := t.keys.rows)
    (if t.keys.rows = [] then none else some c) hkw.row_length
  refine ⟨_, ?_, PyLabels.names_ofMemory _ _ _ _, hcan, hcount⟩
  unfold pyKeys
  rw [hc]
  exact h

theorem keys_identifiers {t : TensorMap A} (ht : TensorValid t) : ∀ n ∈ t.keys.names, Identifier n := fun n hn =>
  (isValidLabelName_iff n).1 ((ht.keys.wf (keys_names_ne ht)).names_ok.1 n hn)

theorem pyStr_eq {t : TensorMap A} (ht : TensorValid t) :
    pyStr t = .ok ("TensorMap with ".toList ++ decimal t.blocks.length ++ " blocks\n".toList ++
      ((("keys: [".toList ++ shownNames t.keys.names t.keys.rows ++ "]".toList) ::
        entryLines t.keys.names (t.blocks.length + 1) t.keys.rows).flatMap fun l => l ++ ['\n']).dropLast) := by
  obtain ⟨v, hv, hn, hc, hcount⟩ := pyKeys_canonical ht
  have hl : pyLen t = .ok t.blocks.length := by
    unfold pyLen
    rw [hv, ← hcount, ← hc.count]
    rfl
  unfold pyStr
  rw [hl, hv]
  change printLabels v "keys".toList (t.blocks.length + 1) >>= _ = _
  rw [printLabels_eq hc hn (keys_names_ne ht)]
  rfl

theorem pyRepr_eq {t : TensorMap A} (ht : TensorValid t) :
    pyRepr t = .ok ("TensorMap with ".toList ++ decimal t.blocks.length ++ " blocks\n".toList ++
      ((("keys: [".toList ++ shownNames t.keys.names t.keys.rows ++ "]".toList) ::
        entryLines t.keys.names 10 t.keys.rows).flatMap fun l => l ++ ['\n']).dropLast) := by
  obtain ⟨v, hv, hn, hc, hcount⟩ := pyKeys_canonical ht
  have hl : pyLen t = .ok t.blocks.length := by
    unfold pyLen
    rw [hv, ← hcount, ← hc.count]
    rfl
  unfold pyRepr
  rw [hl, hv]
  change printLabels v "keys".toList 10 >>= _ = _
  rw [printLabels_eq hc hn (keys_names_ne ht)]
  rfl

theorem printed_of_lines {t : TensorMap A} (ht : TensorValid t) (limit : Nat) :
    Printed t.keys.names t.blocks.length ((entryLines t.keys.names limit t.keys.rows).map words)
      ("TensorMap with ".toList ++ decimal t.blocks.length ++ " blocks\n".toList ++
      ((("keys: [".toList ++ shownNames t.keys.names t.keys.rows ++ "]".toList) ::
        entryLines t.keys.names limit t.keys.rows).flatMap fun l => l ++ ['\n']).dropLast) :=
  ⟨_, _, _, lines_printed (keys_identifiers ht) _ _ _, words_title _,
    ⟨_, rfl, words_shownNames (keys_identifiers ht) _⟩, rfl⟩

/-- A text shows only one list of names, one number of blocks and one table. -/
theorem Spec.Printed.unique {names names' : List String} {count count' : Nat} {table table' : List (List (List Char))}
    {text : List Char} (h : Printed names count table text) (h' : Printed names' count' table' text) :
    names = names' ∧ count = count' ∧ table = table' := by
  obtain ⟨a, b, c, hl, ht, ⟨s, hb, hs⟩, hc⟩ := h
  obtain ⟨a', b', c', hl', ht', ⟨s', hb', hs'⟩, hc'⟩ := h'
  rw [hl, List.cons.injEq, List.cons.injEq] at hl'
  obtain ⟨rfl, rfl, rfl⟩ := hl'
  refine ⟨?_, ?_, hc.symm.trans hc'⟩
  · rw [hb] at hb'
    have hs2 : s = s' := List.append_cancel_left (List.append_cancel_right hb')
    rw [← hs2, hs] at hs'
    exact List.map_injective_iff.2 (fun _ _ h => quoted_injective h) hs'
  · rw [ht] at ht'
    simp only [List.cons.injEq, and_true, true_and] at ht'
    exact Int.ofNat.inj (decimal_injective ht')

theorem tableOf_injective {a b : List (List LabelValue)} (h : tableOf a = tableOf b) : a = b := by
  have hx : Function.Injective fun x : LabelValue => decimal x.toInt := fun _ _ h =>
    Int32.toInt_inj.1 (decimal_injective h)
  exact List.map_injective_iff.2 (List.map_injective_iff.2 hx) h

theorem map_words_entries {t : TensorMap A} (ht : TensorValid t) {rows : List (List LabelValue)}
    (hr : ∀ r ∈ rows, r ∈ t.keys.rows) (hn : ∀ r ∈ t.keys.rows, Narrow t.keys.names r) :
    (rows.map (printEntry 7 (t.keys.names.map fun n => n.length + 3))).map words = tableOf rows := by
  rw [List.map_map, tableOf]
  refine List.map_congr_left fun r hm => ?_
  exact words_entry ((ht.keys.wf (keys_names_ne ht)).row_length r (hr r hm)) (hn r (hr r hm)) 7

/-- C76: printing never fails. The printed text always shows the number of blocks and the names
of the keys, and has one line for each key. -/
theorem C76_header (t : TensorMap A) (ht : TensorValid t) :
    ∃ text table, pyStr t = .ok text ∧ Printed t.keys.names t.blocks.length table text ∧
      table.length = t.blocks.length := by
  refine ⟨_, _, pyStr_eq ht, printed_of_lines ht _, ?_⟩
  obtain ⟨v, hv, hn, hc, hcount⟩ := pyKeys_canonical ht
  unfold entryLines
  rw [if_pos (by split <;> omega), List.length_map, List.length_map, hcount]

/-- C76 as a user may expect it: two tensor maps which print the same text have the same keys. It is false. -/
def C76_full_statement : Prop :=
  ∀ (A : Type) [ArrayLike A] (t t' : TensorMap A), TensorValid t → TensorValid t' →
    ∀ text, pyStr t = .ok text → pyStr t' = .ok text → t.keys.names = t'.keys.names ∧ t.keys.rows = t'.keys.rows

/-- C76, when the values fit under their names: the printed text shows all the values of all keys, in order. -/
theorem C76_str_partial (t : TensorMap A) (ht : TensorValid t) (hn : ∀ r ∈ t.keys.rows, Narrow t.keys.names r) :
    ∃ text, pyStr t = .ok text ∧ Printed t.keys.names t.blocks.length (tableOf t.keys.rows) text := by
  refine ⟨_, pyStr_eq ht, ?_⟩
  have h := printed_of_lines ht (t.blocks.length + 1)
  obtain ⟨v, hv, -, hc, hcount⟩ := pyKeys_canonical ht
  have e : (entryLines t.keys.names (t.blocks.length + 1) t.keys.rows).map words = tableOf t.keys.rows := by
    unfold entryLines
    rw [if_pos (by split <;> omega)]
    exact map_words_entries ht (fun _ h => h) hn
  rwa [e] at h

/-- C76, when the values fit under their names: two tensor maps which print the same text have the same keys. Missing: values
which do not fit, see `C76_counterexample`. -/
theorem C76_determines_partial (t t' : TensorMap A) (ht : TensorValid t) (ht' : TensorValid t')
    (hn : ∀ r ∈ t.keys.rows, Narrow t.keys.names r) (hn' : ∀ r ∈ t'.keys.rows, Narrow t'.keys.names r) (text : List Char)
    (h : pyStr t = .ok text) (h' : pyStr t' = .ok text) :
    t.keys.names = t'.keys.names ∧ t.keys.rows = t'.keys.rows := by
  obtain ⟨x, hx, hp⟩ := C76_str_partial t ht hn
  obtain ⟨x', hx', hp'⟩ := C76_str_partial t' ht' hn'
  rw [h, Except.ok.injEq] at hx
  rw [h', Except.ok.injEq] at hx'
  subst hx hx'
  obtain ⟨h1, -, h3⟩ := hp.unique hp'
  exact ⟨h1, tableOf_injective h3⟩

/-- C76: the short form used by interactive sessions. Up to ten keys are all shown; with more keys there are the first
three, a line with dots, and the last three. -/
theorem C76_repr_partial (t : TensorMap A) (ht : TensorValid t) (hn : ∀ r ∈ t.keys.rows, Narrow t.keys.names r) :
    ∃ text, pyRepr t = .ok text ∧
      (t.blocks.length ≤ 10 → Printed t.keys.names t.blocks.length (tableOf t.keys.rows) text) ∧
      (10 < t.blocks.length → ∃ first middle last, t.keys.rows = first ++ middle ++ last ∧
        first.length = 3 ∧ last.length = 3 ∧
        Printed t.keys.names t.blocks.length (tableOf first ++ [["...".toList]] ++ tableOf last) text) := by
  obtain ⟨v, hv, -, hc, hcount⟩ := pyKeys_canonical ht
  have h := printed_of_lines ht 10
  refine ⟨_, pyRepr_eq ht, fun hs => ?_, fun hs => ?_⟩
  · have e : (entryLines t.keys.names 10 t.keys.rows).map words = tableOf t.keys.rows := by
      unfold entryLines
      rw [if_pos (by rw [if_neg (by omega)]; omega)]
      exact map_words_entries ht (fun _ h => h) hn
    rwa [e] at h
  · refine ⟨t.keys.rows.take 3, (t.keys.rows.drop 3).take (t.keys.rows.length - 6),
      t.keys.rows.drop (t.keys.rows.length - 3), ?_, ?_, ?_, ?_⟩
    · have e : t.keys.rows.drop (t.keys.rows.length - 3) =
          (t.keys.rows.drop 3).drop (t.keys.rows.length - 6) := by
        rw [List.drop_drop]
        congr 1
        omega
      rw [e, List.append_assoc, List.take_append_drop, List.take_append_drop]
    · rw [List.length_take]; omega
    · rw [List.length_drop]; omega
    · have e : (entryLines t.keys.names 10 t.keys.rows).map words =
          tableOf (t.keys.rows.take 3) ++ [["...".toList]] ++ tableOf (t.keys.rows.drop (t.keys.rows.length - 3)) := by
        unfold entryLines
        rw [if_neg (by rw [if_neg (by omega)]; omega), List.map_append, List.map_append,
          map_words_entries ht (fun _ h => List.mem_of_mem_take h) hn,
          map_words_entries ht (fun _ h => List.mem_of_mem_drop h) hn, List.map_singleton, words_spaces]
        congr 3
      rwa [e] at h

namespace Example

/-- Non-vacuity of the theorems above. -/
example : ∃ text, pyStr tensor = .ok text ∧
    Printed ["k", "l"] 3 [["0".toList, "1".toList], ["0".toList, "2".toList], ["3".toList, "1".toList]] text :=
  C76_str_partial tensor tensor_valid (by decide +kernel)

/-- The text itself. -/
example : pyStr tensor = .ok ("TensorMap with 3 blocks\nkeys: ['k' 'l']\n" ++
    "        0   1\n        0   2\n        3   1").toList := by
  decide +kernel

/-- Tensor maps with one block, and large values in the keys. -/
def large : TensorMap NdArray := ⟨Labels.mk' ["a", "b"] [[100000001, 12345]], [gradBlock]⟩
/-- The same digits. -/
def larger : TensorMap NdArray := ⟨Labels.mk' ["a", "b"] [[1000000011, 2345]], [gradBlock]⟩
/-- Eleven keys. -/
def eleven : TensorMap NdArray :=
  ⟨Labels.mk' ["a", "b"] ((List.range 11).map fun i => [Int32.ofNat i, -1]), List.replicate 11 gradBlock⟩

theorem large_valid : TensorValid large := TensorMap.valid_of_rebuilds (by decide +kernel)
theorem larger_valid : TensorValid larger := TensorMap.valid_of_rebuilds (by decide +kernel)
theorem eleven_valid : TensorValid eleven := TensorMap.valid_of_rebuilds (by decide +kernel)

/-- Non-vacuity of `C76_repr_partial`. -/
example : TensorValid eleven ∧ (∀ r ∈ eleven.keys.rows, Narrow eleven.keys.names r) ∧ 10 < eleven.blocks.length ∧
    pyRepr eleven = .ok ("TensorMap with 11 blocks\nkeys: ['a' 'b']\n" ++
      "        0  -1\n        1  -1\n        2  -1\n     ...\n        8  -1\n        9  -1\n       10  -1").toList :=
  ⟨eleven_valid, by decide +kernel, by decide +kernel, by decide +kernel⟩

/-- Non-vacuity of `C76_determines_partial`: `tensor` and `eleven` are printed differently. -/
example : pyStr tensor ≠ pyStr eleven := fun h => by
  obtain ⟨text, ht, -⟩ := C76_str_partial tensor tensor_valid (by decide +kernel)
  have := C76_determines_partial tensor eleven tensor_valid eleven_valid (by decide +kernel) (by decide +kernel) text ht
    (h ▸ ht)
  exact absurd this.1 (by decide +kernel)

end Example

/-- **C76** is false of the code: columns are too narrow for large values, and there is no space between values
which do not fit. `a = 100000001, b = 12345` and `a = 1000000011, b = 2345` are printed as
`10000000112345`. -/
theorem C76_counterexample : ¬ C76_full_statement := fun h => by
  have := h NdArray Example.large Example.larger Example.large_valid Example.larger_valid
    "TensorMap with 1 blocks\nkeys: ['a' 'b']\n10000000112345".toList (by decide +kernel) (by decide +kernel)
  exact absurd this.2 (by decide +kernel)

end Equistore
