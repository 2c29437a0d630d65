import Verif.Spec.PyPrint
import Verif.Lemmas.PyLabels
import Verif.Lemmas.Paths
import Verif.Lemmas.CLabels

/-!
# Lemmas about printed tensor maps
-/

namespace Equistore
open Spec

/-! ### Lines and words -/

theorem lines_ne (text : List Char) : lines text ≠ [] := by
  cases text with
  | nil => simp [lines]
  | cons c text =>
    unfold lines
    split
    · simp
    · split <;> simp

theorem lines_cons {line text : List Char} (h : '\n' ∉ line) : lines (line ++ '\n' :: text) = line :: lines text := by
  induction line with
  | nil => simp [lines]
  | cons c line ih =>
    simp only [List.mem_cons, not_or] at h
    rw [List.cons_append, lines, if_neg (Ne.symm h.1), ih h.2]

theorem lines_one {line : List Char} (h : '\n' ∉ line) : lines line = [line] := by
  induction line with
  | nil => rfl
  | cons c line ih =>
    simp only [List.mem_cons, not_or] at h
    rw [lines, if_neg (Ne.symm h.1), ih h.2]

/-- All lines end with a newline, except that the last one is removed. -/
theorem lines_dropLast {ls : List (List Char)} (h0 : ls ≠ []) (h : ∀ l ∈ ls, '\n' ∉ l) :
    lines (ls.flatMap fun l => l ++ ['\n']).dropLast = ls := by
  induction ls with
  | nil => exact absurd rfl h0
  | cons l ls ih =>
    cases ls with
    | nil =>
      simp only [List.flatMap_cons, List.flatMap_nil, List.append_nil, List.dropLast_concat]
      exact lines_one (h l (by simp))
    | cons l' ls =>
      have hne : ((l' :: ls).flatMap fun l => l ++ ['\n']) ≠ [] := by simp
      rw [List.flatMap_cons, List.dropLast_append_of_ne_nil hne, List.append_assoc, List.singleton_append,
        lines_cons (h l (by simp)), ih (by simp) fun l hl => h l (List.mem_cons_of_mem _ hl)]

theorem words_spaces (n : Nat) (text : List Char) : words (List.replicate n ' ' ++ text) = words text := by
  induction n with
  | zero => rfl
  | succ n ih => rw [List.replicate_succ, List.cons_append, words, if_pos rfl, ih]

theorem words_word {word text : List Char} (h0 : word ≠ []) (h : ' ' ∉ word)
    (ht : text = [] ∨ text.head? = some ' ') : words (word ++ text) = word :: words text := by
  induction word with
  | nil => exact absurd rfl h0
  | cons c word ih =>
    simp only [List.mem_cons, not_or] at h
    rw [List.cons_append, words, if_neg (Ne.symm h.1)]
    cases word with
    | nil => rw [List.nil_append, if_pos ht]
    | cons d word =>
      rw [if_neg, ih (by simp) h.2]
      simp only [List.cons_append, List.head?_cons, reduceCtorEq, Option.some.injEq, false_or]
      rintro rfl
      exact h.2 (by simp)

/-! ### Numbers -/

theorem decimal_nat (n : Nat) : decimal (n : Int) = digits n := toString_toList n

theorem decimal_neg (n : Nat) : decimal (Int.negSucc n) = '-' :: digits (n + 1) := by
  have h : toString (Int.negSucc n) = "-" ++ toString (n + 1) := rfl
  unfold decimal
  rw [h, String.toList_append, toString_toList]
  rfl

theorem digits_ne_nil (n : Nat) : digits n ≠ [] := by
  intro h
  have := Nat.length_toDigits_pos (b := 10) (n := n)
  unfold digits at h
  rw [h] at this
  simp at this

theorem decimal_ne_nil (x : Int) : decimal x ≠ [] := by
  cases x with
  | ofNat n => exact fun h => digits_ne_nil n ((decimal_nat n).symm.trans h)
  | negSucc n => rw [decimal_neg]; simp

theorem decimal_not_mem {c : Char} (h1 : c ≠ '-') (h2 : c.isDigit = false) (x : Int) : c ∉ decimal x := by
  have key : ∀ n, c ∉ digits n := fun n h => by rw [digits_isDigit h] at h2; cases h2
  cases x with
  | ofNat n => exact fun h => key n (by rw [← decimal_nat]; exact h)
  | negSucc n =>
    rw [decimal_neg, List.mem_cons, not_or]
    exact ⟨h1, key _⟩

theorem decimal_injective {x y : Int} (h : decimal x = decimal y) : x = y := by
  have key : ∀ n m, digits n ≠ '-' :: digits m := fun n m => digits_ne (c := '-') (by simp) (by decide)
  cases x with
  | ofNat n =>
    cases y with
    | ofNat m =>
      have : digits n = digits m := (decimal_nat n).symm.trans (h.trans (decimal_nat m))
      rw [digits_injective this]
    | negSucc m =>
      rw [decimal_neg] at h
      exact absurd ((decimal_nat n).symm.trans h) (key _ _)
  | negSucc n =>
    cases y with
    | ofNat m =>
      rw [decimal_neg] at h
      exact absurd ((decimal_nat m).symm.trans h.symm) (key _ _)
    | negSucc m =>
      rw [decimal_neg, decimal_neg, List.cons.injEq] at h
      have := digits_injective h.2
      congr 1
      omega

/-! ### Entries -/

theorem not_mem_rjust {c : Char} (hc : c ≠ ' ') {width : Nat} {text : List Char} (h : c ∉ text) :
    c ∉ rjust width text := by
  simp only [rjust, List.mem_append, not_or]
  exact ⟨fun hm => hc (List.eq_of_mem_replicate hm), h⟩

theorem newline_not_mem_entry (prev : Nat) (widths : List Nat) (entry : List LabelValue) :
    '\n' ∉ printEntry prev widths entry := by
  induction entry generalizing prev widths with
  | nil => cases widths <;> simp [printEntry]
  | cons x entry ih =>
    cases widths with
    | nil => simp [printEntry]
    | cons w widths =>
      simp only [printEntry, List.mem_append, not_or]
      exact ⟨not_mem_rjust (by decide) (decimal_not_mem (by decide) (by decide) _), ih _ _⟩

theorem words_rjust {width : Nat} {word text : List Char} (h0 : word ≠ []) (h : ' ' ∉ word)
    (ht : text = [] ∨ text.head? = some ' ') : words (rjust width word ++ text) = word :: words text := by
  rw [rjust, List.append_assoc, words_spaces, words_word h0 h ht]

theorem words_entry {names : List String} {entry : List LabelValue} (hl : entry.length = names.length)
    (hn : Narrow names entry) (prev : Nat) :
    words (printEntry prev (names.map fun n => n.length + 3) entry) = entry.map fun x => decimal x.toInt := by
  induction entry generalizing names prev with
  | nil =>
    cases names with
    | nil => rfl
    | cons n names => cases hl
  | cons x entry ih =>
    cases names with
    | nil => cases hl
    | cons n names =>
      rw [List.map_cons, printEntry, makePadding, List.map_cons,
        words_rjust (decimal_ne_nil _) (decimal_not_mem (by decide) (by decide) _)]
      · congr 1
        refine ih (by simpa using hl) ?_ _
        cases names with
        | nil => cases entry <;> simp [Narrow]
        | cons n' names =>
          cases entry with
          | nil => simp [Narrow]
          | cons y entry => exact hn.2
      · cases names with
        | nil =>
          left
          cases entry <;> rfl
        | cons n' names =>
          cases entry with
          | nil => cases hl
          | cons y entry =>
            right
            have h1 := hn.1
            simp only [List.map_cons, printEntry, makePadding, rjust]
            obtain ⟨k, hk⟩ : ∃ k, (n.length + 3) / 2 + (n'.length + 3) / 2 - (decimal y.toInt).length = k + 1 :=
              ⟨(n.length + 3) / 2 + (n'.length + 3) / 2 - (decimal y.toInt).length - 1, by omega⟩
            rw [hk, List.replicate_succ]
            rfl

/-! ### Names -/

theorem identifier_not_mem {s : String} (h : Identifier s) {c : Char} (hc : ¬ IdentRest c) : c ∉ s.toList := by
  obtain ⟨d, cs, hs, h1, h2⟩ := h
  rw [hs]
  simp only [List.mem_cons, not_or]
  refine ⟨?_, fun hm => hc (h2 _ hm)⟩
  rintro rfl
  exact hc (.inl h1)

/-- A name as it is printed. -/
def quoted (n : String) : List Char := "'".toList ++ n.toList ++ "'".toList

theorem quoted_injective {n m : String} (h : quoted n = quoted m) : n = m := by
  unfold quoted at h
  have h1 := List.append_cancel_right h
  have h2 := List.append_cancel_left h1
  exact String.toList_inj.1 h2

theorem quoted_not_mem {n : String} (h : Identifier n) {c : Char} (hc : ¬ IdentRest c) (hq : c ≠ '\'') :
    c ∉ quoted n := by
  unfold quoted
  simp only [List.mem_append, not_or]
  have hq' : c ∉ "'".toList := by
    rw [show "'".toList = ['\''] from rfl, List.mem_singleton]
    exact hq
  exact ⟨⟨hq', identifier_not_mem h hc⟩, hq'⟩

theorem words_quoted {names : List String} (h : ∀ n ∈ names, Identifier n) {tail : List Char}
    (ht : tail = [] ∨ tail = [' ']) :
    words ((names.flatMap fun n => quoted n ++ [' ']) ++ tail) = names.map quoted := by
  induction names with
  | nil => rcases ht with rfl | rfl <;> rfl
  | cons n names ih =>
    rw [List.flatMap_cons, List.append_assoc, List.append_assoc,
      words_word (by simp [quoted]) (quoted_not_mem (h n (by simp)) (by unfold IdentRest IdentStart; decide) (by decide))
        (.inr rfl),
      List.map_cons, List.singleton_append, words, if_pos rfl, ih fun n hn => h n (List.mem_cons_of_mem _ hn)]

/-- Without the last space. -/
theorem words_dropLast_quoted {names : List String} (h : ∀ n ∈ names, Identifier n) :
    words (names.flatMap fun n => quoted n ++ [' ']).dropLast = names.map quoted := by
  induction names with
  | nil => rfl
  | cons n names ih =>
    have hq := quoted_not_mem (h n (by simp)) (c := ' ') (by unfold IdentRest IdentStart; decide) (by decide)
    rw [List.flatMap_cons]
    cases names with
    | nil =>
      simp only [List.flatMap_nil, List.append_nil, List.dropLast_concat, List.map_cons, List.map_nil]
      have := words_word (text := []) (word := quoted n) (by simp [quoted]) hq (.inl rfl)
      simpa [words] using this
    | cons n' names =>
      have hne : ((n' :: names).flatMap fun n => quoted n ++ [' ']) ≠ [] := by simp
      rw [List.dropLast_append_of_ne_nil hne, List.append_assoc,
        words_word (by simp [quoted]) hq (.inr rfl), List.singleton_append, words, if_pos rfl,
        ih fun n hn => h n (List.mem_cons_of_mem _ hn), List.map_cons (a := n)]

/-! ### Slices -/

namespace PyLabels
variable {v : PyLabels} {rows : List (List LabelValue)}

theorem Canonical.slice_at (h : v.Canonical rows) {start stop : Option Int} {first count : Nat}
    (hi : sliceIndices v.count start stop none = some ((first : Int), 1, count)) (hb : first + count ≤ rows.length) :
    ∃ v', v.getItem (.slice start stop none) = .ok v' ∧ v'.Canonical ((rows.drop first).take count) := by
  have hv : ∃ v', v.getItem (.slice start stop none) = .ok v' := by
    unfold getItem
    simp only [hi]
    exact ⟨_, rfl⟩
  obtain ⟨v', hv⟩ := hv
  exact ⟨v', hv, (h.slice_of hi (.inr hb) hv).1⟩

end PyLabels
end Equistore

namespace Equistore
open Spec

/-! ### Printed labels -/

/-- The lines of the printed entries. -/
def entryLines (names : List String) (limit : Nat) (rows : List (List LabelValue)) : List (List Char) :=
  let line := printEntry 7 (names.map fun n => n.length + 3)
  if rows.length ≤ (if limit < 6 then 6 else limit) then rows.map line
  else (rows.take 3).map line ++
    [List.replicate (7 + (names.map fun n => n.length + 3).headD 0 / 2 - 4) ' ' ++ "...".toList] ++
    (rows.drop (rows.length - 3)).map line

/-- The names, between the brackets. -/
def shownNames (names : List String) (rows : List (List LabelValue)) : List Char :=
  if rows.length > 0 then (names.flatMap fun n => quoted n ++ [' ']).dropLast
  else names.flatMap fun n => quoted n ++ [' ']

theorem flatMap_line (f : List LabelValue → List Char) (rows : List (List LabelValue)) :
    (rows.flatMap fun r => f r ++ ['\n']) = (rows.map f).flatMap fun l => l ++ ['\n'] := by
  rw [List.flatMap_map]

theorem printLabels_eq {v : PyLabels} {names : List String} {rows : List (List LabelValue)} (h : v.Canonical rows)
    (hn : v.names = names) (hne : names ≠ []) (limit : Nat) :
    printLabels v "keys".toList limit =
      .ok ((("keys: [".toList ++ shownNames names rows ++ "]".toList) :: entryLines names limit rows).flatMap
        fun l => l ++ ['\n']).dropLast := by
  have hflat : (v.names.flatMap fun n => "'".toList ++ n.toList ++ "' ".toList) =
      names.flatMap fun n => quoted n ++ [' '] := by
    rw [hn]
    congr 1
    funext n
    simp only [quoted, List.append_assoc]
    rfl
  have hne' : (names.flatMap fun n => quoted n ++ [' ']) ≠ [] := by
    cases names with
    | nil => exact absurd rfl hne
    | cons n names => simp
  have hnames : (if v.count > 0 then ("keys".toList ++ ": [".toList ++ v.names.flatMap fun n =>
        "'".toList ++ n.toList ++ "' ".toList).dropLast else "keys".toList ++ ": [".toList ++ v.names.flatMap fun n =>
        "'".toList ++ n.toList ++ "' ".toList) ++ "]\n".toList =
      ("keys: [".toList ++ shownNames names rows ++ "]".toList) ++ ['\n'] := by
    rw [hflat, h.count, shownNames]
    have e : "keys".toList ++ ": [".toList = "keys: [".toList := rfl
    rw [e]
    split
    · rw [List.dropLast_append_of_ne_nil hne', List.append_assoc, List.append_assoc, List.append_assoc]
      rfl
    · rw [List.append_assoc, List.append_assoc, List.append_assoc]
      rfl
  have hw : (v.names.map fun n => n.length + 3) = names.map fun n => n.length + 3 := by rw [hn]
  have hlen : "keys".toList.length + 3 = 7 := rfl
  unfold printLabels
  simp only [hnames, hw, hlen]
  rw [h.count]
  unfold entryLines
  by_cases hl : rows.length ≤ if limit < 6 then 6 else limit
  · rw [if_pos hl, if_pos hl]
    simp only [PyLabels.iterate, h.entries, printEntries]
    rw [List.flatMap_cons, ← flatMap_line]
    rfl
  · rw [if_neg hl, if_neg hl]
    have h6 : 6 < rows.length := by
      split at hl <;> omega
    obtain ⟨a, ha, hac⟩ := h.slice_at (start := none) (stop := some 3) (first := 0) (count := 3)
      (by
        rw [h.count]
        have h3 : min (rows.length : Int) 3 = 3 := by omega
        simp [sliceIndices, h3]
        rfl) (by omega)
    obtain ⟨b, hb, hbc⟩ := h.slice_at (start := some (-3)) (stop := none) (first := rows.length - 3) (count := 3)
      (by
        rw [h.count]
        have h3 : max 0 (min (rows.length : Int) (-3 + rows.length)) = (rows.length : Int) - 3 := by omega
        have h4 : ((rows.length : Int) - ((rows.length : Int) - 3)).toNat = 3 := by omega
        simp [sliceIndices, h3]
        rw [if_pos (by omega), h4]
        exact ⟨by omega, rfl⟩) (by omega)
    have hlast : (rows.drop (rows.length - 3)).take 3 = rows.drop (rows.length - 3) :=
      List.take_of_length_le (by rw [List.length_drop]; omega)
    rw [List.drop_zero] at hac
    rw [hlast] at hbc
    rw [ha, hb]
    simp only [PyLabels.iterate, printEntries]
    change (match a.entries with
      | some entries => Except.ok entries
      | none => Except.error PyExc.exception) >>= (fun first => (match b.entries with
        | some entries => Except.ok entries
        | none => Except.error PyExc.exception) >>= fun last => _) = _
    rw [hac.entries, hbc.entries]
    have hr : rjust (7 + (names.map fun n => n.length + 3).headD 0 / 2) "...\n".toList =
        (List.replicate (7 + (names.map fun n => n.length + 3).headD 0 / 2 - 4) ' ' ++ "...".toList) ++ ['\n'] := by
      rw [rjust, List.append_assoc]
      rfl
    simp only [flatMap_line, hr]
    rw [List.flatMap_cons, List.flatMap_append, List.flatMap_append, List.flatMap_singleton]
    simp only [List.append_assoc]
    rfl

theorem entryLines_newline (names : List String) (limit : Nat) (rows : List (List LabelValue)) :
    ∀ l ∈ entryLines names limit rows, '\n' ∉ l := by
  intro l hl
  unfold entryLines at hl
  simp only at hl
  have key : ∀ rs : List (List LabelValue), l ∈ rs.map (printEntry 7 (names.map fun n => n.length + 3)) → '\n' ∉ l := by
    intro rs hm
    obtain ⟨r, _, rfl⟩ := List.mem_map.1 hm
    exact newline_not_mem_entry _ _ _
  by_cases hc : rows.length ≤ if limit < 6 then 6 else limit
  · rw [if_pos hc] at hl
    exact key _ hl
  · rw [if_neg hc] at hl
    rw [List.mem_append, List.mem_append, List.mem_singleton] at hl
    rcases hl with (hl | rfl) | hl
    · exact key _ hl
    · rw [List.mem_append, not_or]
      refine ⟨fun h => absurd (List.eq_of_mem_replicate h) (by decide), by decide +kernel⟩
    · exact key _ hl

theorem words_shownNames {names : List String} (h : ∀ n ∈ names, Identifier n) (rows : List (List LabelValue)) :
    words (shownNames names rows) = names.map quoted := by
  unfold shownNames
  split
  · exact words_dropLast_quoted h
  · have := words_quoted h (tail := []) (.inl rfl)
    rwa [List.append_nil] at this

theorem shownNames_newline {names : List String} (h : ∀ n ∈ names, Identifier n) (rows : List (List LabelValue)) :
    '\n' ∉ shownNames names rows := by
  have key : '\n' ∉ names.flatMap fun n => quoted n ++ [' '] := by
    rw [List.mem_flatMap]
    rintro ⟨n, hn, hm⟩
    rw [List.mem_append, List.mem_singleton] at hm
    rcases hm with hm | hm
    · exact quoted_not_mem (h n hn) (by unfold IdentRest IdentStart; decide) (by decide) hm
    · exact absurd hm (by decide)
  unfold shownNames
  split
  · exact fun hm => key (List.dropLast_subset _ hm)
  · exact key

theorem words_title (n : Nat) : words ("TensorMap with ".toList ++ decimal n ++ " blocks".toList) =
    ["TensorMap".toList, "with".toList, decimal n, "blocks".toList] := by
  have h1 : words ("TensorMap".toList ++ ' ' :: ("with".toList ++ ' ' :: (decimal n ++ ' ' :: ("blocks".toList ++ [])))) =
      ["TensorMap".toList, "with".toList, decimal n, "blocks".toList] := by
    rw [words_word (by decide +kernel) (by decide +kernel) (.inr rfl), words, if_pos rfl,
      words_word (by decide +kernel) (by decide +kernel) (.inr rfl), words, if_pos rfl,
      words_word (decimal_ne_nil _) (decimal_not_mem (by decide) (by decide) _) (.inr rfl), words, if_pos rfl,
      words_word (by decide +kernel) (by decide +kernel) (.inl rfl)]
    rfl
  rw [← h1]
  congr 1

theorem lines_printed {names : List String} (h : ∀ n ∈ names, Identifier n) (rows : List (List LabelValue)) (limit n : Nat) :
    lines ("TensorMap with ".toList ++ decimal n ++ " blocks\n".toList ++
      ((("keys: [".toList ++ shownNames names rows ++ "]".toList) :: entryLines names limit rows).flatMap
        fun l => l ++ ['\n']).dropLast) =
      ("TensorMap with ".toList ++ decimal n ++ " blocks".toList) ::
      ("keys: [".toList ++ shownNames names rows ++ "]".toList) :: entryLines names limit rows := by
  have e : " blocks\n".toList = " blocks".toList ++ ['\n'] := rfl
  rw [e, ← List.append_assoc, List.append_assoc _ ['\n'], List.singleton_append, lines_cons, lines_dropLast (by simp)]
  · intro l hl
    rw [List.mem_cons] at hl
    rcases hl with rfl | hl
    · simp only [List.mem_append, not_or]
      exact ⟨⟨by decide +kernel, shownNames_newline h rows⟩, by decide +kernel⟩
    · exact entryLines_newline _ _ _ l hl
  · simp only [List.mem_append, not_or]
    exact ⟨⟨by decide +kernel, decimal_not_mem (by decide) (by decide) _⟩, by decide +kernel⟩

end Equistore
