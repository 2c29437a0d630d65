import Verif.Model.PyFragment
import Verif.Spec.Io
import Verif.Lemmas.Labels

/-! The fragment of Python literals has the assumed properties. -/

namespace Equistore
open Spec
namespace PyFragment

/-! ### Digits -/

theorem hexValue_hexDigit {n : Nat} (h : n < 16) : hexValue (hexDigit n) = some n := by
  revert n; decide

theorem hexChars_length (k n : Nat) : (hexChars k n).length = k := by
  induction k generalizing n with
  | zero => rfl
  | succ k ih => rw [hexChars, List.length_append, ih]; rfl

theorem hexNumber_append (m : Nat) (a b : List Char) :
    hexNumber m (a ++ b) = (hexNumber m a).bind fun m => hexNumber m b := by
  induction a generalizing m with
  | nil => rfl
  | cons c a ih =>
    simp only [List.cons_append, hexNumber, ih]
    cases hexValue c <;> rfl

theorem hexNumber_hexChars (k n m : Nat) (h : n < 16 ^ k) :
    hexNumber m (hexChars k n) = some (16 ^ k * m + n) := by
  induction k generalizing n with
  | zero =>
    simp only [Nat.pow_zero, Nat.lt_one_iff] at h
    subst h; simp [hexChars, hexNumber]
  | succ k ih =>
    have h1 : n / 16 < 16 ^ k := by
      rw [Nat.div_lt_iff_lt_mul (by decide)]; rw [Nat.pow_succ] at h; exact h
    rw [hexChars, hexNumber_append, ih _ h1]
    simp only [Option.bind_some, hexNumber, hexValue_hexDigit (Nat.mod_lt n (by decide : 0 < 16))]
    change some _ = some _
    congr 1
    rw [Nat.pow_succ, Nat.mul_add, ← Nat.mul_assoc, Nat.mul_comm 16 (16 ^ k)]
    omega

theorem hexDigit_ascii {n : Nat} (h : n < 16) : (hexDigit n).toNat < 128 := by
  revert n; decide

theorem hexChars_ascii (k n : Nat) : ∀ c ∈ hexChars k n, c.toNat < 128 := by
  induction k generalizing n with
  | zero => simp [hexChars]
  | succ k ih =>
    intro c hc
    rw [hexChars, List.mem_append, List.mem_singleton] at hc
    rcases hc with hc | rfl
    · exact ih _ _ hc
    · exact hexDigit_ascii (Nat.mod_lt n (by decide))

theorem hexEscape_hexChars (k : Nat) (c : Char) (rest : List Char) (h : c.toNat < 16 ^ k) :
    hexEscape k (hexChars k c.toNat ++ rest) = some (c, rest) := by
  have hl := hexChars_length k c.toNat
  unfold hexEscape
  rw [if_pos (by rw [List.length_append]; omega), List.take_left' hl, List.drop_left' hl,
    hexNumber_hexChars _ _ _ h, Nat.mul_zero, Nat.zero_add]
  have hv : c.toNat.isValidChar := c.valid
  simp [hv]

theorem char_toNat_lt (c : Char) : c.toNat < 16 ^ 8 := by
  have h : c.toNat.isValidChar := c.valid
  unfold Nat.isValidChar at h
  omega

theorem nextChar_format (c : Char) (rest : List Char) :
    nextChar (formatChar c ++ rest) = some (c, rest) := by
  unfold formatChar
  split
  · next h => subst h; rfl
  split
  · next h => subst h; rfl
  split
  · next h => subst h; rfl
  split
  · next h => subst h; rfl
  split
  · next h1 h2 h3 h4 h5 =>
    rw [List.singleton_append]
    unfold nextChar
    split
    · next h => exact absurd (List.cons.inj h).1 h1
    · next h =>
      obtain ⟨rfl, rfl⟩ := List.cons.inj h
      simp [h1, h2, h3]
    · next h => simp at h
  split
  · next h => exact hexEscape_hexChars 2 c rest (by simpa using h)
  split
  · next h => exact hexEscape_hexChars 4 c rest (by simpa using h)
  · exact hexEscape_hexChars 8 c rest (char_toNat_lt c)

theorem formatChar_ascii (c : Char) : ∀ d ∈ formatChar c, d.toNat < 128 := by
  intro d hd
  unfold formatChar at hd
  repeat' split at hd
  all_goals simp only [List.mem_cons, List.not_mem_nil, or_false] at hd
  · rcases hd with rfl | rfl <;> decide
  · rcases hd with rfl | rfl <;> decide
  · rcases hd with rfl | rfl <;> decide
  · rcases hd with rfl | rfl <;> decide
  · next h => rw [hd]; exact h
  · rcases hd with rfl | rfl | hd
    · decide
    · decide
    · exact hexChars_ascii _ _ _ hd
  · rcases hd with rfl | rfl | hd
    · decide
    · decide
    · exact hexChars_ascii _ _ _ hd
  · rcases hd with rfl | rfl | hd
    · decide
    · decide
    · exact hexChars_ascii _ _ _ hd

theorem formatChar_head (c : Char) : ∃ d ds, formatChar c = d :: ds ∧ d ≠ '\'' := by
  unfold formatChar
  repeat' split
  all_goals refine ⟨_, _, rfl, ?_⟩
  all_goals first | assumption | decide

theorem parseString_format (s : List Char) (fuel : Nat) (rest : List Char) (h : s.length < fuel) :
    parseString '\'' fuel (s.flatMap formatChar ++ '\'' :: rest) = some (s, rest) := by
  induction s generalizing fuel with
  | nil =>
    obtain ⟨f, rfl⟩ : ∃ f, fuel = f + 1 := ⟨fuel - 1, by simp at h; omega⟩
    simp [parseString]
  | cons c s ih =>
    obtain ⟨f, rfl⟩ : ∃ f, fuel = f + 1 := ⟨fuel - 1, by simp at h; omega⟩
    simp only [List.length_cons] at h
    rw [List.flatMap_cons, List.append_assoc]
    have hh : (formatChar c ++ (s.flatMap formatChar ++ '\'' :: rest)).head? ≠ some '\'' := by
      obtain ⟨d, ds, e, hd⟩ := formatChar_head c
      rw [e]; simpa using hd
    simp only [parseString, if_neg hh, nextChar_format]
    rw [Option.bind_eq_bind, Option.bind_some]
    simp only [ih f (by omega)]
    rfl

theorem flatMap_formatChar_length (s : List Char) : s.length ≤ (s.flatMap formatChar).length := by
  induction s with
  | nil => simp
  | cons c s ih =>
    obtain ⟨d, ds, e, _⟩ := formatChar_head c
    rw [List.flatMap_cons, List.length_append, e, List.length_cons, List.length_cons]
    omega

/-! ### Integers -/

theorem digit_isDigit {n : Nat} (h : n < 10) : (Char.ofNat (48 + n)).isDigit = true := by
  revert n; decide

theorem digit_toNat {n : Nat} (h : n < 10) : (Char.ofNat (48 + n)).toNat = 48 + n := by
  revert n; decide

theorem decChars_isDigit (fuel n : Nat) : ∀ c ∈ decChars fuel n, c.isDigit = true := by
  induction fuel generalizing n with
  | zero => simp [decChars]
  | succ f ih =>
    intro c hc
    unfold decChars at hc
    split at hc
    · next h => rw [List.mem_singleton] at hc; rw [hc]; exact digit_isDigit h
    · rw [List.mem_append, List.mem_singleton] at hc
      rcases hc with hc | rfl
      · exact ih _ _ hc
      · exact digit_isDigit (Nat.mod_lt n (by decide))

theorem decNumber_decChars (fuel n : Nat) (h : n < fuel) : decNumber (decChars fuel n) = n := by
  induction fuel generalizing n with
  | zero => omega
  | succ f ih =>
    unfold decChars
    split
    · next hn => simp [decNumber, digit_toNat hn]
    · next hn =>
      have h1 : n / 10 < f := by omega
      have h2 := ih _ h1
      unfold decNumber at h2 ⊢
      rw [List.foldl_append, h2]
      simp only [List.foldl_cons, List.foldl_nil, digit_toNat (Nat.mod_lt n (by decide : 0 < 10))]
      omega

theorem decChars_ne_nil (fuel n : Nat) : decChars (fuel + 1) n ≠ [] := by
  unfold decChars
  split <;> simp

theorem takeWhile_digits {ds rest : List Char} (h : ∀ c ∈ ds, c.isDigit = true)
    (hr : ∀ c, rest.head? = some c → c.isDigit = false) :
    (ds ++ rest).takeWhile Char.isDigit = ds ∧ (ds ++ rest).dropWhile Char.isDigit = rest := by
  induction ds with
  | nil =>
    cases rest with
    | nil => simp
    | cons c rest => simp [hr c rfl]
  | cons d ds ih =>
    rw [List.forall_mem_cons] at h
    simp [h.1, ih h.2]

theorem parseNat_decChars (fuel n : Nat) (rest : List Char) (h : n < fuel + 1)
    (hr : ∀ c, rest.head? = some c → c.isDigit = false) :
    parseNat (decChars (fuel + 1) n ++ rest) = some (n, rest) := by
  obtain ⟨h1, h2⟩ := takeWhile_digits (decChars_isDigit (fuel + 1) n) hr
  unfold parseNat
  rw [h1, h2, decNumber_decChars _ _ h, if_neg]
  rw [List.isEmpty_iff]
  exact decChars_ne_nil fuel n

theorem isDigit_toNat {c : Char} (h : c.isDigit = true) : c.toNat < 128 ∧ 48 ≤ c.toNat ∧ c.toNat ≤ 57 := by
  simp only [Char.isDigit, Bool.and_eq_true, decide_eq_true_eq] at h
  have h1 : (48 : UInt32).toNat ≤ c.val.toNat := UInt32.le_iff_toNat_le.1 h.1
  have h2 : c.val.toNat ≤ (57 : UInt32).toNat := UInt32.le_iff_toNat_le.1 h.2
  have : c.toNat = c.val.toNat := rfl
  simp only [UInt32.reduceToNat] at h1 h2
  omega

/-! ### Values -/

/-- A character which can start a value. -/
def StartOk (c : Char) : Prop :=
  c ≠ ' ' ∧ c ≠ '\t' ∧ c ≠ '\x0c' ∧ c ≠ ')' ∧ c ≠ ']' ∧ c ≠ '}'

instance (c : Char) : Decidable (StartOk c) := by unfold StartOk; infer_instance

theorem skipSpaces_start {c : Char} (h : StartOk c) (text : List Char) : skipSpaces (c :: text) = c :: text := by
  unfold skipSpaces
  rw [List.dropWhile_cons]
  simp [h.1, h.2.1, h.2.2.1]

theorem skipSpaces_space (text : List Char) : skipSpaces (' ' :: text) = skipSpaces text := by
  unfold skipSpaces
  rw [List.dropWhile_cons]
  simp

theorem skipSpaces_of {c : Char} (h : c = ',' ∨ c = ')' ∨ c = ']' ∨ c = '}' ∨ c = ':') (text : List Char) :
    skipSpaces (c :: text) = c :: text := by
  unfold skipSpaces
  rw [List.dropWhile_cons]
  rcases h with rfl | rfl | rfl | rfl | rfl <;> simp

/-- Text which does not continue a number. -/
def StopOk (rest : List Char) : Prop := ∀ c, rest.head? = some c → c.isDigit = false

theorem stop_cons {c : Char} (h : c.isDigit = false) (rest : List Char) : StopOk (c :: rest) := by
  intro d hd
  simp only [List.head?_cons, Option.some.injEq] at hd
  subst hd; exact h

/-- Formatting gives ASCII text which is parsed as the value. -/
def ValueOk (v : PyValue) : Prop :=
  ∃ c text, format v = some (c :: text) ∧ StartOk c ∧ (∀ d ∈ c :: text, d.toNat < 128) ∧
    ∀ fuel rest, (c :: text).length < fuel → StopOk rest →
      parseValue fuel (c :: text ++ rest) = some (v, rest)

theorem seq_ok {l : List PyValue} (h : ∀ v ∈ l, ValueOk v) :
    ∃ text, formatSeq l = some text ∧ (∀ d ∈ text, d.toNat < 128) ∧
      (l ≠ [] → ∃ c text', text = c :: text' ∧ StartOk c) ∧
      ∀ close, close = ')' ∨ close = ']' → ∀ fuel rest, text.length + 2 ≤ fuel →
        parseSeq close fuel (text ++ close :: rest) = some (l, l.isEmpty, rest) := by
  induction l with
  | nil =>
    refine ⟨[], rfl, by simp, by simp, ?_⟩
    intro close hc fuel rest hf
    obtain ⟨f, rfl⟩ : ∃ f, fuel = f + 1 := ⟨fuel - 1, by omega⟩
    have : skipSpaces (close :: rest) = close :: rest :=
      skipSpaces_of (by rcases hc with h | h <;> simp [h]) rest
    simp [parseSeq, this]
  | cons v l ih =>
    rw [List.forall_mem_cons] at h
    obtain ⟨c, text, h1, h2, h3, h4⟩ := h.1
    have hclose : ∀ close : Char, close = ')' ∨ close = ']' →
        c ≠ close ∧ close.isDigit = false ∧ close ≠ ',' := by
      intro close hc
      rcases hc with rfl | rfl
      · exact ⟨h2.2.2.2.1, rfl, by decide⟩
      · exact ⟨h2.2.2.2.2.1, rfl, by decide⟩
    cases l with
    | nil =>
      refine ⟨c :: text, ?_, h3, fun _ => ⟨c, text, rfl, h2⟩, ?_⟩
      · rw [formatSeq]; exact h1
      · intro close hc fuel rest hf
        obtain ⟨f, rfl⟩ : ∃ f, fuel = f + 1 := ⟨fuel - 1, by omega⟩
        obtain ⟨c1, c2, c3⟩ := hclose close hc
        have e1 := h4 f (close :: rest) (by omega) (stop_cons c2 rest)
        have e2 : skipSpaces (close :: rest) = close :: rest :=
          skipSpaces_of (by rcases hc with h | h <;> simp [h]) rest
        rw [parseSeq, List.cons_append, skipSpaces_start h2]
        simp only [List.head?_cons, Option.some.injEq, if_neg c1]
        rw [← List.cons_append, e1]
        simp only [Option.bind_eq_bind, Option.bind_some, e2, List.head?_cons, Option.some.injEq, if_neg c3,
          if_true]
        rfl
    | cons w l =>
      obtain ⟨others, i1, i2, i3, i4⟩ := ih h.2
      obtain ⟨c', others', rfl, hc'⟩ := i3 (by simp)
      refine ⟨c :: text ++ ',' :: ' ' :: c' :: others', ?_, ?_, fun _ => ⟨c, _, rfl, h2⟩, ?_⟩
      · rw [formatSeq]
        · simp [h1, i1]
        · simp
      · intro d hd
        simp only [List.mem_append, List.mem_cons] at hd
        rcases hd with hd | rfl | rfl | hd
        · exact h3 d (by simpa using hd)
        · decide
        · decide
        · exact i2 d (by simpa using hd)
      · intro close hc fuel rest hf
        obtain ⟨f, rfl⟩ : ∃ f, fuel = f + 1 := ⟨fuel - 1, by omega⟩
        obtain ⟨c1, c2, c3⟩ := hclose close hc
        simp only [List.length_append, List.length_cons] at hf
        have e1 := h4 f (',' :: ' ' :: c' :: others' ++ close :: rest) (by simp only [List.length_cons]; omega)
          (stop_cons (by decide) _)
        have e2 : skipSpaces (',' :: ' ' :: c' :: others' ++ close :: rest) =
            ',' :: ' ' :: c' :: others' ++ close :: rest := skipSpaces_of (.inl rfl) _
        have e3 := i4 close hc f rest (by simp only [List.length_cons]; omega)
        rw [parseSeq, List.append_assoc, List.cons_append, skipSpaces_start h2]
        simp only [List.head?_cons, Option.some.injEq, if_neg c1]
        rw [← List.cons_append, e1]
        simp only [Option.bind_eq_bind, Option.bind_some, e2]
        simp only [List.cons_append, List.head?_cons, if_true, List.tail_cons]
        have e4 : parseSeq close f (' ' :: (c' :: (others' ++ close :: rest))) =
            parseSeq close f (c' :: others' ++ close :: rest) := by
          cases f with
          | zero => rfl
          | succ f => rw [parseSeq, parseSeq, skipSpaces_space]; rfl
        rw [e4, e3]
        rfl

theorem entries_ok {l : List (PyValue × PyValue)} (h : ∀ kv ∈ l, ValueOk kv.1 ∧ ValueOk kv.2) :
    ∃ text, formatEntries l = some text ∧ (∀ d ∈ text, d.toNat < 128) ∧
      (l ≠ [] → ∃ c text', text = c :: text' ∧ StartOk c) ∧
      ∀ fuel rest, text.length + 2 ≤ fuel →
        parseEntries fuel (text ++ '}' :: rest) = some (l, rest) := by
  induction l with
  | nil =>
    refine ⟨[], rfl, by simp, by simp, ?_⟩
    intro fuel rest hf
    obtain ⟨f, rfl⟩ : ∃ f, fuel = f + 1 := ⟨fuel - 1, by omega⟩
    have : skipSpaces ('}' :: rest) = '}' :: rest := skipSpaces_of (by simp) rest
    simp [parseEntries, this]
  | cons kv l ih =>
    obtain ⟨k, v⟩ := kv
    rw [List.forall_mem_cons] at h
    obtain ⟨⟨⟨c, text, h1, h2, h3, h4⟩, ⟨d, value, g1, g2, g3, g4⟩⟩, h5⟩ := h
    simp only at h1 h4 g1 g4
    have c1 : c ≠ '}' := h2.2.2.2.2.2
    have key : ∀ f tail, (c :: text).length < f → (d :: value).length < f → StopOk tail →
        parseEntries (f + 1) (c :: text ++ ':' :: ' ' :: (d :: value ++ tail)) =
          (let text := skipSpaces tail
          if text.head? = some ',' then do
            let (entries, text) ← parseEntries f text.tail
            return ((k, v) :: entries, text)
          else if text.head? = some '}' then
            return ([(k, v)], text.tail)
          else none) := by
      intro f tail f1 f2 ht
      have e1 := h4 f (':' :: ' ' :: (d :: value ++ tail)) f1 (stop_cons (by decide) _)
      have e2 : skipSpaces (':' :: ' ' :: (d :: value ++ tail)) = ':' :: ' ' :: (d :: value ++ tail) :=
        skipSpaces_of (by simp) _
      have e3 := g4 f tail f2 ht
      have e4 : skipSpaces (' ' :: (d :: value ++ tail)) = d :: value ++ tail := by
        rw [skipSpaces_space, List.cons_append, skipSpaces_start g2]
      rw [parseEntries, List.cons_append, skipSpaces_start h2]
      simp only [List.head?_cons, Option.some.injEq, if_neg c1]
      rw [← List.cons_append, e1]
      simp only [Option.bind_eq_bind, Option.bind_some, e2, List.head?_cons, if_true, List.tail_cons, e4, e3]
    cases l with
    | nil =>
      refine ⟨c :: text ++ ':' :: ' ' :: (d :: value), ?_, ?_, fun _ => ⟨c, _, rfl, h2⟩, ?_⟩
      · simp [formatEntries, h1, g1]
      · intro e he
        simp only [List.mem_append, List.mem_cons] at he
        rcases he with he | rfl | rfl | he
        · exact h3 e (by simpa using he)
        · decide
        · decide
        · exact g3 e (by simpa using he)
      · intro fuel rest hf
        obtain ⟨f, rfl⟩ : ∃ f, fuel = f + 1 := ⟨fuel - 1, by omega⟩
        simp only [List.length_append, List.length_cons] at hf
        have := key f ('}' :: rest) (by simp only [List.length_cons]; omega)
          (by simp only [List.length_cons]; omega) (stop_cons (by decide) _)
        rw [List.append_assoc, List.cons_append (a := ':'), List.cons_append (a := ' '), this]
        have e2 : skipSpaces ('}' :: rest) = '}' :: rest := skipSpaces_of (by simp) rest
        simp [e2]
    | cons w l =>
      obtain ⟨others, i1, i2, i3, i4⟩ := ih h5
      obtain ⟨c', others', rfl, hc'⟩ := i3 (by simp)
      refine ⟨c :: text ++ ':' :: ' ' :: (d :: value ++ ',' :: ' ' :: c' :: others'), ?_, ?_,
        fun _ => ⟨c, _, rfl, h2⟩, ?_⟩
      · rw [formatEntries]
        · simp [h1, g1, i1]
        · simp
      · intro e he
        simp only [List.mem_append, List.mem_cons] at he
        rcases he with he | rfl | rfl | he | rfl | rfl | he
        · exact h3 e (by simpa using he)
        · decide
        · decide
        · exact g3 e (by simpa using he)
        · decide
        · decide
        · exact i2 e (by simpa using he)
      · intro fuel rest hf
        obtain ⟨f, rfl⟩ : ∃ f, fuel = f + 1 := ⟨fuel - 1, by omega⟩
        simp only [List.length_append, List.length_cons] at hf
        have := key f (',' :: ' ' :: c' :: others' ++ '}' :: rest) (by simp only [List.length_cons]; omega)
          (by simp only [List.length_cons]; omega) (stop_cons (by decide) _)
        rw [List.append_assoc, List.cons_append (a := ':'), List.cons_append (a := ' '), List.append_assoc, this]
        have e2 : skipSpaces (',' :: ' ' :: c' :: others' ++ '}' :: rest) =
            ',' :: ' ' :: c' :: others' ++ '}' :: rest := skipSpaces_of (.inl rfl) _
        have e3 := i4 f rest (by simp only [List.length_cons]; omega)
        have e4 : parseEntries f (' ' :: (c' :: (others' ++ '}' :: rest))) =
            parseEntries f (c' :: others' ++ '}' :: rest) := by
          cases f with
          | zero => rfl
          | succ f => rw [parseEntries, parseEntries, skipSpaces_space]; rfl
        simp only [e2]
        simp only [List.cons_append, List.head?_cons, if_true, List.tail_cons]
        rw [e4, e3]
        rfl

theorem digit_ne {c : Char} (h : c.isDigit = true) :
    StartOk c ∧ c ≠ '\'' ∧ c ≠ '"' ∧ c ≠ '(' ∧ c ≠ '[' ∧ c ≠ '{' ∧ c ≠ '-' ∧ c ≠ 'T' ∧ c ≠ 'F' ∧ c ≠ 'N' := by
  obtain ⟨-, h1, h2⟩ := isDigit_toNat h
  unfold StartOk
  refine ⟨⟨?_, ?_, ?_, ?_, ?_, ?_⟩, ?_, ?_, ?_, ?_, ?_, ?_, ?_, ?_, ?_⟩ <;>
    (rintro rfl; revert h1 h2; decide)

theorem value_ok {v : PyValue} (h : Plain v) : ValueOk v := by
  induction h with
  | string s =>
    refine ⟨'\'', s.flatMap formatChar ++ ['\''], by rw [format]; rfl, by decide, ?_, ?_⟩
    · intro d hd
      simp only [List.mem_cons, List.mem_append, List.mem_flatMap, List.not_mem_nil, or_false] at hd
      rcases hd with rfl | ⟨c, -, hd⟩ | rfl
      · decide
      · exact formatChar_ascii c d hd
      · decide
    · intro fuel rest hf _
      obtain ⟨f, rfl⟩ : ∃ f, fuel = f + 1 := ⟨fuel - 1, by omega⟩
      simp only [List.length_append, List.length_cons, List.length_nil] at hf
      have hl := flatMap_formatChar_length s
      have := parseString_format s f rest (by omega)
      simp only [parseValue, List.cons_append, List.append_assoc, true_or, if_true, List.nil_append]
      rw [this]
      rfl
  | integer i =>
    cases i with
    | ofNat n =>
      have hne := decChars_ne_nil n n
      obtain ⟨c, text, e⟩ := List.exists_cons_of_ne_nil hne
      have hd := decChars_isDigit (n + 1) n
      rw [e] at hd
      have hc := digit_ne (hd c List.mem_cons_self)
      refine ⟨c, text, by rw [format, formatInt, e], hc.1, fun d h => (isDigit_toNat (hd d h)).1, ?_⟩
      intro fuel rest hf hr
      obtain ⟨f, rfl⟩ : ∃ f, fuel = f + 1 := ⟨fuel - 1, by omega⟩
      have := parseNat_decChars n n rest (by omega) hr
      rw [e] at this
      obtain ⟨-, c1, c2, c3, c4, c5, c6, c7, c8, c9⟩ := hc
      have p1 : "True".toList.isPrefixOf (c :: text ++ rest) = false := by
        simp [List.isPrefixOf, Ne.symm c7]
      have p2 : "False".toList.isPrefixOf (c :: text ++ rest) = false := by
        simp [List.isPrefixOf, Ne.symm c8]
      have p3 : "None".toList.isPrefixOf (c :: text ++ rest) = false := by
        simp [List.isPrefixOf, Ne.symm c9]
      rw [List.cons_append] at this p1 p2 p3 ⊢
      simp only [parseValue, c1, c2, c3, c4, c5, c6, p1, p2, p3, or_false, if_false, Bool.false_eq_true]
      rw [this]
      rfl
    | negSucc n =>
      have hd := decChars_isDigit (n + 2) (n + 1)
      refine ⟨'-', decChars (n + 2) (n + 1), by rw [format, formatInt], by decide, ?_, ?_⟩
      · intro d h
        rw [List.mem_cons] at h
        rcases h with rfl | h
        · decide
        · exact (isDigit_toNat (hd d h)).1
      · intro fuel rest hf hr
        obtain ⟨f, rfl⟩ : ∃ f, fuel = f + 1 := ⟨fuel - 1, by omega⟩
        have := parseNat_decChars (n + 1) (n + 1) rest (by omega) hr
        simp only [parseValue, List.cons_append]
        rw [if_neg (by decide), if_neg (by decide), if_neg (by decide), if_neg (by decide), if_pos trivial, this]
        rfl
  | boolean b =>
    cases b with
    | true =>
      refine ⟨'T', "rue".toList, by rw [format]; rfl, by decide, by decide, ?_⟩
      intro fuel rest hf _
      obtain ⟨f, rfl⟩ : ∃ f, fuel = f + 1 := ⟨fuel - 1, by omega⟩
      rfl
    | false =>
      refine ⟨'F', "alse".toList, by rw [format]; rfl, by decide, by decide, ?_⟩
      intro fuel rest hf _
      obtain ⟨f, rfl⟩ : ∃ f, fuel = f + 1 := ⟨fuel - 1, by omega⟩
      rfl
  | none =>
    refine ⟨'N', "one".toList, by rw [format]; rfl, by decide, by decide, ?_⟩
    intro fuel rest hf _
    obtain ⟨f, rfl⟩ : ∃ f, fuel = f + 1 := ⟨fuel - 1, by omega⟩
    rfl
  | @tuple l _ ih =>
    obtain ⟨text, h1, h2, h3, h4⟩ := seq_ok ih
    by_cases hl : l.length = 1
    · obtain ⟨v, rfl⟩ := List.length_eq_one_iff.1 hl
      obtain ⟨c, text', e1, e2, e3, e4⟩ := ih v (by simp)
      have e : text = c :: text' := by
        rw [formatSeq, e1, Option.some.injEq] at h1; exact h1.symm
      subst e
      refine ⟨'(', c :: text' ++ [',', ')'], by simp [format, h1], by decide, ?_, ?_⟩
      · intro d hd
        simp only [List.mem_cons, List.mem_append, List.not_mem_nil, or_false] at hd
        rcases hd with rfl | hd | rfl | rfl
        · decide
        · exact e3 d (by simpa using hd)
        · decide
        · decide
      · intro fuel rest hf _
        obtain ⟨f, rfl⟩ : ∃ f, fuel = f + 1 := ⟨fuel - 1, by omega⟩
        simp only [List.length_append, List.length_cons, List.length_nil] at hf
        obtain ⟨g, rfl⟩ : ∃ g, f = g + 2 := ⟨f - 2, by omega⟩
        have p1 := e4 (g + 1) (',' :: ')' :: rest) (by simp only [List.length_cons]; omega)
          (stop_cons (by decide) _)
        have p2 : parseSeq ')' (g + 2) (c :: text' ++ ',' :: ')' :: rest) = some ([v], true, rest) := by
          rw [parseSeq, List.cons_append, skipSpaces_start e2]
          simp only [List.head?_cons, Option.some.injEq, if_neg e2.2.2.2.1]
          rw [← List.cons_append, p1]
          have : skipSpaces (',' :: ')' :: rest) = ',' :: ')' :: rest := skipSpaces_of (.inl rfl) _
          simp only [Option.bind_eq_bind, Option.bind_some, this, List.head?_cons, if_true, List.tail_cons]
          have : skipSpaces (')' :: rest) = ')' :: rest := skipSpaces_of (by simp) _
          rw [parseSeq]
          simp [this]
        rw [List.cons_append, List.append_assoc, parseValue, if_neg (by decide), if_pos rfl]
        simp only [List.cons_append, List.nil_append] at p2 ⊢
        rw [p2]
        simp
    · refine ⟨'(', text ++ [')'], by simp [format, h1, hl], by decide, ?_, ?_⟩
      · intro d hd
        simp only [List.mem_cons, List.mem_append, List.not_mem_nil, or_false] at hd
        rcases hd with rfl | hd | rfl
        · decide
        · exact h2 d hd
        · decide
      · intro fuel rest hf _
        obtain ⟨f, rfl⟩ : ∃ f, fuel = f + 1 := ⟨fuel - 1, by omega⟩
        simp only [List.length_append, List.length_cons, List.length_nil] at hf
        have := h4 ')' (.inl rfl) f rest (by omega)
        rw [List.cons_append, List.append_assoc, List.singleton_append, parseValue, if_neg (by decide), if_pos rfl,
          this]
        simp [hl]
  | @list l _ ih =>
    obtain ⟨text, h1, h2, h3, h4⟩ := seq_ok ih
    refine ⟨'[', text ++ [']'], by simp [format, h1], by decide, ?_, ?_⟩
    · intro d hd
      simp only [List.mem_cons, List.mem_append, List.not_mem_nil, or_false] at hd
      rcases hd with rfl | hd | rfl
      · decide
      · exact h2 d hd
      · decide
    · intro fuel rest hf _
      obtain ⟨f, rfl⟩ : ∃ f, fuel = f + 1 := ⟨fuel - 1, by omega⟩
      simp only [List.length_append, List.length_cons, List.length_nil] at hf
      have := h4 ']' (.inr rfl) f rest (by omega)
      rw [List.cons_append, List.append_assoc, List.singleton_append, parseValue, if_neg (by decide),
        if_neg (by decide), if_pos rfl, this]
      rfl
  | @dict l _ _ ih1 ih2 =>
    obtain ⟨text, h1, h2, h3, h4⟩ := entries_ok (l := l) fun kv h => ⟨ih1 kv.1 kv.2 h, ih2 kv.1 kv.2 h⟩
    refine ⟨'{', text ++ ['}'], by simp [format, h1], by decide, ?_, ?_⟩
    · intro d hd
      simp only [List.mem_cons, List.mem_append, List.not_mem_nil, or_false] at hd
      rcases hd with rfl | hd | rfl
      · decide
      · exact h2 d hd
      · decide
    · intro fuel rest hf _
      obtain ⟨f, rfl⟩ : ∃ f, fuel = f + 1 := ⟨fuel - 1, by omega⟩
      simp only [List.length_append, List.length_cons, List.length_nil] at hf
      have := h4 f rest (by omega)
      rw [List.cons_append, List.append_assoc, List.singleton_append, parseValue, if_neg (by decide),
        if_neg (by decide), if_neg (by decide), if_pos rfl, this]
      rfl

/-! ### Complete texts -/

theorem skipSpaces_replicate (n : Nat) : skipSpaces (List.replicate n ' ') = [] := by
  induction n with
  | zero => rfl
  | succ n ih => rw [List.replicate_succ, skipSpaces_space, ih]

theorem parse_ok {v : PyValue} {c : Char} {text : List Char} (hc : StartOk c)
    (h : ∀ fuel rest, (c :: text).length < fuel → StopOk rest →
      parseValue fuel (c :: text ++ rest) = some (v, rest)) (n : Nat) :
    parse (c :: text ++ List.replicate n ' ') = some v := by
  have h1 := h ((c :: text ++ List.replicate n ' ').length + 1) (List.replicate n ' ')
    (by rw [List.length_append]; omega)
    (by
      intro d hd
      cases n with
      | zero => simp at hd
      | succ n =>
        rw [List.replicate_succ, List.head?_cons, Option.some.injEq] at hd
        subst hd; rfl)
  unfold parse
  rw [List.cons_append] at h1 ⊢
  rw [skipSpaces_start hc, h1]
  simp [skipSpaces_replicate]

theorem asciiChars_map {text : List Char} (h : ∀ d ∈ text, d.toNat < 128) :
    NpyHeader.asciiChars (text.map fun c => UInt8.ofNat c.toNat) = text := by
  unfold NpyHeader.asciiChars
  rw [List.map_map]
  conv => rhs; rw [← List.map_id text]
  apply List.map_congr_left
  intro c hc
  have := h c hc
  simp only [Function.comp, UInt8.toNat_ofNat', id]
  rw [Nat.mod_eq_of_lt (by omega)]
  exact Char.ofNat_toNat c

/-- A plain quoted string. -/
theorem parse_quoted {s : List Char} (h : ∀ c ∈ s, c ≠ '\\' ∧ c ≠ '\r' ∧ c ≠ '\n' ∧ c ≠ '\'' ∧ c.toNat < 128) :
    s.flatMap formatChar = s := by
  induction s with
  | nil => rfl
  | cons c s ih =>
    rw [List.forall_mem_cons] at h
    obtain ⟨⟨h1, h2, h3, h4, h5⟩, h6⟩ := h
    rw [List.flatMap_cons, ih h6]
    unfold formatChar
    simp [h1, h2, h3, h4, h5]

theorem parseSeq_space (close : Char) (fuel : Nat) (text : List Char) :
    parseSeq close fuel (' ' :: text) = parseSeq close fuel text := by
  cases fuel with
  | zero => rfl
  | succ f => rw [parseSeq, parseSeq, skipSpaces_space]

/-- Values followed by a comma and a space each. -/
theorem parseSeq_commas {α : Type} {value : α → PyValue} {text : α → List Char} {l : List α}
    (h : ∀ a ∈ l, ∃ c cs, text a = c :: cs ∧ StartOk c ∧ ∀ fuel rest, (text a).length < fuel → StopOk rest →
      parseValue fuel (text a ++ rest) = some (value a, rest)) (fuel : Nat) (rest : List Char)
    (hf : (l.flatMap fun a => text a ++ [',', ' ']).length < fuel) :
    parseSeq ']' fuel ((l.flatMap fun a => text a ++ [',', ' ']) ++ ']' :: rest) =
      some (l.map value, true, rest) := by
  induction l generalizing fuel with
  | nil =>
    obtain ⟨f, rfl⟩ : ∃ f, fuel = f + 1 := ⟨fuel - 1, by simp at hf; omega⟩
    have : skipSpaces (']' :: rest) = ']' :: rest := skipSpaces_of (by simp) rest
    simp [parseSeq, this]
  | cons a l ih =>
    rw [List.forall_mem_cons] at h
    obtain ⟨⟨c, cs, h1, h2, h3⟩, h4⟩ := h
    obtain ⟨f, rfl⟩ : ∃ f, fuel = f + 1 := ⟨fuel - 1, by simp at hf; omega⟩
    rw [List.flatMap_cons] at hf ⊢
    simp only [List.length_append, List.length_cons, List.length_nil] at hf
    have e1 := h3 f (',' :: ' ' :: ((l.flatMap fun a => text a ++ [',', ' ']) ++ ']' :: rest)) (by omega)
      (stop_cons (by decide) _)
    have e2 : skipSpaces (',' :: ' ' :: ((l.flatMap fun a => text a ++ [',', ' ']) ++ ']' :: rest)) =
        ',' :: ' ' :: ((l.flatMap fun a => text a ++ [',', ' ']) ++ ']' :: rest) := skipSpaces_of (.inl rfl) _
    have e3 := ih h4 f (by omega)
    have e0 : text a ++ [',', ' '] ++ (l.flatMap fun a => text a ++ [',', ' ']) ++ ']' :: rest =
        text a ++ (',' :: ' ' :: ((l.flatMap fun a => text a ++ [',', ' ']) ++ ']' :: rest)) := by simp
    rw [e0]
    obtain ⟨tail, ht⟩ : ∃ tail, tail = ',' :: ' ' :: ((l.flatMap fun a => text a ++ [',', ' ']) ++ ']' :: rest) :=
      ⟨_, rfl⟩
    rw [← ht] at e1 e2 ⊢
    have e5 : skipSpaces (text a ++ tail) = text a ++ tail := by
      rw [h1, List.cons_append, skipSpaces_start h2]
    have e6 : (text a ++ tail).head? = some c := by rw [h1]; rfl
    rw [parseSeq]
    simp only [e5, e6, Option.some.injEq, if_neg h2.2.2.2.2.1, e1, Option.bind_eq_bind, Option.bind_some]
    rw [e2, ht]
    simp only [List.head?_cons, if_true, List.tail_cons, parseSeq_space, e3]
    rfl

/-- A character of a label name. -/
theorem ident_plain {c : Char} (h : IdentRest c ∨ IdentStart c) :
    c ≠ '\\' ∧ c ≠ '\r' ∧ c ≠ '\n' ∧ c ≠ '\'' ∧ c.toNat < 128 := by
  have hle : ∀ a b : Char, a ≤ b → a.toNat ≤ b.toNat := fun a b h => UInt32.le_iff_toNat_le.1 h
  have h' : (97 ≤ c.toNat ∧ c.toNat ≤ 122) ∨ (65 ≤ c.toNat ∧ c.toNat ≤ 90) ∨ c.toNat = 95 ∨
      (48 ≤ c.toNat ∧ c.toNat ≤ 57) := by
    rcases h with ((h | h | h) | h) | h | h | h
    · exact .inl ⟨hle _ _ h.1, hle _ _ h.2⟩
    · exact .inr (.inl ⟨hle _ _ h.1, hle _ _ h.2⟩)
    · exact .inr (.inr (.inl (by rw [h]; rfl)))
    · exact .inr (.inr (.inr ⟨hle _ _ h.1, hle _ _ h.2⟩))
    · exact .inl ⟨hle _ _ h.1, hle _ _ h.2⟩
    · exact .inr (.inl ⟨hle _ _ h.1, hle _ _ h.2⟩)
    · exact .inr (.inr (.inl (by rw [h]; rfl)))
  refine ⟨?_, ?_, ?_, ?_, by omega⟩ <;> (rintro rfl; revert h'; decide)

theorem identifier_plain {s : String} (h : Identifier s) :
    ∀ c ∈ s.toList, c ≠ '\\' ∧ c ≠ '\r' ∧ c ≠ '\n' ∧ c ≠ '\'' ∧ c.toNat < 128 := by
  obtain ⟨c, cs, e, h1, h2⟩ := h
  rw [e, List.forall_mem_cons]
  exact ⟨ident_plain (.inr h1), fun d hd => ident_plain (.inl (h2 d hd))⟩

theorem i4_plain (e : Endian) : e.i4.toList.flatMap formatChar = e.i4.toList := by
  cases e <;> decide

/-- The text of one name in the type of labels. -/
def nameText (e : Endian) (name : String) : List Char :=
  "('".toList ++ name.toList ++ "', '".toList ++ e.i4.toList ++ "')".toList

theorem nameText_ok {e : Endian} {name : String} (h : Identifier name) :
    ∃ c cs, nameText e name = c :: cs ∧ StartOk c ∧ ∀ fuel rest, (nameText e name).length < fuel → StopOk rest →
      parseValue fuel (nameText e name ++ rest) =
        some (.tuple [.string name.toList, .string e.i4.toList], rest) := by
  have hp : Plain (.tuple [.string name.toList, .string e.i4.toList]) :=
    .tuple (by
      simp only [List.mem_cons, List.not_mem_nil, or_false]
      rintro v (rfl | rfl) <;> exact .string _)
  obtain ⟨c, cs, h1, h2, h3, h4⟩ := value_ok hp
  have e1 : nameText e name = c :: cs := by
    rw [← Option.some.injEq, ← h1]
    simp [format, formatSeq, parse_quoted (identifier_plain h), i4_plain, nameText]
  rw [e1]
  exact ⟨c, cs, rfl, h2, h4⟩

end PyFragment

open PyFragment in
/-- The assumptions on `py_literal` can be satisfied. -/
theorem lawful_fragment : LawfulPy PyLiteral.fragment := by
  refine ⟨?_, ?_, ?_⟩
  · intro v hv
    obtain ⟨c, text, h1, h2, h3, h4⟩ := value_ok hv
    refine ⟨(c :: text).map fun c => UInt8.ofNat c.toNat, ?_, ?_, ?_⟩
    · simp only [PyLiteral.fragment, h1, Option.map_some]
    · intro b hb
      rw [List.mem_map] at hb
      obtain ⟨d, hd, rfl⟩ := hb
      have := h3 d hd
      rw [UInt8.lt_iff_toNat_lt, UInt8.toNat_ofNat', Nat.mod_eq_of_lt (by omega)]
      exact this
    · intro n
      rw [asciiChars_map h3]
      exact parse_ok h2 h4 n
  · intro e names hn
    have e1 : labelsDescriptor e names =
        '[' :: ((names.flatMap fun a => nameText e a ++ [',', ' ']) ++ [']']) := by
      unfold labelsDescriptor nameText
      simp
    have := parseSeq_commas (value := fun name : String => .tuple [.string name.toList, .string e.i4.toList])
      (text := nameText e) (l := names) (fun a ha => nameText_ok (hn a ha))
      ((labelsDescriptor e names).length) [] (by
        rw [e1, List.length_cons, List.length_append]
        simp only [List.length_cons]
        omega)
    simp only [PyLiteral.fragment, parse]
    rw [e1] at this ⊢
    rw [skipSpaces_start (by decide), parseValue, if_neg (by decide), if_neg (by decide), if_pos rfl, this]
    rfl
  · intro e
    cases e <;> rfl

end Equistore
