import Verif.Spec.Archive
import Verif.Lemmas.Res

/-! Names of the entries of an archive. -/

namespace Equistore
open Spec

/-! ### Splitting at slashes -/

theorem split_first {a b x y : List Char} (ha : '/' ∉ a) (hb : '/' ∉ b) (h : a ++ '/' :: x = b ++ '/' :: y) :
    a = b ∧ x = y := by
  induction a generalizing b with
  | nil =>
    cases b with
    | nil => simpa using h
    | cons d b =>
      simp only [List.nil_append, List.cons_append, List.cons.injEq] at h
      exact absurd (by rw [h.1]; exact List.mem_cons_self) hb
  | cons c a ih =>
    cases b with
    | nil =>
      simp only [List.nil_append, List.cons_append, List.cons.injEq] at h
      exact absurd (by rw [h.1]; exact List.mem_cons_self) ha
    | cons d b =>
      simp only [List.cons_append, List.cons.injEq] at h
      obtain ⟨rfl, h⟩ := h
      simp only [List.mem_cons, not_or] at ha hb
      obtain ⟨rfl, rfl⟩ := ih ha.2 hb.2 h
      exact ⟨rfl, rfl⟩

theorem split_last {a b x y : List Char} (ha : '/' ∉ a) (hb : '/' ∉ b) (h : x ++ '/' :: a = y ++ '/' :: b) :
    x = y ∧ a = b := by
  have h' := congrArg List.reverse h
  simp only [List.reverse_append, List.reverse_cons, List.append_assoc, List.singleton_append] at h'
  obtain ⟨h1, h2⟩ := split_first (by simpa using ha) (by simpa using hb) h'
  exact ⟨List.reverse_inj.1 h2, List.reverse_inj.1 h1⟩

/-! ### Numbers -/

/-- Decimal digits of a number. -/
abbrev digits (n : Nat) : List Char := Nat.toDigits 10 n

theorem toString_toList (n : Nat) : (toString n).toList = digits n := by
  rw [Nat.toString_eq_repr, Nat.toList_repr]

theorem digits_isDigit {n : Nat} {c : Char} (h : c ∈ digits n) : c.isDigit = true :=
  Nat.isDigit_of_mem_toDigits (by decide) (by decide) h

theorem digits_noSlash (n : Nat) : '/' ∉ digits n := fun h => by
  have := digits_isDigit h
  exact absurd this (by decide)

theorem digits_injective {n m : Nat} (h : digits n = digits m) : n = m := by
  rw [← Nat.ofDigitChars_ten_toDigits (n := n), ← Nat.ofDigitChars_ten_toDigits (n := m)]
  exact congrArg (Nat.ofDigitChars 10 · 0) h

theorem digits_ne {n : Nat} {l : List Char} {c : Char} (hc : c ∈ l) (hd : c.isDigit = false) : digits n ≠ l := by
  rintro rfl
  rw [digits_isDigit hc] at hd
  exact absurd hd (by decide)

theorem digits_zero : digits 0 = ['0'] := Nat.toDigits_zero 10

/-! ### The last part of a name -/

/-- The directory of an entry. -/
def What.dir : What → List Char
  | .component _ => "/components".toList
  | _ => []

/-- The name of an entry in its directory. -/
def What.last : What → List Char
  | .data => "data".toList
  | .samples => "samples".toList
  | .component i => digits i
  | .properties => "properties".toList

theorem What.text_eq (w : What) : '/' :: w.text.toList = What.dir w ++ '/' :: What.last w := by
  cases w with
  | component i =>
    show '/' :: ("components/" ++ toString i).toList = "/components".toList ++ '/' :: digits i
    rw [String.toList_append, toString_toList]
    simp
  | data => decide
  | samples => decide
  | properties => decide

theorem What.last_noSlash (w : What) : '/' ∉ What.last w := by
  cases w with
  | component i => exact digits_noSlash i
  | data => decide
  | samples => decide
  | properties => decide

theorem What.last_injective {w w' : What} (h : What.last w = What.last w') : w = w' := by
  cases w <;> cases w'
  case component.component i j => rw [digits_injective h]
  all_goals first
    | rfl
    | exact absurd h (by decide)
    | exact absurd h (digits_ne (c := 'a') (by decide) (by decide))
    | exact absurd h (digits_ne (c := 'p') (by decide) (by decide))
    | exact absurd h.symm (digits_ne (c := 'a') (by decide) (by decide))
    | exact absurd h.symm (digits_ne (c := 'p') (by decide) (by decide))

/-! ### Names -/

theorem values_name (i : Nat) (w : What) : (Part.values i w).name.toList =
    "blocks/".toList ++ (digits i ++ '/' :: ("values/".toList ++ (w.text.toList ++ ".npy".toList))) := by
  simp only [Part.name, String.toList_append, toString_toList, List.append_assoc]
  rfl

theorem gradient_name (i : Nat) (p : String) (w : What) : (Part.gradient i p w).name.toList =
    "blocks/".toList ++ (digits i ++ '/' :: ("gradients/".toList ++ (p.toList ++ '/' :: (w.text.toList ++ ".npy".toList)))) := by
  simp only [Part.name, String.toList_append, toString_toList, List.append_assoc]
  rfl

theorem tail_injective {a b : List Char} {w w' : What}
    (h : a ++ '/' :: (w.text.toList ++ ".npy".toList) = b ++ '/' :: (w'.text.toList ++ ".npy".toList)) :
    a = b ∧ w = w' := by
  rw [← List.cons_append, ← List.cons_append, What.text_eq, What.text_eq, ← List.append_assoc, ← List.append_assoc,
    ← List.append_assoc, ← List.append_assoc] at h
  obtain ⟨h1, h2⟩ := split_last (What.last_noSlash w) (What.last_noSlash w') (List.append_cancel_right h)
  have := What.last_injective h2
  subst this
  exact ⟨List.append_cancel_right h1, rfl⟩

theorem Part.name_injective {a b : Part} (h : a.name = b.name) : a = b := by
  have h' := congrArg String.toList h
  cases a with
  | keys =>
    cases b with
    | keys => rfl
    | values i w => rw [values_name] at h'; simp [Part.name] at h'
    | gradient i p w => rw [gradient_name] at h'; simp [Part.name] at h'
  | values i w =>
    cases b with
    | keys => rw [values_name] at h'; simp [Part.name] at h'
    | values i' w' =>
      rw [values_name, values_name] at h'
      obtain ⟨h1, h2⟩ := split_first (digits_noSlash i) (digits_noSlash i') (List.append_cancel_left h')
      have h3 : "values".toList ++ '/' :: (w.text.toList ++ ".npy".toList) =
        "values".toList ++ '/' :: (w'.text.toList ++ ".npy".toList) := h2
      rw [digits_injective h1, (tail_injective h3).2]
    | gradient i' p' w' =>
      rw [values_name, gradient_name] at h'
      obtain ⟨-, h2⟩ := split_first (digits_noSlash i) (digits_noSlash i') (List.append_cancel_left h')
      simp at h2
  | gradient i p w =>
    cases b with
    | keys => rw [gradient_name] at h'; simp [Part.name] at h'
    | values i' w' =>
      rw [values_name, gradient_name] at h'
      obtain ⟨-, h2⟩ := split_first (digits_noSlash i) (digits_noSlash i') (List.append_cancel_left h')
      simp at h2
    | gradient i' p' w' =>
      rw [gradient_name, gradient_name] at h'
      obtain ⟨h1, h2⟩ := split_first (digits_noSlash i) (digits_noSlash i') (List.append_cancel_left h')
      obtain ⟨h3, h4⟩ := tail_injective (List.append_cancel_left h2)
      rw [digits_injective h1, h4, String.toList_inj.1 h3]

/-! ### Names of gradients -/

/-- The gradient of the first block with data in a part. -/
def Part.parameter : Part → Option String
  | .gradient 0 p .data => some p
  | _ => none

theorem Part.matches_iff (part : Part) :
    ("blocks/0/gradients/".toList.isPrefixOf part.name.toList &&
      "/data.npy".toList.isSuffixOf part.name.toList) = (Part.parameter part).isSome := by
  cases part with
  | keys => decide
  | values i w =>
    rw [values_name]
    have : ("blocks/0/gradients/".toList.isPrefixOf ("blocks/".toList ++ (digits i ++ '/' ::
        ("values/".toList ++ (w.text.toList ++ ".npy".toList))))) = false := by
      rw [Bool.eq_false_iff, ne_eq, List.isPrefixOf_iff_prefix]
      rintro ⟨t, ht⟩
      have h2 : "blocks/".toList ++ (['0'] ++ '/' :: ("gradients/".toList ++ t)) = "blocks/".toList ++ (digits i ++ '/' ::
        ("values/".toList ++ (w.text.toList ++ ".npy".toList))) := ht
      obtain ⟨-, h3⟩ := split_first (by decide) (digits_noSlash i) (List.append_cancel_left h2)
      simp at h3
    rw [this]
    rfl
  | gradient i p w =>
    rw [gradient_name]
    by_cases hi : i = 0
    · subst hi
      have h1 : ("blocks/0/gradients/".toList.isPrefixOf ("blocks/".toList ++ (digits 0 ++ '/' ::
          ("gradients/".toList ++ (p.toList ++ '/' :: (w.text.toList ++ ".npy".toList)))))) = true := by
        rw [List.isPrefixOf_iff_prefix, digits_zero]
        exact ⟨p.toList ++ '/' :: (w.text.toList ++ ".npy".toList), rfl⟩
      rw [h1, Bool.true_and]
      by_cases hw : w = .data
      · subst hw
        have : Part.parameter (.gradient 0 p .data) = some p := rfl
        rw [this, Option.isSome_some, List.isSuffixOf_iff_suffix]
        exact ⟨"blocks/".toList ++ (digits 0 ++ '/' :: ("gradients/".toList ++ p.toList)),
          by simp only [List.append_assoc, List.cons_append]; rfl⟩
      · have : Part.parameter (.gradient 0 p w) = none := by
          cases w <;> first | rfl | exact absurd rfl hw
        rw [this, Option.isSome_none, Bool.eq_false_iff, ne_eq, List.isSuffixOf_iff_suffix]
        rintro ⟨t, ht⟩
        have h2 : t ++ '/' :: (What.data.text.toList ++ ".npy".toList) =
            ("blocks/".toList ++ (digits 0 ++ '/' :: ("gradients/".toList ++ p.toList))) ++
              '/' :: (w.text.toList ++ ".npy".toList) := by
          simp only [List.append_assoc, List.cons_append]
          exact ht
        exact hw (tail_injective h2).2.symm
    · have : ("blocks/0/gradients/".toList.isPrefixOf ("blocks/".toList ++ (digits i ++ '/' ::
          ("gradients/".toList ++ (p.toList ++ '/' :: (w.text.toList ++ ".npy".toList)))))) = false := by
        rw [Bool.eq_false_iff, ne_eq, List.isPrefixOf_iff_prefix]
        rintro ⟨t, ht⟩
        have h2 : "blocks/".toList ++ (['0'] ++ '/' :: ("gradients/".toList ++ t)) = "blocks/".toList ++ (digits i ++ '/' ::
          ("gradients/".toList ++ (p.toList ++ '/' :: (w.text.toList ++ ".npy".toList)))) := ht
        obtain ⟨h3, -⟩ := split_first (by decide) (digits_noSlash i) (List.append_cancel_left h2)
        rw [← digits_zero] at h3
        exact hi (digits_injective h3).symm
      rw [this]
      have : Part.parameter (.gradient i p w) = none := by
        cases i with
        | zero => exact absurd rfl hi
        | succ i => rfl
      rw [this]
      rfl

theorem gradientParameters_eq (build : Build) (parts : List Part) :
    gradientParameters build (parts.map Part.name) = .ok (parts.filterMap Part.parameter) := by
  induction parts with
  | nil => rfl
  | cons part parts ih =>
    rw [List.map_cons, gradientParameters, Part.matches_iff, ih]
    cases hp : Part.parameter part with
    | none =>
      simp only [Option.isSome_none, Bool.false_eq_true, if_false]
      rw [List.filterMap_cons_none hp]
    | some p =>
      simp only [Option.isSome_some, if_true]
      rw [List.filterMap_cons_some hp]
      have hpart : part = .gradient 0 p .data := by
        unfold Part.parameter at hp
        split at hp
        · simp only [Option.some.injEq] at hp; rw [hp]
        · simp at hp
      subst hpart
      rw [gradient_name, digits_zero]
      have e1 : "blocks/".toList ++ (['0'] ++ '/' :: ("gradients/".toList ++ (p.toList ++ '/' ::
          (What.data.text.toList ++ ".npy".toList)))) = "blocks/0/gradients/".toList ++ (p.toList ++ "/data.npy".toList) := rfl
      rw [e1]
      unfold splitAt usizeSub
      rw [if_pos (by simp), List.drop_left' (by rfl)]
      simp only [Res.ok_bind]
      have hlen : (p.toList ++ "/data.npy".toList).length = p.toList.length + 9 := by
        rw [List.length_append]; rfl
      rw [hlen, if_pos (by omega)]
      simp only [Res.ok_bind, Nat.add_sub_cancel]
      rw [if_pos (by omega)]
      simp only [Res.ok_bind, List.take_left' rfl, String.ofList_toList]
      rfl

end Equistore
