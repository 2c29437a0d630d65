import Verif.Model.PyPrint
import Verif.Spec.Tensor

/-!
# Specification vocabulary for printed tensor maps: reading a text
-/

namespace Equistore
namespace Spec

/-- The lines of a text. -/
def lines : List Char → List (List Char)
  | [] => [[]]
  | c :: text =>
    if c = '\n' then [] :: lines text
    else
      match lines text with
      | [] => [[c]]
      | line :: rest => (c :: line) :: rest

/-- The words of a line: parts without spaces, separated by any number of spaces. -/
def words : List Char → List (List Char)
  | [] => []
  | c :: text =>
    if c = ' ' then words text
    else if text = [] ∨ text.head? = some ' ' then [c] :: words text
    else
      match words text with
      | [] => [[c]]
      | word :: rest => (c :: word) :: rest

/-- Each number after the first one needs less space than there is from the middle of the name before to the middle of its
own name. -/
def Narrow : List String → List LabelValue → Prop
  | name :: name' :: names, _ :: x :: entry =>
    (decimal x.toInt).length < (name.length + 3) / 2 + (name'.length + 3) / 2 ∧ Narrow (name' :: names) (x :: entry)
  | _, _ => True

instance Narrow.decidable : (names : List String) → (entry : List LabelValue) → Decidable (Narrow names entry)
  | [], _ => .isTrue (by simp [Narrow])
  | [_], _ => .isTrue (by simp [Narrow])
  | _ :: _ :: _, [] => .isTrue (by simp [Narrow])
  | _ :: _ :: _, [_] => .isTrue (by simp [Narrow])
  | name :: name' :: names, _ :: x :: entry =>
    have := Narrow.decidable (name' :: names) (x :: entry)
    inferInstanceAs (Decidable (_ ∧ _))

/-- A printed tensor map: the number of blocks, the names of the keys, and a table with some words in each line. -/
structure Printed (names : List String) (count : Nat) (table : List (List (List Char))) (text : List Char) : Prop where
  parts : ∃ title namesLine rest, lines text = title :: namesLine :: rest ∧
    words title = ["TensorMap".toList, "with".toList, decimal count, "blocks".toList] ∧
    (∃ shown, namesLine = "keys: [".toList ++ shown ++ "]".toList ∧
      words shown = names.map fun n => "'".toList ++ n.toList ++ "'".toList) ∧
    rest.map words = table

/-- Table with the given entries. -/
def tableOf (entries : List (List LabelValue)) : List (List (List Char)) :=
  entries.map fun entry => entry.map fun x => decimal x.toInt

end Spec
end Equistore
