import Verif.Model.LabelsPrint
import Verif.Spec.PyPrint

/-! # Reading printed labels -/

namespace Equistore.Spec

/-- Commas separate words, too. -/
def withoutCommas (line : List Char) : List Char := line.map fun c => if c = ',' then ' ' else c

/-- A text which shows labels: a first line, the names, one line for each entry with all its values, and a last line. -/
structure ShowsEntries (names : List String) (entries : List (List LabelValue)) (text : List Char) : Prop where
  parts : ∃ namesLine table, lines text = "Labels{".toList :: namesLine :: table ++ ["}".toList, []] ∧
    words (withoutCommas namesLine) = names.map (·.toList) ∧ table.map words = tableOf entries

/-- Position in the line of the `j`-th name. -/
def column (names : List String) (j : Nat) : Nat := 4 + ((names.take j).map fun n => n.length + 2).sum

/-- The part of a line below the `j`-th name. -/
def below (names : List String) (j : Nat) (line : List Char) : List Char :=
  (line.drop (column names j)).take ((names.getD j "").length)

end Equistore.Spec
