import Verif.Model.PyLabels
import Verif.Spec.CApi

/-!
# Specification vocabulary for labels in Python
-/

namespace Equistore
namespace Spec

/-- An integer which fits in 32 bits. -/
def Fits (x : Int) : Prop := -2147483648 ≤ x ∧ x < 2147483648

/-- A numpy array has one element for each index. -/
def ValuesArg.Complete : ValuesArg → Prop
  | .other => True
  | .array _ shape elements => elements.length = shape.prod

/-- The two-dimensional array of integers with the given rows, all of them with `columns` elements. -/
def matrix (columns : Nat) (rows : List (List Int)) : ValuesArg :=
  .array true [rows.length, columns] rows.flatten

/-- Labels a Python program can have: created with `Labels(names, values)`, given by the library, or taken from other
labels with indexing. `allowedNames` and `allowedIndex` restrict what the program does. -/
inductive Obtained (allowedNames : List String → Prop) (allowedIndex : LabelsIndex → Prop) : PyLabels → Prop where
  | new {names values v} : allowedNames names → ValuesArg.Complete values → PyLabels.new names values none = .ok v →
      Obtained allowedNames allowedIndex v
  | library {l c v} : Labels.FromBuilder l → l.names ≠ [] → l.toC = .ok c → PyLabels.ofC c = .ok v →
      Obtained allowedNames allowedIndex v
  | index {v i v'} : Obtained allowedNames allowedIndex v → allowedIndex i → v.getItem i = .ok v' →
      Obtained allowedNames allowedIndex v'

/-- What the library sees when it is given some labels: reading them is possible, and if it accepts them,
it has the same names and the same entries in the same order. -/
def LibrarySees (v : PyLabels) : Prop :=
  v.readable = true ∧
  ∀ l, Labels.ofC v.toC = .ok l → l.names = v.names ∧ ∃ entries, v.entries = some entries ∧ l.iter = .ok entries

/-- Names which are not empty and contain no NUL. -/
def PlainNames (names : List String) : Prop := ∀ n ∈ names, n ≠ "" ∧ '\x00' ∉ n.toList

/-- Taking entries, with slices without a step or lists of positions. -/
def TakesEntries : LabelsIndex → Prop
  | .slice _ _ step => step = none ∨ step = some 1
  | .positions _ => True
  | .names _ => False

/-- Negative positions count from the end of a sequence with `n` elements. -/
def fromEnd (n : Nat) (x : Int) : Int := if x < 0 then x + n else x

/-- The entry at position `i` has these values. -/
def IsEntry (entries : List (List LabelValue)) (i : Nat) (label : List Int) : Prop :=
  ∃ entry, entries[i]? = some entry ∧ entry.map Int32.toInt = label

end Spec
end Equistore
