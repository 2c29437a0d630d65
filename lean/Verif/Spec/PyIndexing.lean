import Verif.Spec.PyLabels

/-!
# Indexing labels in Python
-/

namespace Equistore
namespace Spec

/-- The documented meaning of `sequence[start:stop:step]` for a step which is not 0: the positions which are taken, in order. With a positive
step, these are the positions from `start` on (if it is given) and before `stop` (if it is given), with steps from the first one. With
a negative step, these are the positions from `start` down, and after `stop`. -/
def SliceTakes (n : Nat) (start stop : Option Int) (step : Int) (positions : List Nat) : Prop :=
  if 0 < step then
    positions.Pairwise (· < ·) ∧ ∀ p : Nat, p ∈ positions ↔ p < n ∧ (∀ a ∈ start, fromEnd n a ≤ p) ∧
      (∀ b ∈ stop, p < fromEnd n b) ∧ step ∣ p - max 0 ((start.map (fromEnd n)).getD 0)
  else
    positions.Pairwise (· > ·) ∧ ∀ p : Nat, p ∈ positions ↔ p < n ∧ (∀ a ∈ start, p ≤ fromEnd n a) ∧
      (∀ b ∈ stop, fromEnd n b < p) ∧ step ∣ min (n - 1 : Int) ((start.map (fromEnd n)).getD (n - 1)) - p

/-- These are the entries at the given positions, in the same order. -/
def EntriesAt (entries : List (List LabelValue)) (positions : List Nat) (entries' : List (List LabelValue)) : Prop :=
  List.Forall₂ (fun i e => entries[i]? = some e) positions entries'

/-- These are the values of an entry with the given names, in the same order. -/
def ValuesOf (names : List String) (entry : List LabelValue) (selected : List String) (values : List LabelValue) : Prop :=
  List.Forall₂ (fun name x => ∃ i : Nat, names[i]? = some name ∧ entry[i]? = some x) selected values

/-- Indexing which does not select names. -/
def WithoutNames : LabelsIndex → Prop
  | .names _ => False
  | _ => True

/-- Indexing which takes each entry at most once, and does not select names. Lists of positions count all from the start or all
from the end. -/
def TakesOnce : LabelsIndex → Prop
  | .slice _ _ _ => True
  | .positions indices => indices.Nodup ∧ ((∀ i ∈ indices, 0 ≤ i) ∨ ∀ i ∈ indices, i < 0)
  | .names _ => False

/-- The entries are one after the other in memory, without anything in between: `labels.flags.c_contiguous` is `True` and `labels.dtype` contains
the names in the order of memory, without space before, between or after them. -/
def Contiguous (v : PyLabels) : Prop :=
  (v.count ≤ 1 ∨ v.stride = v.itemsize) ∧ v.itemsize = v.names.length ∧ v.fields = v.names.zipIdx

end Spec
end Equistore
