import Verif.Model.LabelsMemory
import Verif.Spec.PyIndexing

/-!
# Specification vocabulary for the memory of labels in Python
-/

namespace Equistore
namespace LabelsMemory
open Spec

/-- What a program knows about its arrays and labels: objects in the same group may use the same memory. Groups are numbers. -/
structure Groups where
  arrays : List Nat
  labels : List Nat
  next : Nat

def Groups.empty : Groups := { arrays := [], labels := [], next := 0 }

/-- Groups after a statement which did not raise an exception. New arrays, copies, and labels taken from the library or
from a list of positions are new groups. Views are in the group of what they are views of. Labels made from an array are in its group,
if the type of the array is `int32` and it is contiguous. -/
def Groups.record (g : Groups) (s : State) : Statement → Groups
  | .newArray .. => { g with arrays := g.arrays ++ [g.next], next := g.next + 1 }
  | .copyArray _ => { g with arrays := g.arrays ++ [g.next], next := g.next + 1 }
  | .viewArray a .. => { g with arrays := g.arrays ++ [g.arrays.getD a 0] }
  | .newLabels _ a =>
    if (s.arrays[a]?).any fun array => array.int32 && array.contiguous then
      { g with labels := g.labels ++ [g.arrays.getD a 0] }
    else { g with labels := g.labels ++ [g.next], next := g.next + 1 }
  | .index _ (.positions _) => { g with labels := g.labels ++ [g.next], next := g.next + 1 }
  | .index l _ => { g with labels := g.labels ++ [g.labels.getD l 0] }
  | .asarray l => { g with arrays := g.arrays ++ [g.labels.getD l 0] }
  | .take _ => { g with labels := g.labels ++ [g.next], next := g.next + 1 }
  | .writeArray .. => g
  | .writeLabels .. => g
  | .give _ => g

/-- This statement assigns to an array or labels in the given group. -/
def Groups.assigned (g : Groups) : Statement → Nat → Prop
  | .writeArray a .., n => g.arrays[a]? = some n
  | .writeLabels l .., n => g.labels[l]? = some n
  | _, _ => False

/-- Programs: the state and the groups after any sequence of statements, without undefined behaviour. `allowed` restricts which statements are used, given the
groups before it. -/
inductive Later (allowed : Groups → Statement → Prop) (s : State) (g : Groups) : State → Groups → Prop
  | refl : Later allowed s g s g
  | step {s' s'' g' c reply} : Later allowed s g s' g' → allowed g' c → s'.run c = some (s'', reply) →
      Later allowed s g s'' (if reply.isNone then g'.record s' c else g')

/-- States of any program. -/
def Reached (s : State) (g : Groups) : Prop := Later (fun _ _ => True) State.empty Groups.empty s g

/-- The names and entries of labels in Python, at this time. -/
def State.shows (s : State) (l : Nat) (names : List String) (entries : List (List LabelValue)) : Prop :=
  ∃ o, s.labels[l]? = some o ∧ (s.see o).names = names ∧ (s.see o).entries = some entries

end LabelsMemory
end Equistore
