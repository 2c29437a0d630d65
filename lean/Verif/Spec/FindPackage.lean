import Verif.Model.FindPackage

/-!
# Specification vocabulary for `find_package`
-/

namespace Equistore
namespace Spec
namespace FindPackage

open Equistore.FindPackage

/-- The number at this place of a version, 0 if it is not there. -/
def part (version : List Nat) (i : Nat) : Nat := version.getD i 0

/-- A version is before another one: at the first place where they are different its number is smaller. -/
def Before (a b : List Nat) : Prop := ∃ i, part a i < part b i ∧ ∀ j < i, part a j = part b j

/-- The same version, possibly with other zeros at the end. -/
def SameVersion (a b : List Nat) : Prop := ∀ i, part a i = part b i

/-- Semantic versions: a program for the version `asked` can use the version `installed` if this is not before, and the first
number is the same; versions before 1.0 also change their interface with the second number. -/
def Compatible (asked installed : List Nat) : Prop :=
  ¬ Before installed asked ∧ part asked 0 = part installed 0 ∧ (part installed 0 = 0 → part asked 1 = part installed 1)

/-- Inside of a range. -/
def InRange (lower upper : List Nat) (excluded : Bool) (installed : List Nat) : Prop :=
  ¬ Before installed lower ∧ if excluded then Before installed upper else ¬ Before upper installed

/-- Programs of one pointer size can not use libraries of another one. -/
def SamePointers (built pointer : Option Nat) : Prop := ∀ b p, built = some b → pointer = some p → p = b

/-- What should be found. -/
def ShouldFind (installed : List Nat) : Request → Prop
  | .any => True
  | .version asked true => SameVersion asked installed
  | .version asked false => Compatible asked installed
  | .range lower upper excluded => InRange lower upper excluded installed

/-- The directories in which `find_package` runs, in this order, as the list of numbers of `add_subdirectory` from the top. -/
def findsIn (commands : List Command) : List (List Nat) := go commands 0
where
  /-- The finds of the remaining commands, where this many `add_subdirectory` were already done. -/
  go : List Command → Nat → List (List Nat)
    | [], _ => []
    | .findPackage :: rest, n => [] :: go rest n
    | .subdirectory commands :: rest, n => (go commands 0).map (n :: ·) ++ go rest (n + 1)

/-- A directory is the other one, or inside of it. -/
def Inside (directory other : List Nat) : Prop := other <+: directory

end FindPackage
end Spec
end Equistore
