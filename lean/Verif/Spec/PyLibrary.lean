import Verif.Model.PyLibrary

/-!
# Specification vocabulary for loading the library in Python
-/

namespace Equistore
namespace Spec
open PyLibrary

/-- All functions of the object have their types. -/
def SetUp (p : Program) (dll : Nat) : Prop :=
  ∃ object, p.shared.dlls[dll]? = some object ∧ ∀ name ∈ functionNames, name ∈ object.functions

/-- The path the object was loaded from. -/
def LoadedFrom (p : Program) (dll : Nat) (path : String) : Prop :=
  ∃ object, p.shared.dlls[dll]? = some object ∧ object.path = path

/-- No thread is inside of `_get_library()`. -/
def Quiet (p : Program) : Prop := ∀ thread, p.threads thread = none

/-- The events are run one after another, where each call starts when no other one is running. -/
def NoOverlap (computer : Computer) : Program → List Event → Prop
  | _, [] => True
  | p, event :: events =>
    (∀ thread, event = .call thread → Quiet p) ∧ NoOverlap computer (p.next computer event).1 events

/-- The library at this path has all the functions. -/
def Complete (computer : Computer) (path : String) : Prop := ∀ name ∈ functionNames, computer.exports path name = true

/-- The two bytes at the start of all DLL. -/
def startsAsDll (file : Bytes) : Prop := file[0]? = some 0x4D ∧ file[1]? = some 0x5A

/-- The `count` bytes at `offset` are the little-endian integer `value`. -/
def IntegerAt (file : Bytes) (offset count value : Nat) : Prop :=
  offset + count ≤ file.length ∧ value < 256 ^ count ∧
    ∀ i < count, (file[offset + i]?.map UInt8.toNat) = some (value / 256 ^ i % 256)

/-- The machine a DLL must be made for. -/
def machineOf : Arch → Option Nat
  | .bits32 => some 332
  | .bits64 => some 34404
  | .unknown => none

/-- The file is a DLL for the pointer size of Python. -/
def IsDllFor (arch : Arch) (file : Bytes) : Prop :=
  startsAsDll file ∧ ∃ offset machine, IntegerAt file 60 4 offset ∧ IntegerAt file (offset + 4) 2 machine ∧ machineOf arch = some machine

/-- The library is at this path, and it can be used: the file is there, on Windows it is a DLL for this Python, the system can load it,
and it has all the functions. -/
def Installed (computer : Computer) (path : String) : Prop :=
  (∃ file, computer.file path = some file ∧ (computer.platform = .windows → IsDllFor computer.arch file)) ∧
    computer.loads path = true ∧ Complete computer path

/-- The call of a thread ends during these events, with this result. -/
def EndsDuring (computer : Computer) (p : Program) (events : List Event) (result : Seen) : Prop :=
  ∃ before event after, events = before ++ event :: after ∧ ((p.run computer before).next computer event).2 = result

end Spec
end Equistore
