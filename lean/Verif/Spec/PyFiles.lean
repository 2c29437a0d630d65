import Verif.Model.PyFiles
import Verif.Spec.NumpyIo
import Verif.Spec.Files
import Verif.Spec.Io

/-!
# What users of `equistore.io` expect from file names
-/

namespace Equistore
namespace Spec
variable {A B : Type} [ArrayLike A] [ArrayLike B]

/-- The name of the file in which a tensor map is saved, as announced by the warning of `save`. -/
def FileName (path name : String) : Prop :=
  (".npz".toList <:+ path.toList ∧ name = path) ∨ (¬ ".npz".toList <:+ path.toList ∧ name.toList = path.toList ++ ".npz".toList)

/-- What is known about Python and numpy on this computer: each of the library and numpy reads the headers written by both. -/
structure LawfulMachine (m : PyMachine) : Prop where
  py : LawfulPy m.py
  np : LawfulNumpy m.np
  numpyReads : ReadBy m.py m.np.text ['\n']
  libraryReads : ReadBy m.np.text m.py []

/-- A tensor map which the library and numpy can both save and load, see C35, C64 and C65: arrays contain 64-bit floating point numbers in C
order, everything fits in memory, and no header is too long for numpy. -/
structure Portable (m : PyMachine) (view : A → NpArray) (t : TensorMap A) : Prop where
  valid : TensorValid t
  storable : Storable t
  noNul : NoNul t
  blocks : t.blocks.length ≤ 18446744073709551616
  labels : AllLabels t fun names rows => ShortHeader m.np (arrayOfLabels m.native names rows) ∧
    ShortHeaderBy m.py m.np (arrayOfLabels m.native names rows)
  arrays : AllArrays t fun a => ∀ dims elements, Readable a dims elements →
    ShortHeaderBy m.py m.np (arrayOfData m.native dims elements) ∧ CompleteArray m.np (view a) ∧ ShortHeader m.np (view a) ∧
    ∃ order, view a = arrayOfData order dims elements

/-- The tensor map which was loaded has the same keys, labels, shapes and elements as `t`. -/
def SameLoaded (view : B → NpArray) (t : TensorMap A) : TensorMap NdArray ⊕ TensorMap B → Prop
  | .inl t' => SameContent t t'
  | .inr t' => SameTensors (fun a a' => ∃ order dims elements, Readable a dims elements ∧ view a' = arrayOfData order dims elements) t t'

end Spec
end Equistore
