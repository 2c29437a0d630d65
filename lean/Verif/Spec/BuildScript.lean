import Verif.Model.BuildScript

/-!
# Specification vocabulary for the header
-/

namespace Equistore
namespace Spec
namespace BuildScript

open _root_.Equistore.BuildScript

variable {H : Type}

/-- The header describes the functions of the library: it is the one `cbindgen` makes for the files the library is made of. -/
def Describes (cbindgen : Files → H) (header : Option H) (files : Files) : Prop := header = some (cbindgen files)

/-- The file which is written or removed by a change. -/
def Touches (path : String) : Edit H → Prop
  | .write p _ => p = path
  | .remove p => p = path
  | _ => False

/-- The user does not change or remove the header. -/
def LeavesHeader : Edit H → Prop
  | .header _ => False
  | _ => True

/-- The files after some changes. -/
def filesAfter (files : Files) : List (Edit H) → Files
  | [] => files
  | .write path text :: rest => filesAfter (fun p => if p = path then some text else files p) rest
  | .remove path :: rest => filesAfter (fun p => if p = path then none else files p) rest
  | _ :: rest => filesAfter files rest

/-- A new file comes together with a change of an old one, in the same session: the one with the line `mod`. -/
def NewFilesDeclared (files : Files) (edits : List (Edit H)) : Prop :=
  (∃ path, files path = none ∧ filesAfter files edits path ≠ none) → ∃ path, files path ≠ none ∧ ∃ edit ∈ edits, Touches path edit

/-- A history in which `cbindgen` never fails, nobody else changes the header, and new files are declared when they are made. -/
def Careful (cbindgen : Files → H) : Files → List (Session H) → Prop
  | _, [] => True
  | files, session :: rest =>
    (∀ files, session.generate files = some (cbindgen files)) ∧ (∀ edit ∈ session.edits, LeavesHeader edit) ∧
      NewFilesDeclared files session.edits ∧ Careful cbindgen (filesAfter files session.edits) rest

end BuildScript
end Spec
end Equistore
