import Verif.Model.CLabels
import Verif.Model.CStatus
import Verif.Spec.Blocks

/-!
# Specification vocabulary for the C API
-/

namespace Equistore
namespace Spec

/-- The memory starts with the string `s` encoded in UTF-8 followed by a NUL, and the string contains
no NUL itself. -/
def IsCString (memory : Bytes) (s : String) : Prop :=
  '\x00' ∉ s.toList ∧ ∃ rest, memory = s.toUTF8.data.toList ++ 0 :: rest

/-- A C structure describes labels with these names and entries: `names` points to one C string
per name, `values` to the entries one after the other. It may only be NULL when there are no
entries. The memory may go on afterwards. -/
structure Describes (c : CLabels) (variableNames : List String) (entries : List (List LabelValue)) :
    Prop where
  size : c.size = variableNames.length
  count : c.count = entries.length
  names : ∃ memory rest, c.names = some (memory ++ rest) ∧ List.Forall₂ IsCString memory variableNames
  values : (c.values = none ∧ entries = []) ∨ ∃ rest, c.values = some (entries.flatten ++ rest)
  rows : ∀ e ∈ entries, e.length = variableNames.length

/-- What C callers see of the outcome of a Rust operation: the status code. -/
def statusCode : Res Unit → Int32
  | .ok _ => 0
  | .err (.invalidParameter _) => 1
  | .err (.io _) => 2
  | .err (.serialization _) => 3
  | .err (.bufferSize _) => 254
  | .err (.external status _) => status
  | .err (.internal _) => 255
  | .panic _ => 255

/-- What C callers see of the outcome of a Rust operation: the message of a failure. -/
def failureMessage : Res Unit → Option String
  | .ok _ => none
  | .err (.invalidParameter m) => some ("invalid parameter: " ++ m)
  | .err (.io m) => some ("io error: " ++ m)
  | .err (.serialization m) => some ("serialization format error: " ++ m)
  | .err (.bufferSize m) => some ("buffer is not big enough: " ++ m)
  | .err (.external status m) =>
    some ("external error: " ++ m ++ " (status " ++ toString status.toInt ++ ")")
  | .err (.internal m) => some ("internal error: " ++ m)
  | .panic m => some ("internal error: " ++ m)

/-- The message of this outcome, if any, can be given to C: it contains no NUL. -/
def Reportable (r : Res Unit) : Prop := ∀ m, failureMessage r = some m → '\x00' ∉ m.toList

/-- A finished call to a function of the C API: the thread and the outcome of the Rust
operation. -/
structure Finished where
  thread : ThreadId
  result : Res Unit

/-- The messages after the given calls finished, in this order, and what they returned (`none` if
the call could not return). -/
def replies : List Finished → Messages → Messages × List (Option Int32)
  | [], m => (m, [])
  | c :: cs, m =>
    let (m, status) := catchUnwind c.thread c.result m
    let (m, rest) := replies cs m
    (m, status :: rest)

end Spec
end Equistore
