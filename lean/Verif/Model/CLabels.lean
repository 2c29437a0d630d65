import Verif.Model.CMemory
import Verif.Model.Labels

/-!
# Labels in the C API

Models `src/c_api/labels.rs`.
-/

namespace Equistore

/-- `eqs_labels_t`, `src/c_api/labels.rs` lines 13-31. A pointer is modelled by the memory which can
be read there, `none` for `NULL`. Simplification: pointers to labels are their content; how long they stay valid is
stated in `Spec.Lifetimes`. -/
structure CLabels where
  /-- the Rust labels behind this -/
  labelsPtr : Option Labels
  /-- pointers to C strings -/
  names : Option (List Bytes)
  /-- row-major array -/
  values : Option (List LabelValue)
  size : Nat
  count : Nat
  deriving DecidableEq, Repr

/-- The conversion of a name, `src/c_api/labels.rs` lines 47-48. -/
def decodeName (memory : Bytes) : Res String := Res.expect (cstrStr memory) "invalid UTF8 name"

/-- `TryFrom<&eqs_labels_t> for Labels`, `src/c_api/labels.rs` lines 33-66. Simplification: at most
`size` names and `count * size` values are read, and the caller has to make sure that this many exist
(see `Spec.Describes`); in particular this product does not overflow. A slice of size 0 is taken to be allowed to
start at `NULL`; it is not, see `Labels.ofPointers` and C103. -/
def Labels.ofC (l : CLabels) : Res Labels := do
  let names ← Res.okOr l.names
    (.invalidParameter "labels.names can not be NULL in eqs_labels_t")
  Res.guardErr (!(l.values.isNone && l.count > 0))
    (.invalidParameter "labels.values is NULL but labels.count is >0 in eqs_labels_t")
  let names ← (names.take l.size).mapM decodeName
  let builder ← LabelsBuilder.new names
  let slice := (l.values.getD []).take (l.count * l.size)
  let builder ← if slice.isEmpty then pure builder else builder.addAll (chunksExact l.size slice)
  builder.finish

/-- `TryFrom<&Labels> for eqs_labels_t`, `src/c_api/labels.rs` lines 69-99. -/
def Labels.toC (l : Labels) : Res CLabels := do
  let size := l.size
  let count ← l.count
  let values ← if count == 0 || l.size == 0 then pure none else do
    let first ← l.index 0
    let _ ← Res.expect first[0]? "index out of bounds"
    pure (some l.values)
  let names := if l.size == 0 then none else some (l.names.map cstring)
  return { labelsPtr := some l, names, values, size, count }

/-- `eqs_labels_position` inside of `catch_unwind`, `src/c_api/labels.rs` lines 122-135: the new value
of `*result`. `values` is what can be read at this pointer. Simplification: a position always
fits in an `i64`. -/
def labelsPosition (labels : CLabels) (values : List LabelValue) (count : Nat) : Res Int := do
  let labels ← Res.okOr labels.labelsPtr
    (.invalidParameter "these labels do not support calling eqs_labels_position")
  let position ← labels.position (values.take count)
  return match position with
    | none => -1
    | some p => (p : Int)

end Equistore
