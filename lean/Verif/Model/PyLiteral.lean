import Verif.Model.Bytes

/-!
# Python literals

The `py_literal` crate is a dependency, it is not part of the repository. It
is modelled by its interface: any two functions `format` and `parse`. Theorems state what
they need from it (`PyLiteral.Lawful` in `Verif.Spec.Io`), and
`Verif.Lemmas.PyLiteral` shows that an actual formatter and parser have these properties.
-/

namespace Equistore

/-- `py_literal::Value`. Simplification: the content of floating point values is not modelled.
Used in `src/io/npy_header.rs` lines 331-382 and 426-445. -/
inductive PyValue where
  | string (value : List Char)
  | bytes (value : Bytes)
  | integer (value : Int)
  | float
  | complex
  | tuple (values : List PyValue)
  | list (values : List PyValue)
  | dict (entries : List (PyValue × PyValue))
  | set (values : List PyValue)
  | boolean (value : Bool)
  | none

/-- The parts of `py_literal` used in the crate: `Value::write_ascii` and `str::parse::<Value>`, `none` for
errors. Used in `src/io/npy_header.rs` lines 422 and 451, `src/io/labels.rs` lines 43-69 and `src/io/mod.rs` lines 212-232. -/
structure PyLiteral where
  format : PyValue → Option Bytes
  parse : List Char → Option PyValue

end Equistore
