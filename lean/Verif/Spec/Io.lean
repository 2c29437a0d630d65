import Verif.Model.Npy
import Verif.Spec.Labels

/-!
# What is assumed of `py_literal`
-/

namespace Equistore

/-- Labels which fit in memory: no vector has more than `isize::MAX` bytes. -/
def Labels.InMemory (l : Labels) : Prop := 4 * l.values.length ≤ isizeMax

namespace Spec

/-- Shapes of arrays which fit in memory: `ndarray` only makes arrays for which the product of non-zero
dimensions is at most `isize::MAX`, and the elements are in a vector. -/
structure ShapeInMemory (shape : List Nat) : Prop where
  dimensions : shapeSize (shape.filter (· ≠ 0)) ≤ isizeMax
  elements : 8 * shapeSize shape ≤ isizeMax

/-- An array gives a shape and as many elements as the shape says, and fits in memory. -/
structure Readable {A : Type} [ArrayLike A] (array : A) (dims : List Nat) (elements : List Elt) : Prop where
  shape : ArrayLike.shape array = .ok dims
  data : ArrayLike.data array = .ok elements
  length : elements.length = shapeSize dims
  memory : ShapeInMemory dims

/-- Values made of strings, integers, booleans, `None`, tuples, lists and dictionaries. -/
inductive Plain : PyValue → Prop
  | string (s) : Plain (.string s)
  | integer (i) : Plain (.integer i)
  | boolean (b) : Plain (.boolean b)
  | none : Plain .none
  | tuple {l} : (∀ v ∈ l, Plain v) → Plain (.tuple l)
  | list {l} : (∀ v ∈ l, Plain v) → Plain (.list l)
  | dict {l} : (∀ k v, (k, v) ∈ l → Plain k) → (∀ k v, (k, v) ∈ l → Plain v) → Plain (.dict l)

/-- What is assumed of `py_literal`: formatted values are in ASCII and give the same value back,
with any number of spaces after them; the types of labels and data, as written in `src/io`, are parsed as
what they mean. -/
structure LawfulPy (py : PyLiteral) : Prop where
  roundtrip : ∀ v, Plain v → ∃ bytes, py.format v = some bytes ∧ (∀ b ∈ bytes, b < 128) ∧
    ∀ n, py.parse (NpyHeader.asciiChars bytes ++ List.replicate n ' ') = some v
  labels : ∀ (e : Endian) (names : List String), (∀ name ∈ names, Identifier name) →
    py.parse (labelsDescriptor e names) =
      some (.list (names.map fun name => .tuple [.string name.toList, .string e.i4.toList]))
  data : ∀ e : Endian, py.parse ("'".toList ++ e.f8.toList ++ "'".toList) = some (.string e.f8.toList)

end Spec
end Equistore
