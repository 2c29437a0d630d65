import Verif.Spec.Io
import Verif.Spec.Archive

/-!
# Headers of NPY files which are too long
-/

namespace Equistore
namespace Spec

/-- The text of the header of an NPY file does not fit in the 4 GiB which the format allows (65 more bytes are needed for
padding and the end of the line). -/
def LongHeader (py : PyLiteral) (descr : PyValue) (shape : List Nat) : Prop :=
  ∃ text, py.format (.dict [(.string "descr".toList, descr), (.string "fortran_order".toList, .boolean false),
    (.string "shape".toList, .tuple (shape.map fun n : Nat => .integer (n : Int)))]) = some text ∧ 2 ^ 32 ≤ text.length + 65

/-- The header for labels is too long. -/
def LongLabels (py : PyLiteral) (native : Endian) (l : Labels) : Prop :=
  ∃ count, l.count = .ok count ∧
    LongHeader py (.list (l.names.map fun name => .tuple [.string name.toList, .string native.i4.toList])) [count]

/-- The header for an array is too long. -/
def LongArray {A : Type} [ArrayLike A] (py : PyLiteral) (native : Endian) (array : A) : Prop :=
  ∃ dims, ArrayLike.shape array = .ok dims ∧ LongHeader py (.string native.f8.toList) dims

/-- The header for the labels or the array of values or of a gradient is too long. -/
def LongBasic {A : Type} [ArrayLike A] (py : PyLiteral) (native : Endian) (b : BasicBlock A) : Prop :=
  LongArray py native b.data ∨ ∃ l ∈ b.samples :: b.components ++ [b.properties], LongLabels py native l

/-- The header for some part of a tensor map is too long. -/
def LongTensor {A : Type} [ArrayLike A] (py : PyLiteral) (native : Endian) (t : TensorMap A) : Prop :=
  LongLabels py native t.keys ∨ ∃ b ∈ t.blocks, LongBasic py native b.values ∨
    ∃ p g, b.gradient p = some g ∧ LongBasic py native g

end Spec
end Equistore
