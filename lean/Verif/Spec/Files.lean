import Verif.Model.Files
import Verif.Spec.Archive

/-!
# Tensor maps and files
-/

namespace Equistore
namespace Spec
variable {A : Type} [ArrayLike A]

/-- Labels fit in memory; reading the array may fail, but if it does not, it gives as many elements as its shape says,
and the array fits in memory. -/
structure BasicSound (b : BasicBlock A) : Prop where
  labels : ∀ l ∈ b.samples :: b.components ++ [b.properties], l.InMemory
  data : ∀ dims elements, ArrayLike.shape b.data = .ok dims → ArrayLike.data b.data = .ok elements →
    elements.length = shapeSize dims ∧ ShapeInMemory dims

/-- All labels and arrays of a tensor map fit in memory, and the names of gradients have no NUL character. Reading the
arrays can fail. -/
structure Sound (t : TensorMap A) : Prop where
  keys : t.keys.InMemory
  values : ∀ b ∈ t.blocks, BasicSound b.values
  gradients : ∀ b ∈ t.blocks, ∀ p g, b.gradient p = some g → BasicSound g
  names : NoNul t

/-- Any number of calls to save tensor maps, whatever their outcome, with paths other than the given one. -/
inductive OtherSaves (py : PyLiteral) (path : String) (files : Files) : Files → Prop
  | none : OtherSaves py path files files
  | save {files' : Files} {B : Type} [ArrayLike B] (h : OtherSaves py path files files') (build : Build) (native : Endian)
      (hash : HashOrder) (disk : Disk) (other : Option Bytes) (hother : ∀ memory, other = some memory → cstrStr memory ≠ some path)
      (tensor : Option (TensorMap B)) :
      OtherSaves py path files (eqsTensormapSaveFile build py native hash disk other tensor files').1

end Spec
end Equistore
