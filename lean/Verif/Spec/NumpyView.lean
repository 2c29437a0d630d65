import Verif.Spec.Layout
import Verif.Model.NumpyView

/-!
# Specification vocabulary for the memory of numpy arrays
-/

namespace Equistore
namespace Spec

/-- Two numpy arrays are equal, whatever their layout in memory: same shape and elements. -/
def SameElements (a b : NumpyView) : Prop :=
  a.shape = b.shape ∧ ∀ idx, InShape a.shape idx → a.get idx = b.get idx

/-- Two blocks, or gradients, have the same labels and equal arrays. -/
def NumpyEqualBasic (b c : BasicBlock NumpyView) : Prop :=
  SameElements b.data c.data ∧ b.samples = c.samples ∧ b.components = c.components ∧ b.properties = c.properties

/-- Two blocks have the same labels and gradients, and equal arrays. -/
def NumpyEqualBlock (b c : TensorBlock NumpyView) : Prop :=
  NumpyEqualBasic b.values c.values ∧ b.gradientParameters = c.gradientParameters ∧
    List.Forall₂ (fun g h => g.1 = h.1 ∧ NumpyEqualBasic g.2 h.2) b.gradients c.gradients

/-- Two tensor maps have the same keys and blocks. -/
def NumpyEqual (t u : TensorMap NumpyView) : Prop :=
  t.keys = u.keys ∧ List.Forall₂ NumpyEqualBlock t.blocks u.blocks

/-- C code can read a numpy array: `data` gives a pointer to memory where the element with index `(i, j, ...)` is at
the position it has in row-major order. -/
def NumpyReadable (a : NumpyView) : Prop :=
  ∃ memory, ArrayLike.data a = .ok memory ∧ memory.length = shapeSize a.shape ∧
    ∀ idx, InShape a.shape idx → memory[offset a.shape idx]? = some (a.get idx)

/-- All arrays of a tensor map can be read. -/
def AllNumpyReadable (t : TensorMap NumpyView) : Prop :=
  ∀ b ∈ t.blocks, NumpyReadable b.values.data ∧ ∀ g ∈ b.gradients, NumpyReadable g.2.data

end Spec
end Equistore
