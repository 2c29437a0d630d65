import Verif.Model.NumpyIo
import Verif.Model.Numpy

/-!
# Torch tensors provided by Python

Models the callbacks `ArrayWrapper` gives to the library when a block holds a torch tensor, `equistore/data.py`, and
what `equistore/io.py` does with tensors.

What torch does is part of the trusted base: reading, creating, reshaping tensors and assigning to parts of them do the
same with the elements as in numpy; tensors on other devices and tensors requiring gradients can not be converted to
numpy arrays; autograd follows every operation.
-/

namespace Equistore

/-- `array.device.type`: either "cpu", or anything else. `equistore/data.py` line 220. -/
inductive Device where
  | cpu
  | other (type : String)
  deriving DecidableEq

/-- What autograd knows about a tensor: it does not require gradients, or it does, either as a leaf (the user asked for
gradients with respect to this tensor) or as the result of a computation. Tensors in `equistore/data.py` lines 210-325. -/
inductive Autograd where
  | none
  | leaf
  | computed
  deriving DecidableEq

/-- A torch tensor of type `float64` on the given device, `ArrayWrapper.array`, `equistore/data.py` lines 162-163.
Simplifications: all the tensors used together are on the same device; strides are not modelled, so that tensors are
always contiguous; other number types are not modelled. -/
structure TorchTensor (device : Device) where
  array : NumpyArray
  autograd : Autograd
  deriving DecidableEq

namespace TorchTensor
variable {device : Device}

/-- `tensor.requires_grad`. Used by `.numpy()`, `equistore/data.py` line 227 and `equistore/io.py` line 64. -/
def requiresGrad (a : TorchTensor device) : Bool := a.autograd != .none

/-- The autograd state of the result of a computation with the given tensors. Used for `equistore/data.py` lines 254, 261, 294 and 325. -/
def result (requiresGrad : Bool) : Autograd := if requiresGrad then .computed else .none

/-- `tensor.numpy()`: raises an exception if the tensor is not on the CPU or requires gradients.
Used in `equistore/data.py` line 227 and `equistore/io.py` line 64. -/
def numpy (a : TorchTensor device) : Except PyExc NumpyArray :=
  if device = .cpu ∧ a.requiresGrad = false then .ok a.array else .error .exception

/-- `_eqs_array_data`, `equistore/data.py` lines 210-235. The test in line 220 is the opposite of what the message
in line 221 says: tensors on the CPU are refused. -/
def data (a : TorchTensor device) : Res (List Elt) :=
  if device = .cpu then .err (NumpyArray.raised "data")
  else
    match a.numpy with
    | .ok array => .ok array.array.elements
    | .error _ => .err (NumpyArray.raised "data")

/-- `_eqs_array_reshape`, `equistore/data.py` lines 246-255. -/
def reshape (a : TorchTensor device) (shape : List Nat) : TorchTensor device × Res Unit :=
  match a.array.reshape shape with
  | (array, .ok ()) => (⟨array, result a.requiresGrad⟩, .ok ())
  | (_, .err e) => (a, .err e)
  | (_, .panic m) => (a, .panic m)

/-- `_eqs_array_swap_axes`, `equistore/data.py` lines 258-264. -/
def swapAxes (a : TorchTensor device) (axis₁ axis₂ : Nat) : TorchTensor device × Res Unit :=
  match a.array.swapAxes axis₁ axis₂ with
  | (array, .ok ()) => (⟨array, result a.requiresGrad⟩, .ok ())
  | (_, .err e) => (a, .err e)
  | (_, .panic m) => (a, .panic m)

/-- `_eqs_array_create`, `equistore/data.py` lines 267-284: `torch.zeros` on the same device. -/
def create (_ : TorchTensor device) (shape : List Nat) : TorchTensor device :=
  ⟨NumpyArray.build shape fun _ => 0, .none⟩

/-- `_eqs_array_copy`, `equistore/data.py` lines 287-297: `clone` is followed by autograd. -/
def copy (a : TorchTensor device) : TorchTensor device := ⟨a.array, result a.requiresGrad⟩

/-- `_eqs_array_move_samples_from`, `equistore/data.py` lines 306-325. Autograd does not allow to modify a leaf; the
output depends on the input afterwards. -/
def moveSamplesFrom (output input : TorchTensor device) (samples : List SampleMapping) (start stop : Nat) :
    TorchTensor device × Res Unit :=
  if output.autograd = .leaf then (output, .err (NumpyArray.raised "move_samples_from"))
  else
    match output.array.moveSamplesFrom input.array samples start stop with
    | (array, .ok ()) => (⟨array, result (output.requiresGrad || input.requiresGrad)⟩, .ok ())
    | (_, .err e) => (output, .err e)
    | (_, .panic m) => (output, .panic m)

/-- Identifier of the origin "equistore.data.torch", `equistore/data.py` lines 74-79. -/
def originId : Nat := 4

/-- The callbacks, `equistore/data.py` lines 181-202. -/
instance : ArrayLike (TorchTensor device) where
  origin _ := .ok originId
  data := data
  shape a := .ok a.array.array.shape
  reshape := reshape
  swapAxes := swapAxes
  create a shape := .ok (create a shape)
  moveSamplesFrom := moveSamplesFrom

/-- `_array_to_numpy` for a tensor, `equistore/io.py` lines 63-64: `array.cpu().numpy()`. -/
def toNumpy (a : TorchTensor device) : Except PyExc NumpyArray :=
  numpy (device := .cpu) ⟨a.array, a.autograd⟩

/-- Whether `_array_to_numpy` returns for all the arrays `_tensor_map_to_dict` gives it, `equistore/io.py` lines 74 and
83. -/
def allToNumpy (t : TensorMap (TorchTensor device)) : Bool :=
  t.blocks.all fun b => b.values.data.toNumpy.toBool && b.gradients.all fun g => g.2.data.toNumpy.toBool

end TorchTensor

/-- A numpy array of 64-bit floating point numbers in C order, as it is in memory. Used for `equistore/io.py` lines 60-66. -/
def NumpyArray.toNp (native : Endian) (a : NumpyArray) : NpArray :=
  { descr := .string native.f8.toList
    itemsize := 8
    fortran := false
    shape := a.array.shape
    memory := a.array.elements.flatMap fun value => native.encode 8 value.toNat }

/-- `save` with `use_numpy=True` for torch tensors, `equistore/io.py` lines 52-54 and 60-88. Nothing is written before
all arrays are converted. Simplification: arrays are converted before labels; this only matters for the type of the
exception when both fail. -/
def pySaveTensors {device : Device} (native : Endian) (np : Numpy) (t : TensorMap (TorchTensor device)) :
    Except PyExc Archive :=
  if TorchTensor.allToNumpy t then pySave (fun a => a.array.toNp native) native np t else .error .exception

end Equistore
