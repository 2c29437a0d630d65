import Verif.Model.NumpyIo
import Verif.Spec.Archive

/-!
# What is assumed of numpy to save and load tensor maps
-/

namespace Equistore
namespace Spec

/-- Values made of strings in ASCII, integers, booleans, `None`, tuples, lists and dictionaries. -/
inductive AsciiValue : PyValue → Prop
  | string {s : List Char} : (∀ c ∈ s, c.toNat < 128) → AsciiValue (.string s)
  | integer (i) : AsciiValue (.integer i)
  | boolean (b) : AsciiValue (.boolean b)
  | none : AsciiValue .none
  | tuple {l} : (∀ v ∈ l, AsciiValue v) → AsciiValue (.tuple l)
  | list {l} : (∀ v ∈ l, AsciiValue v) → AsciiValue (.list l)
  | dict {l} : (∀ k v, (k, v) ∈ l → AsciiValue k) → (∀ k v, (k, v) ∈ l → AsciiValue v) → AsciiValue (.dict l)

/-- Values written by `writer` are in ASCII, and are the same when read by `reader`, with any number of spaces and `last` after
them. -/
def ReadBy (writer reader : PyLiteral) (last : List Char) : Prop :=
  ∀ v, AsciiValue v → ∃ bytes, writer.format v = some bytes ∧ (∀ b ∈ bytes, b < 128) ∧
    ∀ n, reader.parse (NpyHeader.asciiChars bytes ++ List.replicate n ' ' ++ last) = some v

/-- What is assumed of numpy: it reads headers it wrote, with spaces and a newline at the end, and knows the size of labels
and 64-bit floating point numbers. -/
structure LawfulNumpy (np : Numpy) : Prop where
  roundtrip : ReadBy np.text np.text ['\n']
  labels : ∀ (e : Endian) (names : List String), names ≠ [] → names.Nodup → (∀ name ∈ names, Identifier name) →
    np.itemsize (labelsDescr e names) = some (4 * names.length)
  data : ∀ e : Endian, np.itemsize (.string e.f8.toList) = some 8

/-- The header of an array. -/
def npHeaderOf (a : NpArray) : NpyHeader :=
  { typeDescriptor := a.descr, fortranOrder := a.fortran, shape := a.shape }

/-- The header of an array, when written by `writer`, is not longer than what numpy accepts: some text, at most 64
spaces and a newline. -/
def ShortHeaderBy (writer : PyLiteral) (np : Numpy) (a : NpArray) : Prop :=
  ∀ limit text, np.maxHeader = some limit → writer.format (npHeaderOf a).toPyValue = some text → text.length + 65 ≤ limit

/-- The header of an array, when written by numpy, is not longer than what it accepts. -/
def ShortHeader (np : Numpy) (a : NpArray) : Prop := ShortHeaderBy np.text np a

/-- An array whose type is known to numpy, with all of its elements in memory. -/
structure CompleteArray (np : Numpy) (a : NpArray) : Prop where
  descr : AsciiValue a.descr
  itemsize : np.itemsize a.descr = some a.itemsize
  memory : a.memory.length = shapeSize a.shape * a.itemsize
  shape : ∀ n ∈ a.shape, n < usizeSize

/-- The arrays in blocks are numpy arrays: `wrap` makes such an array, which can then be seen with `view`. -/
structure NumpyArrays {A : Type} [ArrayLike A] (view : A → NpArray) (wrap : NpArray → A) : Prop where
  shape : ∀ array dims, ArrayLike.shape array = .ok dims → (view array).shape = dims
  wrap_shape : ∀ x, ArrayLike.shape (wrap x) = .ok x.shape
  wrap_origin : ∃ origin, ∀ x, ArrayLike.origin (wrap x) = .ok origin
  wrap_view : ∀ x, view (wrap x) = x

variable {A B : Type} [ArrayLike A] [ArrayLike B]

/-- Labels, seen as numpy arrays. -/
def arrayOfLabels (native : Endian) (names : List String) (rows : List (List LabelValue)) : NpArray :=
  { descr := labelsDescr native names
    itemsize := 4 * names.length
    fortran := false
    shape := [rows.length]
    memory := rows.flatten.flatMap fun value => native.encode 4 value.toUInt32.toNat }

/-- Arrays of 64-bit floating point numbers in C order, as numpy arrays. -/
def arrayOfData (order : Endian) (dims : List Nat) (elements : List Elt) : NpArray :=
  { descr := .string order.f8.toList
    itemsize := 8
    fortran := false
    shape := dims
    memory := elements.flatMap fun value => order.encode 8 value.toNat }

/-- Something which holds for all labels of a tensor map, given by their names and rows. -/
def AllLabels (t : TensorMap A) (P : List String → List (List LabelValue) → Prop) : Prop :=
  ∀ l : Labels, (l = t.keys ∨ ∃ b ∈ t.blocks, l ∈ b.values.samples :: b.values.components ++ [b.values.properties] ∨
    ∃ p g, b.gradient p = some g ∧ l ∈ g.samples :: g.components) → ∀ rows, l.iter = .ok rows → P l.names rows

/-- Something which holds for all arrays of a tensor map. -/
def AllArrays (t : TensorMap A) (P : A → Prop) : Prop :=
  ∀ b ∈ t.blocks, P b.values.data ∧ ∀ p g, b.gradient p = some g → P g.data

/-- The same labels, and data related by `R`. -/
structure SameParts (R : A → B → Prop) (b : BasicBlock A) (b' : BasicBlock B) : Prop where
  samples : b'.samples = b.samples
  components : b'.components = b.components
  properties : b'.properties = b.properties
  data : R b.data b'.data

/-- The same values and gradients, where data is related by `R`; gradients can be listed in another order. -/
structure SameBlocks (R : A → B → Prop) (b : TensorBlock A) (b' : TensorBlock B) : Prop where
  values : SameParts R b.values b'.values
  gradients : ∀ p, Option.Rel (SameParts R) (b.gradient p) (b'.gradient p)
  list : b'.gradientParameters.Perm b.gradientParameters

/-- The same keys and blocks, where data is related by `R`; gradients can be listed in another order. -/
structure SameTensors (R : A → B → Prop) (t : TensorMap A) (t' : TensorMap B) : Prop where
  keys : t'.keys = t.keys
  blocks : List.Forall₂ (SameBlocks R) t.blocks t'.blocks

end Spec
end Equistore
