import Verif.Model.Archive
import Verif.Spec.Io
import Verif.Spec.Tensor

/-!
# Parts of a tensor map in an archive
-/

namespace Equistore
namespace Spec
variable {A : Type} [ArrayLike A]

/-- What is stored for the values of a block, or for a gradient. -/
inductive What where
  | data
  | samples
  | component (i : Nat)
  | properties
  deriving DecidableEq

/-- What is stored for a tensor map: the keys; for the block `i`, its values and gradients. -/
inductive Part where
  | keys
  | values (i : Nat) (what : What)
  | gradient (i : Nat) (parameter : String) (what : What)
  deriving DecidableEq

/-- The last part of the name of an entry, without the extension. -/
def What.text : What → String
  | .data => "data"
  | .samples => "samples"
  | .component i => "components/" ++ toString i
  | .properties => "properties"

/-- The name of an entry, as described in the documentation of `save` and `load` in `src/io/mod.rs` lines 14-49
and 114-117. -/
def Part.name : Part → String
  | .keys => "keys.npy"
  | .values i what => "blocks/" ++ toString i ++ "/values/" ++ what.text ++ ".npy"
  | .gradient i parameter what =>
    "blocks/" ++ toString i ++ "/gradients/" ++ parameter ++ "/" ++ what.text ++ ".npy"

/-- What exists for the given values or gradients. -/
def What.Of (b : BasicBlock A) : What → Prop
  | .component i => i < b.components.length
  | _ => True

/-- The parts which exist for a tensor map. The properties of gradients are those of the values, they
are not stored. -/
def Part.Of (t : TensorMap A) : Part → Prop
  | .keys => True
  | .values i what => ∃ b, t.blocks[i]? = some b ∧ what.Of b.values
  | .gradient i parameter what =>
    ∃ b g, t.blocks[i]? = some b ∧ b.gradient parameter = some g ∧ what.Of g ∧ what ≠ .properties

/-- Labels and data fit in memory, and the data can be read. -/
structure BasicStorable (b : BasicBlock A) : Prop where
  labels : ∀ l ∈ b.samples :: b.components ++ [b.properties], l.InMemory
  data : ∃ dims elements, Readable b.data dims elements

/-- All labels and arrays of a tensor map fit in memory, and the data can be read. -/
structure Storable (t : TensorMap A) : Prop where
  keys : t.keys.InMemory
  values : ∀ b ∈ t.blocks, BasicStorable b.values
  gradients : ∀ b ∈ t.blocks, ∀ p g, b.gradient p = some g → BasicStorable g

/-- No gradient has a name with a NUL character. Blocks are only left with such a gradient by a call to
`add_gradient` which panicked, see C06. -/
def NoNul (t : TensorMap A) : Prop :=
  ∀ b ∈ t.blocks, ∀ p g, b.gradient p = some g → '\x00' ∉ p.toList

/-- The same labels, and an array with the same shape and elements. -/
structure SameBasic (b : BasicBlock A) (b' : BasicBlock NdArray) : Prop where
  samples : b'.samples = b.samples
  components : b'.components = b.components
  properties : b'.properties = b.properties
  shape : ArrayLike.shape b.data = .ok b'.data.shape
  elements : ArrayLike.data b.data = .ok b'.data.elements

/-- The same values and gradients; gradients can be listed in another order. -/
structure SameContentBlock (b : TensorBlock A) (b' : TensorBlock NdArray) : Prop where
  values : SameBasic b.values b'.values
  gradients : ∀ p, Option.Rel SameBasic (b.gradient p) (b'.gradient p)
  list : b'.gradientParameters.Perm b.gradientParameters

/-- The same keys and blocks; gradients can be listed in another order. -/
structure SameContent (t : TensorMap A) (t' : TensorMap NdArray) : Prop where
  keys : t'.keys = t.keys
  blocks : List.Forall₂ SameContentBlock t.blocks t'.blocks

/-- The name in an element of the type of labels. -/
def fieldName : PyValue → Option String
  | .tuple [.string name, .string _] => some (String.ofList name)
  | _ => none

/-- The content of a file for labels: if there is a header, then the type has at least one field, all names are
valid and different, the size is one of labels which fit in memory, and rows (as 32-bit integers, whatever the byte
order) are different. -/
def SoundLabels (py : PyLiteral) (file : Bytes) : Prop :=
  ∀ header rest, NpyHeader.fromReader py file = .ok (header, rest) →
    ∀ fields, header.typeDescriptor = .list fields →
      fields ≠ [] ∧ (∀ name ∈ fields.filterMap fieldName, Identifier name) ∧ (fields.filterMap fieldName).Nodup ∧
      (∀ n ∈ header.shape, 4 * (n * fields.length) ≤ isizeMax) ∧
      ∀ e : Endian, (chunksExact fields.length ((decodeAll e 4 rest).map fun n => Int32.ofNat n)).Nodup

/-- The content of a file for data: if there is a header, then there are at least two dimensions, and the array
fits in memory. -/
def SoundData (py : PyLiteral) (file : Bytes) : Prop :=
  ∀ header rest, NpyHeader.fromReader py file = .ok (header, rest) →
    2 ≤ header.shape.length ∧ ShapeInMemory header.shape

/-- The content of a file for labels which make reading this file panic. The header says that this is a list of `n`
elements, and either
- there are no names;
- there are more values than a `usize` can count, in debug builds;
- there are more bytes (computed from the number of values modulo `2 ^ 64`) than what can be allocated;
- there are exactly as many bytes as announced, and a name is not valid, or two names or two rows are the same. -/
def PanickingLabels (build : Build) (py : PyLiteral) (file : Bytes) : Prop :=
  ∃ header rest n, NpyHeader.fromReader py file = .ok (header, rest) ∧ header.fortranOrder = false ∧ header.shape = [n] ∧
    (header.typeDescriptor = .list [] ∨
    ∃ (e : Endian) (names : List String), names ≠ [] ∧
      header.typeDescriptor = .list (names.map fun name => .tuple [.string name.toList, .string e.i4.toList]) ∧
      ((build.debug = true ∧ 2 ^ 64 ≤ n * names.length) ∨
      2 ^ 63 ≤ 4 * (n * names.length % 2 ^ 64) ∨
      (rest.length = 4 * (n * names.length % 2 ^ 64) ∧
        ¬ ((∀ name ∈ names, Identifier name) ∧ names.Nodup ∧
          (chunksExact names.length ((decodeAll e 4 rest).map fun n => Int32.ofNat n)).Nodup))))

/-- The content of a file for data which make reading this file panic. There is a header, and either
- the product of some of the first dimensions is not a `usize`, in debug builds;
- there are more bytes (computed from the number of elements modulo `2 ^ 64`) than what can be allocated;
- there are exactly as many bytes as announced, and the product of non-zero dimensions is not an `isize`. -/
def PanickingData (build : Build) (py : PyLiteral) (file : Bytes) : Prop :=
  ∃ header rest, NpyHeader.fromReader py file = .ok (header, rest) ∧ header.fortranOrder = false ∧
    ((build.debug = true ∧ ∃ k, 2 ^ 64 ≤ (header.shape.take k).prod) ∨
    2 ^ 63 ≤ 8 * (header.shape.prod % 2 ^ 64) ∨
    ((∃ e : Endian, header.typeDescriptor = .string e.f8.toList) ∧ rest.length = 8 * (header.shape.prod % 2 ^ 64) ∧
      2 ^ 63 ≤ (header.shape.filter (· ≠ 0)).prod))

/-- An archive without any of the contents for which `load` panics: no file makes the function which reads it panic,
data have at least two dimensions (in debug builds), there is no file with the one unexpected name, and names do not contain NUL. -/
structure SoundArchive (build : Build) (py : PyLiteral) (archive : Archive) : Prop where
  data : ∀ name file, (name, file) ∈ archive → "/data.npy".toList <:+ name.toList →
    ¬ PanickingData build py file ∧
    (build.debug = true → ∀ header rest, NpyHeader.fromReader py file = .ok (header, rest) → 2 ≤ header.shape.length)
  labels : ∀ name file, (name, file) ∈ archive → ¬ "/data.npy".toList <:+ name.toList → ¬ PanickingLabels build py file
  name : "blocks/0/gradients/data.npy" ∉ archive.map Prod.fst
  nul : ∀ name ∈ archive.map Prod.fst, '\x00' ∉ name.toList

end Spec
end Equistore
