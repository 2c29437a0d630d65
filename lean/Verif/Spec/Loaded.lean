import Verif.Spec.Archive

/-!
# What the entries of a file say
-/

namespace Equistore
namespace Spec

/-- What is stored in an entry. -/
inductive Stored where
  | labels (l : Labels)
  | data (a : NdArray)

/-- What is stored for values or gradients. -/
def What.stored (b : BasicBlock NdArray) : What → Option Stored
  | .data => some (.data b.data)
  | .samples => some (.labels b.samples)
  | .component i => b.components[i]?.map .labels
  | .properties => some (.labels b.properties)

/-- What is stored for the parts of a tensor map. The properties of gradients are not stored, they are those of the
values. -/
def Part.stored (t : TensorMap NdArray) : Part → Option Stored
  | .keys => some (.labels t.keys)
  | .values i what => t.blocks[i]?.bind fun b => what.stored b.values
  | .gradient i parameter what =>
    if what = .properties then none
    else (t.blocks[i]?.bind fun b => b.gradient parameter).bind what.stored

/-- The file has an entry with this name, and reading it gives this. -/
def Says (build : Build) (py : PyLiteral) (archive : Archive) (name : String) : Stored → Prop
  | .labels l => ∃ bytes, archive.byName name = .ok bytes ∧ readNpyLabels build py bytes = .ok l
  | .data a => ∃ bytes, archive.byName name = .ok bytes ∧ readData build py bytes = .ok a

/-- The file has an entry with this name. -/
def HasEntry (archive : Archive) (name : String) : Prop := name ∈ archive.map Prod.fst

/-- The file says that this is the tensor map: it has entries for all its parts, it has an entry for the data of a
gradient of the first block exactly for the gradients of the tensor map, and no entry where the name of this
gradient is missing altogether. Other entries do not matter. -/
structure FileSays (build : Build) (py : PyLiteral) (archive : Archive) (t : TensorMap NdArray) : Prop where
  parts : ∀ part s, Part.stored t part = some s → Says build py archive part.name s
  gradients : ∀ b ∈ t.blocks, ∀ parameter,
    (b.gradient parameter).isSome = true ↔ HasEntry archive (Part.gradient 0 parameter .data).name
  noNul : NoNul t
  named : ¬ HasEntry archive "blocks/0/gradients/data.npy"

end Spec
end Equistore
