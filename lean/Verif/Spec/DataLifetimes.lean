import Verif.Spec.Lifetimes

/-!
# How long arrays can be used

`eqs_block_data` gives access to the array with the values or with a gradient of a block. The block is followed as in
`Spec.Lifetimes`.
-/

namespace Equistore
namespace Spec

/-- The program writes into this array. -/
def Writes {B : Type} (array : Nat) : Call B → Prop
  | .arrayWrite (.own a) _ => a = array
  | .arrayWrite (.view _ a) _ => a = array
  | _ => False

/-- The calls which are meant to change the content of this array of a block: the program writes into it, or calls
`eqs_tensormap_components_to_properties` on the tensor map the block is in. -/
def ChangesData {B : Type} (array : Nat) (place : Place) (c : Call B) : Prop := Writes array c ∨ MovesComponents place c

end Spec
end Equistore
