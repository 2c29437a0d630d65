import Verif.Spec.Ownership
import Verif.Spec.CApi

/-!
# What is behind the pointers of the C API

What a program sees when it looks at a block or a tensor map through a pointer: labels, names of gradients and the content of
all the arrays.
-/

namespace Equistore
namespace Spec

variable {B : Type}

/-- This is the tensor map behind a pointer: its keys, and all the labels, names of gradients and arrays of its blocks. -/
def SeesTensor (h : Heap B) (tensor : Nat) (t : TensorMap B) : Prop :=
  look h (.tensor tensor) = some (.tensor (t.mapData some))

/-- This is the block behind a pointer: all its labels, names of gradients and arrays. -/
def SeesBlock (h : Heap B) : BlockPtr → TensorBlock B → Prop
  | .null, _ => False
  | .owned n, b => look h (.block n) = some (.block (b.mapData some))
  | .inside n _ i, b => ∃ t, SeesTensor h n t ∧ t.blocks[i]? = some b

/-- This is the content of an array. -/
def SeesArray (h : Heap B) (a : CArray) (content : B) : Prop := look h (.array a.ptr) = some (.array content)

/-- This is what the labels given to a C function stand for. -/
def Means (c : CLabels) (labels : Labels) : Prop := Labels.ofC c = .ok labels

/-- An error or a panic, as the outcome of any function. -/
def failure {α : Type} : Res Empty → Res α
  | .ok x => x.elim
  | .err e => .err e
  | .panic m => .panic m

/-- These labels do not stand for anything: this is the error or the panic. -/
def Invalid (c : CLabels) (r : Res Empty) : Prop := Labels.ofC c = failure r

/-- The first of these labels which do not stand for anything give this error or panic. -/
inductive FirstInvalid (r : Res Empty) : List CLabels → Prop
  | here {c : CLabels} {rest : List CLabels} : Invalid c r → FirstInvalid r (c :: rest)
  | later {c : CLabels} {labels : Labels} {rest : List CLabels} : Means c labels → FirstInvalid r rest →
    FirstInvalid r (c :: rest)

/-- A function which makes something new: if `r` is a success with `x`, the call gives something which `sees` shows to be `x`;
and if `r` is an error or a panic the call gives the same one. -/
def Makes {α : Type} (r : Res α) (outcome : Res Nat) (sees : Nat → α → Prop) : Prop :=
  match r with
  | .ok x => ∃ n, outcome = .ok n ∧ sees n x
  | .err e => outcome = .err e
  | .panic m => outcome = .panic m

end Spec
end Equistore
