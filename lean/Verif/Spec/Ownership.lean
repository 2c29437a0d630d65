import Verif.Model.CHeap

/-!
# Correct use of the C API

What a program does with the C API, and the rules in the documentation of its functions for
using pointers. The rules are stated in terms of what the program has seen: the calls it made and
what they returned.
-/

namespace Equistore
namespace Spec

/-- How a program got access to an array. -/
inductive Access where
  /-- the program made this array itself, and still owns it -/
  | own (array : Nat)
  /-- `eqs_block_data` on this pointer returned this array -/
  | view (block : BlockPtr) (array : Nat)

/-- The things a program can do. -/
inductive Call (B : Type) where
  /-- make a new array -/
  | arrayNew (content : B)
  /-- call `array.destroy(array.ptr)`, if it is not `NULL` -/
  | arrayDestroy (array : CArray)
  /-- change the content of an array -/
  | arrayWrite (access : Access) (change : B → B)
  | block (data : CArray) (samples : CLabels) (components : List CLabels) (properties : CLabels)
  | blockFree (block : BlockPtr)
  | blockCopy (block : BlockPtr)
  | blockLabels (block : BlockPtr) (name : Bytes) (axis : Nat)
  /-- `eqs_block_data`, where `old` is the value of `*data` before the call -/
  | blockData (block : BlockPtr) (name : Bytes) (old : CArray)
  | blockAddGradient (block : BlockPtr) (name : Option Bytes) (data : CArray) (samples : CLabels)
      (components : List CLabels)
  | blockGradientsList (block : BlockPtr)
  | tensormap (keys : CLabels) (blocks : List BlockPtr)
  | tensormapFree (tensor : Option Nat)
  | tensormapKeys (tensor : Option Nat)
  | tensormapBlockById (tensor : Option Nat) (index : Nat)
  | tensormapBlocksMatching (tensor : Option Nat) (selection : CLabels)
  | keysToProperties (tensor : Option Nat) (keysToMove : CLabels) (sort : Bool)
  | keysToSamples (tensor : Option Nat) (keysToMove : CLabels) (sort : Bool)
  | componentsToProperties (tensor : Option Nat) (names : List (Option Bytes))
  | load (archive : Archive)
  | save (tensor : Option Nat)

/-- What a program gets back: the outcome (an error or a panic is seen as a `NULL` pointer or a status) with
pointers. -/
inductive Reply where
  | done (r : Res Unit)
  | array (r : Res CArray)
  | block (r : Res Nat)
  | tensor (r : Res Nat)
  /-- the outcome of `eqs_tensormap` with the pointers to blocks in the array of the program afterwards -/
  | newTensor (r : Res Nat) (blocks : List BlockPtr)
  | blockPtr (r : Res BlockPtr)
  /-- something without pointers to arrays, blocks or tensor maps -/
  | other

/-- Everything the results may depend on apart from the arguments. -/
structure Platform where
  build : Build
  hash : HashOrder
  py : PyLiteral
  native : Endian

section
variable {B : Type} [Inhabited B] [ArrayCallbacks B]

/-- Run one call, `none` for undefined behaviour. -/
def Call.run (p : Platform) (h : Heap B) : Call B → Option (Heap B × Reply)
  | .arrayNew content => let r := h.createArray content; some (r.1, .array (.ok r.2))
  | .arrayDestroy array => (h.dropArray array).map fun h => (h, .other)
  | .arrayWrite (.own a) change | .arrayWrite (.view _ a) change =>
    match h.arrays a with
    | none => none
    | some content => some ({ h with arrays := setAt h.arrays a (some (change content)) }, .other)
  | .block data samples components properties =>
    (eqsBlock data samples components properties h).map fun (h, r) => (h, .block r)
  | .blockFree b => (eqsBlockFree b h).map fun (h, r) => (h, .done r)
  | .blockCopy b => (eqsBlockCopy b h).map fun (h, r) => (h, .block r)
  | .blockLabels b name axis => (eqsBlockLabels b name axis h).map fun (h, _) => (h, .other)
  | .blockData b name old => (eqsBlockData b name old h).map fun (h, r) => (h, .array r)
  | .blockAddGradient b name data samples components =>
    (eqsBlockAddGradient b name data samples components h).map fun (h, r) => (h, .done r)
  | .blockGradientsList b => (eqsBlockGradientsList b h).map fun (h, _) => (h, .other)
  | .tensormap keys blocks =>
    (eqsTensormap p.hash keys blocks h).map fun (h, blocks, r) => (h, .newTensor r blocks)
  | .tensormapFree tensor => (eqsTensormapFree tensor h).map fun (h, r) => (h, .done r)
  | .tensormapKeys tensor => (eqsTensormapKeys tensor h).map fun (h, _) => (h, .other)
  | .tensormapBlockById tensor index => (eqsTensormapBlockById tensor index h).map fun (h, r) => (h, .blockPtr r)
  | .tensormapBlocksMatching tensor selection => (eqsBlocksMatching tensor selection h).map fun (h, _) => (h, .other)
  | .keysToProperties tensor keysToMove sort =>
    (eqsKeysToProperties p.build p.hash tensor keysToMove sort h).map fun (h, r) => (h, .done r)
  | .keysToSamples tensor keysToMove sort =>
    (eqsKeysToSamples p.build p.hash tensor keysToMove sort h).map fun (h, r) => (h, .done r)
  | .componentsToProperties tensor names =>
    (eqsComponentsToProperties p.hash tensor names h).map fun (h, r) => (h, .done r)
  | .load archive => (eqsTensormapLoad p.build p.py p.hash p.hash archive h).map fun (h, r) => (h, .tensor r)
  | .save tensor => (eqsTensormapSave p.build p.py p.native p.hash tensor h).map fun (h, _) => (h, .other)

end

/-! ### The rules -/

/-- What a program knows about its pointers. -/
structure Ledger where
  /-- arrays it has made and neither given away nor destroyed -/
  arrays : List Nat
  /-- blocks it has to free -/
  blocks : List Nat
  /-- tensor maps it has to free -/
  tensors : List Nat
  /-- pointers to blocks inside of tensor maps which are still valid -/
  interior : List BlockPtr
  /-- arrays returned by `eqs_block_data`, with the pointer to the block, as long as this pointer is
  valid -/
  views : List (BlockPtr × Nat)

/-- A program which has not done anything. -/
def Ledger.empty : Ledger := { arrays := [], blocks := [], tensors := [], interior := [], views := [] }

/-- Nothing is left to release. -/
def Ledger.Clean (l : Ledger) : Prop := l.arrays = [] ∧ l.blocks = [] ∧ l.tensors = []

/-- This pointer can be given to functions accessing a block (which have to check for `NULL`). -/
def Ledger.Usable (l : Ledger) (block : BlockPtr) : Prop :=
  block = .null ∨ (∃ n ∈ l.blocks, block = .owned n) ∨ block ∈ l.interior

/-- This pointer can be given to functions accessing a tensor map. -/
def Ledger.UsableTensor (l : Ledger) (tensor : Option Nat) : Prop := ∀ n, tensor = some n → n ∈ l.tensors

/-- This array can be given away: the program owns it. -/
def Ledger.Owns (l : Ledger) (a : CArray) : Prop := a.destroy = true ∧ a.ptr ∈ l.arrays

/-- The rules. Nothing is said about labels, names and other arguments, which may be anything; and any
function may be called with `NULL` for a block or a tensor map, and the same block may be given more than
once to `eqs_tensormap`. -/
def Call.Allowed {B : Type} (l : Ledger) : Call B → Prop
  | .arrayNew _ => True
  | .arrayDestroy a => l.Owns a ∨ a.destroy = false
  | .arrayWrite (.own a) _ => a ∈ l.arrays
  | .arrayWrite (.view b a) _ => (b, a) ∈ l.views
  | .block data _ _ _ => l.Owns data
  | .blockFree b => b = .null ∨ ∃ n ∈ l.blocks, b = .owned n
  | .blockCopy b => l.Usable b
  | .blockLabels b _ _ => l.Usable b
  | .blockData b _ old => l.Usable b ∧ old.destroy = false
  | .blockAddGradient b _ data _ _ => l.Usable b ∧ l.Owns data
  | .blockGradientsList b => l.Usable b
  | .tensormap _ blocks => ∀ b ∈ blocks, ∃ n ∈ l.blocks, b = .owned n
  | .tensormapFree tensor => l.UsableTensor tensor
  | .tensormapKeys tensor => l.UsableTensor tensor
  | .tensormapBlockById tensor _ => l.UsableTensor tensor
  | .tensormapBlocksMatching tensor _ => l.UsableTensor tensor
  | .keysToProperties tensor _ _ => l.UsableTensor tensor
  | .keysToSamples tensor _ _ => l.UsableTensor tensor
  | .componentsToProperties tensor _ => l.UsableTensor tensor
  | .load _ => True
  | .save tensor => l.UsableTensor tensor

/-- Whether a pointer points inside of this tensor map. -/
def insideOf (tensor : Nat) : BlockPtr → Bool
  | .inside t _ _ => t = tensor
  | _ => false

/-- An array is no longer owned by the program. -/
def Ledger.dropArray (l : Ledger) (a : Nat) : Ledger := { l with arrays := l.arrays.filter (· ≠ a) }

/-- A block is no longer owned by the program. -/
def Ledger.dropBlock (l : Ledger) (n : Nat) : Ledger :=
  { l with blocks := l.blocks.filter (· ≠ n), views := l.views.filter fun v => v.1 ≠ .owned n }

/-- The pointers to blocks in a tensor map are no longer valid. -/
def Ledger.invalidate (l : Ledger) (tensor : Nat) : Ledger :=
  { l with interior := l.interior.filter fun b => !insideOf tensor b,
           views := l.views.filter fun v => !insideOf tensor v.1 }

/-- The blocks whose pointers are `NULL` after `eqs_tensormap` are no longer owned by the program. -/
def Ledger.takenBlocks (l : Ledger) : List (BlockPtr × BlockPtr) → Ledger
  | [] => l
  | (.owned n, .null) :: rest => (l.dropBlock n).takenBlocks rest
  | _ :: rest => l.takenBlocks rest

/-- What the program knows after a call. -/
def Ledger.record {B : Type} (l : Ledger) : Call B → Reply → Ledger
  | .arrayNew _, .array (.ok a) => { l with arrays := a.ptr :: l.arrays }
  | .arrayDestroy a, _ => if a.destroy then l.dropArray a.ptr else l
  | .block data _ _ _, .block (.ok n) => { l.dropArray data.ptr with blocks := n :: l.blocks }
  | .block data _ _ _, _ => l.dropArray data.ptr
  | .blockFree (.owned n), _ => l.dropBlock n
  | .blockCopy _, .block (.ok n) => { l with blocks := n :: l.blocks }
  | .blockData block _ _, .array (.ok a) => { l with views := (block, a.ptr) :: l.views }
  | .blockAddGradient _ _ data _ _, _ => l.dropArray data.ptr
  | .tensormap _ before, .newTensor r after =>
    let l := l.takenBlocks (before.zip after)
    match r with
    | .ok n => { l with tensors := n :: l.tensors }
    | _ => l
  | .tensormapFree (some n), _ => { l.invalidate n with tensors := l.tensors.filter (· ≠ n) }
  | .tensormapBlockById _ _, .blockPtr (.ok block) => { l with interior := block :: l.interior }
  | .keysToProperties (some n) _ _, .done (.ok _) => l.invalidate n
  | .keysToSamples (some n) _ _, .done (.ok _) => l.invalidate n
  | .load _, .tensor (.ok n) => { l with tensors := n :: l.tensors }
  | _, _ => l

/-- Things with a content. -/
inductive Thing where
  | array (a : Nat)
  | block (n : Nat)
  | tensor (n : Nat)

/-- What a pointer to a block points to, or into. -/
def holder : BlockPtr → Option Thing
  | .null => none
  | .owned n => some (.block n)
  | .inside t _ _ => some (.tensor t)

/-- The things a call is meant to change or to consume. All others should stay the same. -/
def Call.changes {B : Type} : Call B → Thing → Prop
  | .arrayDestroy a, x => x = .array a.ptr
  | .arrayWrite (.own a) _, x => x = .array a
  | .arrayWrite (.view b _) _, x => holder b = some x
  | .block data _ _ _, x => x = .array data.ptr
  | .blockFree b, x => holder b = some x
  | .blockAddGradient b _ data _ _, x => holder b = some x ∨ x = .array data.ptr
  | .tensormap _ blocks, x => ∃ b ∈ blocks, holder b = some x
  | .tensormapFree tensor, x => ∃ n, tensor = some n ∧ x = .tensor n
  | .keysToProperties tensor _ _, x => ∃ n, tensor = some n ∧ x = .tensor n
  | .keysToSamples tensor _ _, x => ∃ n, tensor = some n ∧ x = .tensor n
  | .componentsToProperties tensor _, x => ∃ n, tensor = some n ∧ x = .tensor n
  | _, _ => False

/-- The content of a thing: for an array its elements (and shape), for a block and for a tensor map all the
labels, the names of the gradients and the content of all arrays. -/
inductive Content (B : Type) where
  | array (content : B)
  | block (b : TensorBlock (Option B))
  | tensor (t : TensorMap (Option B))

/-- What a program sees when it looks at a thing, if it exists. -/
def look {B : Type} (h : Heap B) : Thing → Option (Content B)
  | .array a => (h.arrays a).map .array
  | .block n => (h.blocks n).map fun b => .block (b.mapData fun a => h.arrays a.ptr)
  | .tensor n => (h.tensors n).map fun t => .tensor (t.1.mapData fun a => h.arrays a.ptr)

/-- Programs following the rules: what is behind the pointers, and what the program knows, after any
sequence of calls. Each call may see another order of hash maps. -/
inductive Run {B : Type} [Inhabited B] [ArrayCallbacks B] : Heap B → Ledger → Prop
  | start : Run Heap.empty Ledger.empty
  | step {h h' : Heap B} {l : Ledger} {c : Call B} {reply : Reply} (p : Platform) :
    Run h l → c.Allowed l → c.run p h = some (h', reply) → Run h' (l.record c reply)

/-- What a program can do from one point to a later one without calls which are meant to change `x`. -/
inductive Since {B : Type} [Inhabited B] [ArrayCallbacks B] (x : Thing) (h : Heap B) (l : Ledger) :
    Heap B → Ledger → Prop
  | now : Since x h l h l
  | step {h₁ h₂ : Heap B} {l₁ : Ledger} {c : Call B} {reply : Reply} (p : Platform) :
    Since x h l h₁ l₁ → c.Allowed l₁ → ¬c.changes x → c.run p h₁ = some (h₂, reply) →
    Since x h l h₂ (l₁.record c reply)

/-- The arrays used by the blocks and tensor maps which exist. -/
def InUse {B : Type} (h : Heap B) (a : Nat) : Prop :=
  (∃ n b, h.blocks n = some b ∧ a ∈ b.arrays.map (·.ptr)) ∨
  (∃ n t v, h.tensors n = some (t, v) ∧ a ∈ t.arrays.map (·.ptr))

end Spec
end Equistore
