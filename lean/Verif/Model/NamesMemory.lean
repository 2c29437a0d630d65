import Verif.Model.CMemory

/-!
# Memory used for names

The names of labels and gradients are stored as `Vec<ConstCString>`, with `unsafe` code in `src/utils.rs`; pointers to
the vector and the strings are given to C by `eqs_block_gradients_list` and `eqs_labels_t`.
-/

namespace Equistore
namespace NamesMemory

/-- The address of an allocation. `*const c_char` and `*const *const c_char`, `src/utils.rs` line 8,
`src/c_api/blocks.rs` line 317. -/
abbrev Addr : Type := Nat

/-- What one allocation contains: the bytes of a string, or the pointers in a vector. `src/utils.rs` line 8,
`src/blocks.rs` line 182. -/
inductive Cell where
  | str (bytes : Bytes)
  | list (entries : List Addr) (capacity : Nat)
  deriving DecidableEq

/-- The memory used for names: all allocations, and the next address. Simplification: addresses are not used again
after they were freed, so that an access to freed memory is always seen. `src/utils.rs` lines 10-42. -/
structure Memory where
  cells : Addr → Option Cell
  next : Addr

/-- Allocate something. `CString::new`, `Vec::push`; `src/blocks.rs` lines 305-306. -/
def alloc (c : Cell) : CAct Memory Addr := fun m =>
  some (⟨fun x => if x = m.next then some c else m.cells x, m.next + 1⟩, .ok m.next)

/-- Free an allocation: undefined behaviour if it is not there. `CString::from_raw`, `src/utils.rs` lines 34-42. -/
def free (a : Addr) : CAct Memory Unit := fun m =>
  (m.cells a).map fun _ => (⟨fun x => if x = a then none else m.cells x, m.next⟩, .ok ())

/-- Replace what is at an address. `Vec::push`, `src/blocks.rs` line 306. -/
def store (a : Addr) (c : Cell) : CAct Memory Unit := fun m =>
  (m.cells a).map fun _ => (⟨fun x => if x = a then some c else m.cells x, m.next⟩, .ok ())

/-- Allocate a vector: undefined behaviour if more is written than there is space for. `Vec::push`, `src/blocks.rs` line 306. -/
def allocList (entries : List Addr) (capacity : Nat) : CAct Memory Addr :=
  if entries.length ≤ capacity then alloc (.list entries capacity) else CAct.undefined

/-- Write the pointers of a vector: undefined behaviour if more is written than there is space for. `Vec::push`,
`src/blocks.rs` line 306. -/
def storeList (a : Addr) (entries : List Addr) (capacity : Nat) : CAct Memory Unit :=
  if entries.length ≤ capacity then store a (.list entries capacity) else CAct.undefined

/-- Read a string: undefined behaviour if there is none, or it does not end. `src/utils.rs` lines 17-24. -/
def loadStr (a : Addr) : CAct Memory Bytes := fun m =>
  match m.cells a with
  | some (.str bytes) => if 0 ∈ bytes then some (m, .ok bytes) else none
  | _ => none

/-- Read the pointers in a vector. `src/blocks.rs` lines 224-226. -/
def loadList (a : Addr) : CAct Memory (List Addr × Nat) := fun m =>
  match m.cells a with
  | some (.list entries capacity) => some (m, .ok (entries, capacity))
  | _ => none

/-- `CString::new(name).expect(..)` followed by `ConstCString::new`, `src/utils.rs` lines 12-14;
`src/blocks.rs` line 305, `src/labels.rs` line 175. -/
def newName (s : String) : CAct Memory Addr :=
  if 0 ∈ utf8Bytes s then CAct.lift (.panic "invalid C string") else alloc (.str (cstring s))

/-- `ConstCString::as_c_str`, `src/utils.rs` lines 17-24. -/
def asCStr (a : Addr) : CAct Memory Bytes := do
  let bytes ← loadStr a
  pure (cstrBytes bytes)

/-- `ConstCString::as_str`, `src/utils.rs` lines 28-30. -/
def asStr (a : Addr) : CAct Memory String := do
  let bytes ← loadStr a
  match cstrStr bytes with
  | some s => pure s
  | none => CAct.lift (.panic "invalid UTF8")

/-- `Drop for ConstCString`, `src/utils.rs` lines 33-42. `CString::from_raw` finds the size of the allocation again
by looking for the first NUL: it is undefined behaviour if this is not the end of the allocation. -/
def dropName (a : Addr) : CAct Memory Unit := do
  let bytes ← loadStr a
  if cstrBytes bytes ++ [0] = bytes then free a else CAct.undefined

/-- `PartialEq for ConstCString`, `src/utils.rs` lines 44-48. -/
def eqName (a b : Addr) : CAct Memory Bool := do
  let x ← asCStr a
  let y ← asCStr b
  pure (x == y)

/-- `Clone for ConstCString`, `src/utils.rs` lines 52-57. -/
def cloneName (a : Addr) : CAct Memory Addr := do
  let bytes ← asCStr a
  alloc (.str (bytes ++ [0]))

/-- `Vec<ConstCString>`, `src/blocks.rs` line 182, `src/labels.rs` line 218. An empty vector has no allocation. -/
structure NameVec where
  buffer : Option Addr
  capacity : Nat
  length : Nat
  deriving DecidableEq

/-- `Vec::new()`, `src/blocks.rs` line 198, `src/labels.rs` line 168. -/
def NameVec.empty : NameVec := ⟨none, 0, 0⟩

/-- The capacity of a vector which was full: twice the capacity, and at least 4. `Vec::push`, `src/blocks.rs` line 306. -/
def NameVec.grown (v : NameVec) : Nat := max 4 (max (2 * v.capacity) (v.length + 1))

/-- `Vec::push`, `src/blocks.rs` line 306. If the vector is full a larger allocation is needed; `inPlace` is whether
the allocator can extend the one which is there. -/
def NameVec.push (v : NameVec) (name : Addr) (inPlace : Bool) : CAct Memory NameVec :=
  match v.buffer with
  | none => do
    let a ← allocList [name] v.grown
    pure ⟨some a, v.grown, v.length + 1⟩
  | some a => do
    let (entries, _) ← loadList a
    if v.length < v.capacity then
      storeList a (entries ++ [name]) v.capacity
      pure ⟨some a, v.capacity, v.length + 1⟩
    else if inPlace then
      storeList a (entries ++ [name]) v.grown
      pure ⟨some a, v.grown, v.length + 1⟩
    else
      let a' ← allocList (entries ++ [name]) v.grown
      free a
      pure ⟨some a', v.grown, v.length + 1⟩

/-- Drop the strings in a vector, one after the other. `src/utils.rs` lines 33-42. -/
def dropNames : List Addr → CAct Memory Unit
  | [] => pure ()
  | a :: rest => do
    dropName a
    dropNames rest

/-- Drop a vector: first the strings, then the pointers. The end of the blocks and labels in `src/blocks.rs` lines 177-183,
`src/labels.rs` lines 214-227. -/
def NameVec.drop (v : NameVec) : CAct Memory Unit :=
  match v.buffer with
  | none => pure ()
  | some a => do
    let (entries, _) ← loadList a
    dropNames entries
    free a

/-- Make a vector of exactly these pointers. Simplification: it is allocated after the strings. `collect` in
`src/labels.rs` lines 174-176; `Clone for Vec`, used by `#[derive(Clone)]` in `src/blocks.rs` line 177. -/
def NameVec.ofEntries (entries : List Addr) : CAct Memory NameVec :=
  if entries.isEmpty then
    pure NameVec.empty
  else do
    let a ← allocList entries entries.length
    pure ⟨some a, entries.length, entries.length⟩

/-- Clone the strings in a vector, one after the other. `#[derive(Clone)]`, `src/blocks.rs` line 177. -/
def cloneNames : List Addr → CAct Memory (List Addr)
  | [] => pure []
  | a :: rest => do
    let a' ← cloneName a
    let rest' ← cloneNames rest
    pure (a' :: rest')

/-- Clone a vector. `#[derive(Clone)]` for `TensorBlock` and `Labels`, `src/blocks.rs` line 177, `src/labels.rs` line 214. -/
def NameVec.clone (v : NameVec) : CAct Memory NameVec :=
  match v.buffer with
  | none => pure NameVec.empty
  | some a => do
    let (entries, _) ← loadList a
    let entries' ← cloneNames entries
    NameVec.ofEntries entries'

/-- Make the strings for the names of labels. If there is a panic the strings which were already made are dropped.
`src/labels.rs` lines 174-176. -/
def newNames : List String → CAct Memory (List Addr)
  | [] => pure []
  | s :: rest => do
    let a ← newName s
    fun m => match newNames rest m with
      | none => none
      | some (m', .ok rest') => some (m', .ok (a :: rest'))
      | some (m', .err e) => (dropName a m').map fun (m'', _) => (m'', .err e)
      | some (m', .panic e) => (dropName a m').map fun (m'', _) => (m'', .panic e)

/-- The memory, and the names of all blocks and labels made until now: `none` after they are dropped.
`src/blocks.rs` line 182, `src/labels.rs` line 218. -/
structure State where
  memory : Memory
  owners : List (Option NameVec)

/-- Before anything is made. Used with `src/blocks.rs` line 182, `src/labels.rs` line 218. -/
def State.start : State := ⟨⟨fun _ => none, 0⟩, []⟩

/-- What happens to names. All functions of the library do some of these, one after the other:
- `block`: `TensorBlock::new`, `src/blocks.rs` lines 189-200;
- `labels`: `LabelsBuilder::finish`, `src/labels.rs` lines 164-183;
- `add`: `TensorBlock::add_gradient` after all checks, `src/blocks.rs` lines 298-306 (before this names are not changed);
- `copy`: `Clone for TensorBlock`, `src/blocks.rs` line 177; `Clone for Labels`, `src/labels.rs` line 214;
- `drop`: the end of a block or of labels. -/
inductive Call where
  | block
  | labels (names : List String)
  | add (owner : Nat) (name : String) (inPlace : Bool)
  | copy (owner : Nat)
  | drop (owner : Nat)

/-- Run something on the memory, then change the owners if this returned. `src/blocks.rs` lines 305-306. -/
def State.step {α : Type} (s : State) (f : CAct Memory α) (next : α → List (Option NameVec)) :
    Option (State × Res Unit) :=
  match f s.memory with
  | none => none
  | some (m, .ok a) => some (⟨m, next a⟩, .ok ())
  | some (m, .err e) => some (⟨m, s.owners⟩, .err e)
  | some (m, .panic e) => some (⟨m, s.owners⟩, .panic e)

/-- Run a call: undefined behaviour if it uses a block or labels which were dropped. The functions cited for each
case of `Call`, for example `src/blocks.rs` lines 298-306. -/
def Call.run (c : Call) (s : State) : Option (State × Res Unit) :=
  match c with
  | .block => some (⟨s.memory, s.owners ++ [some NameVec.empty]⟩, .ok ())
  | .labels names =>
    s.step (do
      let entries ← newNames names
      NameVec.ofEntries entries) fun v => s.owners ++ [some v]
  | .add i name inPlace =>
    match s.owners[i]? with
    | some (some v) =>
      s.step (do
        let a ← newName name
        v.push a inPlace) fun v' => s.owners.set i (some v')
    | _ => none
  | .copy i =>
    match s.owners[i]? with
    | some (some v) => s.step v.clone fun v' => s.owners ++ [some v']
    | _ => none
  | .drop i =>
    match s.owners[i]? with
    | some (some v) => s.step v.drop fun _ => s.owners.set i none
    | _ => none

/-- Any number of calls, one after the other. A panic is caught by `catch_unwind`, and the program goes on.
`src/c_api/status.rs` lines 57-82. -/
def runCalls : List Call → State → Option State
  | [], s => some s
  | c :: cs, s => match c.run s with
    | none => none
    | some (s', _) => runCalls cs s'

/-- `eqs_block_gradients_list`, `src/c_api/blocks.rs` lines 314-332: the new values of `*parameters` and `*count`. The
fields `names` and `size` of `eqs_labels_t` are set in the same way, `src/c_api/labels.rs` lines 71-100. -/
def State.list (s : State) (i : Nat) : Option (Option Addr × Nat) :=
  match s.owners[i]? with
  | some (some v) => some (if v.length = 0 then none else v.buffer, v.length)
  | _ => none

end NamesMemory
end Equistore
