import Verif.Model.Data

/-!
# Where arrays come from, in Python

Models `equistore/data.py` lines 18-148 for several threads: the origins Python registers, the arrays it gives to the
library, and what it makes of the arrays it gets from the library. A step of a thread is one access to a global variable or
one call to the library: other threads can run in between.
-/

namespace Equistore
namespace PyOrigins

/-- The origins known to Python, `equistore/data.py` lines 66-87. -/
inductive Kind where
  | numpy
  | torch
  | rust
  deriving DecidableEq, Repr

/-- The names of these origins, `equistore/data.py` lines 69, 77 and 85. -/
def Kind.name : Kind → String
  | .numpy => "equistore.data.numpy"
  | .torch => "equistore.data.torch"
  | .rust => "rust.ndarray"

/-- What an array is. Used for `equistore/data.py` lines 128-148. -/
inductive What where
  /-- an `ArrayWrapper` made in Python around a numpy array, or a torch tensor, lines 159-202 -/
  | python (torch : Bool) (object : Nat)
  /-- an array of the Rust library -/
  | rust (array : Nat)
  /-- an array of something else, which registered its own origin -/
  | other (name : String)
  /-- an array whose `origin` callback fails -/
  | failing
  deriving DecidableEq, Repr

/-- An array in a block, with what is in `origin` after calling its `origin` callback; it starts as 0. `data_origin`,
`equistore/data.py` lines 145-148, ignores the status of the callback. -/
structure Handle where
  what : What
  origin : Option Nat
  deriving DecidableEq, Repr

/-- What `eqs_array_to_python_object` does, `equistore/data.py` lines 128-137. -/
inductive Outcome where
  /-- the Python object the pointer of the array points to -/
  | object
  /-- a numpy array using the memory of the Rust array -/
  | view
  /-- `ValueError` with the name of the origin -/
  | valueError (name : String)
  deriving DecidableEq, Repr

/-- What a thread is doing, in one of the functions of `equistore/data.py` lines 18-148. -/
inductive Task where
  /-- `ArrayWrapper.__init__`, `equistore/data.py` lines 162-202 -/
  | wrap (torch : Bool) (object : Nat)
  /-- `eqs_array_to_python_object`, `equistore/data.py` lines 128-137, with the first entry of the list -/
  | read (array : Handle) (numpy : Option Nat)
  /-- `eqs_array_was_allocated_by_python`, `equistore/data.py` lines 140-142 -/
  | allocated (array : Handle) (numpy : Option Nat)
  deriving DecidableEq, Repr

/-- Where a thread is in `_numpy_origin`, `_torch_origin` or `_rust_origin`, `equistore/data.py` lines 66-87. -/
inductive Pc where
  /-- `if _XXX_STORAGE_ORIGIN is None` -/
  | check
  /-- `_register_origin(name)` -/
  | call
  /-- `_XXX_STORAGE_ORIGIN = ` the result -/
  | assign (id : Nat)
  /-- `return _XXX_STORAGE_ORIGIN` -/
  | ret
  deriving DecidableEq, Repr

/-- The process. Used for `equistore/data.py` lines 18-148. -/
structure Process where
  /-- `REGISTERED_DATA_ORIGIN` of `src/data.rs` lines 19-23 -/
  registry : List String
  /-- the three global variables of lines 18-20 -/
  global : Kind → Option Nat
  threads : Nat → Option (Task × Kind × Pc)
  /-- all the arrays -/
  arrays : List Handle
  /-- what reading arrays gave -/
  reads : List (Handle × Outcome)
  /-- what `eqs_array_was_allocated_by_python` returned -/
  answers : List (Handle × Bool)

/-- When the module is imported, `equistore/data.py` lines 18-20 and `src/data.rs` lines 19-23. -/
def Process.init : Process :=
  { registry := Origins.init, global := fun _ => none, threads := fun _ => none, arrays := [], reads := [], answers := [] }

/-- Change what a thread does, while it runs `equistore/data.py` lines 18-148. -/
def Process.setThread (s : Process) (thread : Nat) (t : Option (Task × Kind × Pc)) : Process :=
  { s with threads := fun n => if n = thread then t else s.threads n }

/-- A thread got the value of one of the origins and continues: `ArrayWrapper.__init__` (`equistore/data.py` lines 167-183),
`eqs_array_to_python_object` (lines 130-137) and `eqs_array_was_allocated_by_python` (line 142). -/
def Process.resume (s : Process) (thread : Nat) (task : Task) (kind : Kind) (value : Option Nat) : Process :=
  match task, kind with
  | .wrap torch object, _ =>
    { s.setThread thread none with arrays := ⟨.python torch object, value⟩ :: s.arrays }
  | .read array _, .numpy => s.setThread thread (some (.read array value, .torch, .check))
  | .read array numpy, .torch =>
    if array.origin ∈ [numpy, value] then
      { s.setThread thread none with reads := (array, .object) :: s.reads }
    else
      s.setThread thread (some (.read array numpy, .rust, .check))
  | .read array _, .rust =>
    if array.origin = value then
      { s.setThread thread none with reads := (array, .view) :: s.reads }
    else
      let name := match array.origin.map (Origins.get s.registry) with
        | some (.ok name) => name
        | _ => ""
      { s.setThread thread none with reads := (array, .valueError name) :: s.reads }
  | .allocated array _, .numpy => s.setThread thread (some (.allocated array value, .torch, .check))
  | .allocated array numpy, _ =>
    { s.setThread thread none with answers := (array, decide (array.origin ∈ [numpy, value])) :: s.answers }

/-- One step of a thread in `_numpy_origin`, `_torch_origin` or `_rust_origin`, `equistore/data.py` lines 59-87. -/
def Process.step (s : Process) (thread : Nat) : Process :=
  match s.threads thread with
  | none => s
  | some (task, kind, .check) =>
    s.setThread thread (some (task, kind, if s.global kind = none then .call else .ret))
  | some (task, kind, .call) =>
    let (registry, id) := Origins.register s.registry kind.name
    { s.setThread thread (some (task, kind, .assign id)) with registry }
  | some (task, kind, .assign id) =>
    { s.setThread thread (some (task, kind, .ret)) with global := fun k => if k = kind then some id else s.global k }
  | some (task, kind, .ret) => s.resume thread task kind (s.global kind)

/-- Something happening in the process: a call of `equistore/data.py` lines 18-148, or a step of one. -/
inductive Event where
  /-- a thread which does nothing starts to wrap an object, `equistore/data.py` lines 162-171 -/
  | wrap (thread : Nat) (torch : Bool) (object : Nat)
  /-- a thread which does nothing reads one of the arrays, `equistore/data.py` lines 128-129 -/
  | read (thread : Nat) (array : Nat)
  /-- a thread which does nothing asks where one of the arrays is from, `equistore/data.py` lines 140-141 -/
  | allocated (thread : Nat) (array : Nat)
  /-- one step of a thread -/
  | step (thread : Nat)
  /-- the Rust library makes an array, `src/data.rs` lines 665-667 and 680-682 -/
  | rust (array : Nat)
  /-- something else registers an origin and makes an array, `src/c_api/data.rs` lines 20-32 -/
  | other (name : String)
  /-- something else makes an array with an `origin` callback which fails, and writes this to its argument -/
  | failing (written : Option Nat)
  deriving DecidableEq, Repr

/-- `eqs_register_data_origin` called by an implementation of arrays which then makes an array, `src/c_api/data.rs` lines
20-32. -/
def Process.make (s : Process) (what : What) (name : String) : Process :=
  let (registry, id) := Origins.register s.registry name
  { s with registry, arrays := ⟨what, some id⟩ :: s.arrays }

/-- What an event does, `equistore/data.py` lines 18-148. -/
def Process.event (s : Process) : Event → Process
  | .wrap thread torch object =>
    if s.threads thread = none then
      s.setThread thread (some (.wrap torch object, if torch then .torch else .numpy, .check))
    else s
  | .read thread array =>
    match s.threads thread, s.arrays[array]? with
    | none, some array => s.setThread thread (some (.read array none, .numpy, .check))
    | _, _ => s
  | .allocated thread array =>
    match s.threads thread, s.arrays[array]? with
    | none, some array => s.setThread thread (some (.allocated array none, .numpy, .check))
    | _, _ => s
  | .step thread => s.step thread
  | .rust array => s.make (.rust array) Kind.rust.name
  | .other name => s.make (.other name) name
  | .failing written => { s with arrays := ⟨.failing, some (written.getD 0)⟩ :: s.arrays }

/-- What a history of events does, `equistore/data.py` lines 18-148. -/
def Process.run (s : Process) : List Event → Process
  | [] => s
  | e :: events => (s.event e).run events

end PyOrigins
end Equistore
