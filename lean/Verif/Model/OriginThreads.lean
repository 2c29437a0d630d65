import Verif.Model.Data

/-!
# The registry of data origins used by several threads

The functions of `src/data.rs` using the registry, in the small steps between which other threads can run: two `Lazy`
static variables with the origins of the arrays of the crate, the `Lazy` static variable with the registry, and the mutex
in it.
-/

namespace Equistore
namespace OriginThreads

/-- A thread. Used with `src/data.rs` lines 19-52. -/
abbrev Tid : Type := Nat

/-- The static variables with the origin of an array type: `NDARRAY_DATA_ORIGIN` and `DUMMY_DATA_ORIGIN`, `src/data.rs`
lines 665-667 and 737-739. -/
inductive Own where
  | ndarray
  | empty
  deriving DecidableEq

/-- The name which is registered, `src/data.rs` lines 666 and 738. -/
def Own.name : Own → String
  | .ndarray => "rust.ndarray"
  | .empty => "rust.EmptyArray"

/-- What a thread can ask for: `register_data_origin`, `get_data_origin`, and `Array::origin` for the arrays of the crate,
`src/data.rs` lines 27-52, 680-682 and 762-764. -/
inductive Call where
  | register (name : String)
  | get (id : Nat)
  | own (which : Own)
  deriving DecidableEq

/-- What a call returns, or that it panicked. `src/data.rs` lines 27-52. -/
inductive Reply where
  | id (id : Nat)
  | name (name : String)
  | panic (message : String)
  deriving DecidableEq

/-- A `Lazy` static variable: nobody used it, a thread runs the function giving its value, or there is a value.
`once_cell::sync::Lazy`, `src/data.rs` lines 19, 665, 737. -/
inductive LazyState (α : Type) where
  | empty
  | busy (thread : Tid)
  | ready (value : α)
  deriving DecidableEq

/-- `std::sync::Mutex`: it is poisoned if a thread panics while it has the lock. `src/data.rs` lines 28, 45. -/
inductive MutexState where
  | free
  | held (thread : Tid)
  | poisoned
  deriving DecidableEq

/-- What to do with the registry: for registrations, also the static variable waiting for the id. `src/data.rs` lines 27-52, 665-667. -/
inductive Goal where
  | register (name : String) (for_ : Option Own)
  | get (id : Nat)
  deriving DecidableEq

/-- Where a thread is. `src/data.rs` lines 27-52, 665-667. -/
inductive Phase where
  /-- not in a call -/
  | idle
  /-- will look at one of the variables `NDARRAY_DATA_ORIGIN` and `DUMMY_DATA_ORIGIN` -/
  | cell (which : Own)
  /-- will look at the variable `REGISTERED_DATA_ORIGIN` -/
  | starting (goal : Goal)
  /-- runs the function giving its value, lines 19-23 -/
  | initializing (goal : Goal)
  /-- calls `lock`, lines 28 and 45 -/
  | locking (goal : Goal)
  /-- in the loop, lines 30-34, with the lock -/
  | scanning (name : String) (for_ : Option Own) (i : Nat)
  /-- after the loop, lines 37-39, with the lock -/
  | pushing (name : String) (for_ : Option Own)
  /-- reads a name, lines 46-51, with the lock -/
  | reading (id : Nat)
  /-- will release the lock, by dropping `registered_origins` -/
  | unlocking (reply : Reply) (for_ : Option Own)
  /-- will set one of the variables `NDARRAY_DATA_ORIGIN` and `DUMMY_DATA_ORIGIN` -/
  | setting (which : Own) (id : Nat)
  /-- the call is about to return -/
  | returning (reply : Reply)
  deriving DecidableEq

/-- The static variables. `names` is what is in the mutex in `REGISTERED_DATA_ORIGIN`. `src/data.rs` lines 19-23, 665-667, 737-739. -/
structure Shared where
  registry : LazyState Unit
  names : List String
  mutex : MutexState
  ndarray : LazyState Nat
  empty : LazyState Nat
  deriving DecidableEq

/-- When the program starts. `src/data.rs` lines 19, 665, 737. -/
def Shared.start : Shared := ⟨.empty, [], .free, .empty, .empty⟩

/-- One of the static variables. `src/data.rs` lines 665, 737. -/
def Shared.cell (s : Shared) : Own → LazyState Nat
  | .ndarray => s.ndarray
  | .empty => s.empty

/-- Change one of the static variables. `src/data.rs` lines 665, 737. -/
def Shared.setCell (s : Shared) (which : Own) (value : LazyState Nat) : Shared :=
  match which with
  | .ndarray => { s with ndarray := value }
  | .empty => { s with empty := value }

/-- Where a call starts. `src/data.rs` lines 27, 44, 680, 762. -/
def Call.begin : Call → Phase
  | .register name => .starting (.register name none)
  | .get id => .starting (.get id)
  | .own which => .cell which

/-- One step of a thread; `none` if it has to wait for another one, or does not have anything to do.
`register_data_origin`, `get_data_origin`, `src/data.rs` lines 27-52; `Lazy::force` of the variables in lines 19, 665
and 737. -/
def step (t : Tid) (s : Shared) : Phase → Option (Shared × Phase)
  | .idle => none
  | .cell which => match s.cell which with
    | .ready id => some (s, .returning (.id id))
    | .empty => some (s.setCell which (.busy t), .starting (.register which.name (some which)))
    | .busy _ => none
  | .starting goal => match s.registry with
    | .ready _ => some (s, .locking goal)
    | .empty => some ({ s with registry := .busy t }, .initializing goal)
    | .busy _ => none
  | .initializing goal => some ({ s with registry := .ready (), names := Origins.init }, .locking goal)
  | .locking goal => match s.mutex with
    | .free => some ({ s with mutex := .held t }, match goal with
      | .register name for_ => .scanning name for_ 0
      | .get id => .reading id)
    | .held _ => none
    | .poisoned => some (s, .returning (.panic "mutex got poisoned"))
  | .scanning name for_ i => match s.names[i]? with
    | some registered => some (s, if registered = name then .unlocking (.id i) for_ else .scanning name for_ (i + 1))
    | none => some (s, .pushing name for_)
  | .pushing name for_ =>
    let names := s.names ++ [name]
    some ({ s with names := names }, .unlocking (.id (names.length - 1)) for_)
  | .reading id => match (if id < s.names.length then s.names[id]? else s.names[0]?) with
    | some name => some (s, .unlocking (.name name) none)
    | none => some ({ s with mutex := .poisoned }, .returning (.panic "index out of bounds"))
  | .unlocking reply for_ => some ({ s with mutex := .free }, match for_, reply with
    | some which, .id id => .setting which id
    | _, _ => .returning reply)
  | .setting which id => some (s.setCell which (.ready id), .returning (.id id))
  | .returning _ => none

/-- All threads, and the static variables. `src/data.rs` lines 19-52. -/
structure State where
  shared : Shared
  threads : List Phase
  deriving DecidableEq

/-- Any number of threads, before anything is used. `src/data.rs` lines 19-52. -/
def State.start (count : Nat) : State := ⟨Shared.start, List.replicate count .idle⟩

/-- A thread does one step. `src/data.rs` lines 27-52. -/
def State.step (t : Tid) (s : State) : Option State :=
  match s.threads[t]? with
  | none => none
  | some phase => (OriginThreads.step t s.shared phase).map fun (shared, phase) => ⟨shared, s.threads.set t phase⟩

end OriginThreads
end Equistore
