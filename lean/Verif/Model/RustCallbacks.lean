import Verif.Model.RustArrays

/-!
# The callbacks of Rust arrays, as called from C

`Model/RustArrays.lean` has the callbacks with the arguments the library gives to them. Here they get all the pointers a program
in C can give: `NULL`, pointers to memory of any size, and a structure for the new array which was not initialised. Models
`src/data.rs` lines 517-660.
-/

namespace Equistore
namespace RustCallbacks

open RustArrays

/-- Where a new array is stored, `*mut eqs_array_t`, `src/data.rs` lines 586 and 618. -/
inductive Storage where
  | null
  /-- memory which was not written yet, for example a local variable in C -/
  | uninitialised
  | holds (a : CArrayT)
  deriving DecidableEq

/-- A pointer given for `check_pointers!`, `src/data.rs` lines 589 and 621. -/
def Storage.pointer : Storage → Option Storage
  | .null => none
  | storage => some storage

/-- A pointer to a result, which is `NULL` or can be written. `src/data.rs` lines 520, 534, 535 and 604. -/
abbrev Result : Type := Option Unit

variable {D : Type} [DynArray D]

/-- `std::slice::from_raw_parts`, `src/data.rs` lines 559, 592 and 655: the pointer can not be `NULL`, also for slices without
elements, and all elements have to be there. -/
def slice {α : Type} (memory : Option (List α)) (count : Nat) : CAct (State D) (List α) :=
  CAct.require (memory.bind fun m => if count ≤ m.length then some (m.take count) else none)

variable (foreign : Foreign D)

/-- `*array_storage = eqs_array_t::new(value)`, `src/data.rs` lines 595 and 623: what was there before is dropped. -/
def assign (storage : Storage) (value : D) : CAct (State D) CArrayT := fun s =>
  let (s, a) := CArrayT.new value s
  match storage with
  | .holds old => (old.drop foreign s).map fun s => (s, .ok a)
  | _ => none

variable (thread : ThreadId)

/-- `rust_array_origin`, `src/data.rs` lines 518-529. -/
def origin (array : Ptr) (origin : Result) : Callback D Nat := catching thread do
  let address ← CAct.lift (checkPointer "array" array)
  let _ ← CAct.lift (checkPointer "origin" origin)
  let d ← deref address
  CAct.lift (ofMethod (DynArray.origin d))

/-- `rust_array_shape`, `src/data.rs` lines 532-547. -/
def shape (array : Ptr) (shape count : Result) : Callback D (List Nat × Nat) := catching thread do
  let address ← CAct.lift (checkPointer "array" array)
  let _ ← CAct.lift (checkPointer "shape" shape)
  let _ ← CAct.lift (checkPointer "shape_count" count)
  let d ← deref address
  let shape ← CAct.lift (ofMethod (DynArray.shape d))
  return (shape, shape.length)

/-- `rust_array_reshape`, `src/data.rs` lines 551-563. -/
def reshape (array : Ptr) (shape : Option (List Nat)) (count : Nat) : Callback D Unit := catching thread do
  let address ← CAct.lift (checkPointer "array" array)
  let shape ← slice shape count
  let d ← deref address
  let (d, r) := DynArray.reshape d shape
  store address d
  CAct.lift (ofMethod r)

/-- `rust_array_swap_axes`, `src/data.rs` lines 567-578. -/
def swapAxes (array : Ptr) (axis₁ axis₂ : Nat) : Callback D Unit := catching thread do
  let address ← CAct.lift (checkPointer "array" array)
  let d ← deref address
  let (d, r) := DynArray.swapAxes d axis₁ axis₂
  store address d
  CAct.lift (ofMethod r)

/-- `rust_array_create`, `src/data.rs` lines 582-599. -/
def create (array : Ptr) (shape : Option (List Nat)) (count : Nat) (storage : Storage) : Callback D CArrayT :=
  catching thread do
    let address ← CAct.lift (checkPointer "array" array)
    let storage ← CAct.lift (checkPointer "array_storage" storage.pointer)
    let shape ← slice shape count
    let d ← deref address
    let new ← CAct.lift (ofMethod (DynArray.create d shape))
    assign foreign storage new

/-- `rust_array_data`, `src/data.rs` lines 602-612. -/
def data (array : Ptr) (data : Result) : Callback D (List Elt) := catching thread do
  let address ← CAct.lift (checkPointer "array" array)
  let _ ← CAct.lift (checkPointer "data" data)
  let d ← deref address
  CAct.lift (ofMethod (DynArray.data d))

/-- `rust_array_copy`, `src/data.rs` lines 616-627. -/
def copy (array : Ptr) (storage : Storage) : Callback D CArrayT := catching thread do
  let address ← CAct.lift (checkPointer "array" array)
  let storage ← CAct.lift (checkPointer "array_storage" storage.pointer)
  let d ← deref address
  let new ← CAct.lift (ofMethod (DynArray.copy d))
  assign foreign storage new

/-- `rust_array_move_samples_from`, `src/data.rs` lines 642-660. The reference to the output is mutable, and no other reference to
the same array is allowed. -/
def moveSamplesFrom (output input : Ptr) (samples : Option (List SampleMapping)) (count start stop : Nat) :
    Callback D Unit := catching thread do
  let output ← CAct.lift (checkPointer "output" output)
  let input ← CAct.lift (checkPointer "input" input)
  let samples ← slice samples count
  CAct.require (if output = input then none else some ())
  let target ← deref output
  let source ← deref input
  let (d, r) := DynArray.moveSamplesFrom target source samples start stop
  store output d
  CAct.lift (ofMethod r)

/-- A call of one of the functions in an `eqs_array_t`, `src/data.rs` lines 84-165. -/
inductive Call where
  | origin (array : Ptr) (origin : Result)
  | shape (array : Ptr) (shape count : Result)
  | reshape (array : Ptr) (shape : Option (List Nat)) (count : Nat)
  | swapAxes (array : Ptr) (axis₁ axis₂ : Nat)
  | create (array : Ptr) (shape : Option (List Nat)) (count : Nat) (storage : Storage)
  | data (array : Ptr) (data : Result)
  | copy (array : Ptr) (storage : Storage)
  | move (output input : Ptr) (samples : Option (List SampleMapping)) (count start stop : Nat)

/-- What is written through the pointers to results, `src/data.rs` lines 84-165. -/
inductive Written where
  | nothing
  | origin (id : Nat)
  | shape (shape : List Nat) (count : Nat)
  | data (data : List Elt)
  | array (a : CArrayT)
  deriving DecidableEq

/-- What a callback writes, as one type. `src/data.rs` lines 517-660. -/
def writing {α : Type} (f : α → Written) (c : Callback D α) : Callback D Written := fun s =>
  (c s).map fun r => (r.1, r.2.1, r.2.2.map f)

/-- The functions of the table made by `eqs_array_t::new`, `src/data.rs` lines 223-234. -/
def Call.run : Call → Callback D Written
  | .origin array out => writing .origin (RustCallbacks.origin thread array out)
  | .shape array out count => writing (fun r => .shape r.1 r.2) (RustCallbacks.shape thread array out count)
  | .reshape array dims count => writing (fun _ => .nothing) (RustCallbacks.reshape thread array dims count)
  | .swapAxes array axis₁ axis₂ => writing (fun _ => .nothing) (RustCallbacks.swapAxes thread array axis₁ axis₂)
  | .create array dims count storage => writing .array (RustCallbacks.create foreign thread array dims count storage)
  | .data array out => writing .data (RustCallbacks.data thread array out)
  | .copy array storage => writing .array (RustCallbacks.copy foreign thread array storage)
  | .move output input samples count start stop =>
    writing (fun _ => .nothing) (RustCallbacks.moveSamplesFrom thread output input samples count start stop)

end RustCallbacks
end Equistore
