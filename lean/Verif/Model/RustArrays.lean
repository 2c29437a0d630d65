import Verif.Model.CStatus
import Verif.Model.CMemory
import Verif.Model.Data

/-!
# Arrays of Rust behind the structure of C

Models the functions of `src/data.rs` between the trait `Array` and the structure `eqs_array_t`: the callbacks made from an
array of Rust (lines 517-661), with the memory they use, the functions calling these callbacks (lines 177-452), and
`as_array` (lines 456-487).
-/

namespace Equistore
namespace RustArrays

/-- The trait `Array`, for all types implementing it: `D` is what can be in a `Box<dyn Array>`. A method gives a value, or
panics with a message; methods with `&mut self` also give the new value, when they panic too. The last two are
`downcast_ref` to the arrays of `ndarray`, and replacing the content through `downcast_mut`. `src/data.rs` lines 491-515,
457-487. -/
class DynArray (D : Type) where
  origin : D → Except String Nat
  data : D → Except String (List Elt)
  shape : D → Except String (List Nat)
  reshape : D → List Nat → D × Except String Unit
  swapAxes : D → Nat → Nat → D × Except String Unit
  create : D → List Nat → Except String D
  copy : D → Except String D
  moveSamplesFrom : D → D → List SampleMapping → Nat → Nat → D × Except String Unit
  ndarray : D → Option NdArray
  ofNdarray : NdArray → D

/-- The boxes `Box<Box<dyn Array>>` in memory, where the next one is made, and the last error of the thread. Simplification:
addresses are never used again. `src/data.rs` lines 218-236. -/
structure State (D : Type) where
  boxes : Nat → Option D
  next : Nat
  messages : Messages

/-- A pointer to something of the implementation of arrays, or `NULL`. `src/data.rs` line 77. -/
abbrev Ptr : Type := Option Nat

/-- A function in the table of callbacks: the one of this file, or a function of somebody else. `src/data.rs` lines 224-235. -/
inductive Fn where
  | rust
  | foreign (id : Nat)
  deriving DecidableEq

/-- `eqs_array_t`, `src/data.rs` lines 72-165. -/
structure CArrayT where
  ptr : Ptr
  origin : Option Fn
  data : Option Fn
  shape : Option Fn
  reshape : Option Fn
  swapAxes : Option Fn
  create : Option Fn
  copy : Option Fn
  destroy : Option Fn
  moveSamplesFrom : Option Fn
  deriving DecidableEq

/-- `eqs_array_t::null`, `src/data.rs` lines 256-269. -/
def CArrayT.null : CArrayT := ⟨none, none, none, none, none, none, none, none, none, none⟩

/-- What a callback does: `none` is undefined behaviour, or a panic leaving a C function; otherwise there is a status, and what
was written through the pointers to results, if it was. `src/data.rs` lines 84-165. -/
abbrev Callback (D α : Type) : Type := State D → Option (State D × Int32 × Option α)

/-- Functions of somebody else. Nothing is known about them. `src/data.rs` lines 84-165. -/
structure Foreign (D : Type) where
  origin : Nat → Ptr → Callback D Nat
  data : Nat → Ptr → Callback D (Option (List Elt))
  shape : Nat → Ptr → Callback D (Option (List Nat) × Nat)
  reshape : Nat → Ptr → List Nat → Callback D Unit
  swapAxes : Nat → Ptr → Nat → Nat → Callback D Unit
  create : Nat → Ptr → List Nat → Callback D CArrayT
  copy : Nat → Ptr → Callback D CArrayT
  destroy : Nat → Ptr → State D → Option (State D)
  moveSamplesFrom : Nat → Ptr → Ptr → List SampleMapping → Nat → Nat → Callback D Unit

variable {D : Type} [DynArray D]

/-- A method which panicked, or its value. `src/data.rs` lines 517-661. -/
def ofMethod {α : Type} : Except String α → Res α
  | .ok a => .ok a
  | .error message => .panic message

/-- `catch_unwind` around a callback, `src/c_api/status.rs` lines 74-80, used in `src/data.rs` lines 522-659. -/
def catching {α : Type} (thread : ThreadId) (body : CAct (State D) α) : Callback D α := fun s =>
  match body s with
  | none => none
  | some (s, r) =>
    match catchUnwind thread (do let _ ← r; pure ()) s.messages with
    | (_, none) => none
    | (messages, some status) => some ({ s with messages }, status, match r with
      | .ok a => some a
      | _ => none)

/-- The array at a pointer, which has to be a box. `array.cast::<Box<dyn Array>>()` and `*array`, `src/data.rs` lines 524-526. -/
def deref (address : Nat) : CAct (State D) D := fun s => (s.boxes address).map fun d => (s, .ok d)

/-- Change the array in a box, `&mut **array`, `src/data.rs` line 560. -/
def store (address : Nat) (d : D) : CAct (State D) Unit := fun s =>
  some ({ s with boxes := fun i => if i = address then some d else s.boxes i }, .ok ())

/-- `eqs_array_t::new`, `src/data.rs` lines 218-236. -/
def CArrayT.new (d : D) (s : State D) : State D × CArrayT :=
  ({ s with boxes := fun i => if i = s.next then some d else s.boxes i, next := s.next + 1 },
    ⟨some s.next, some .rust, some .rust, some .rust, some .rust, some .rust, some .rust, some .rust, some .rust, some .rust⟩)

/-- `eqs_array_t::raw_copy`, `src/data.rs` lines 241-254. -/
def CArrayT.rawCopy (a : CArrayT) : CArrayT := { a with destroy := none }

/-- `rust_array_origin`, `src/data.rs` lines 518-529. -/
def rustOrigin (thread : ThreadId) (array : Ptr) : Callback D Nat := catching thread do
  let address ← CAct.lift (checkPointer "array" array)
  let d ← deref address
  CAct.lift (ofMethod (DynArray.origin d))

/-- `rust_array_shape`, `src/data.rs` lines 532-547: the pointer to the shape, which is never `NULL`, and the number of
dimensions. -/
def rustShape (thread : ThreadId) (array : Ptr) : Callback D (Option (List Nat) × Nat) := catching thread do
  let address ← CAct.lift (checkPointer "array" array)
  let d ← deref address
  let shape ← CAct.lift (ofMethod (DynArray.shape d))
  return (some shape, shape.length)

/-- `rust_array_reshape`, `src/data.rs` lines 551-563. Called with a slice, so that the pointer to the shape is not
`NULL`. -/
def rustReshape (thread : ThreadId) (array : Ptr) (shape : List Nat) : Callback D Unit := catching thread do
  let address ← CAct.lift (checkPointer "array" array)
  let d ← deref address
  let (d, r) := DynArray.reshape d shape
  store address d
  CAct.lift (ofMethod r)

/-- `rust_array_swap_axes`, `src/data.rs` lines 567-578. -/
def rustSwapAxes (thread : ThreadId) (array : Ptr) (axis₁ axis₂ : Nat) : Callback D Unit := catching thread do
  let address ← CAct.lift (checkPointer "array" array)
  let d ← deref address
  let (d, r) := DynArray.swapAxes d axis₁ axis₂
  store address d
  CAct.lift (ofMethod r)

/-- `rust_array_create`, `src/data.rs` lines 582-599. -/
def rustCreate (thread : ThreadId) (array : Ptr) (shape : List Nat) : Callback D CArrayT := catching thread do
  let address ← CAct.lift (checkPointer "array" array)
  let d ← deref address
  let new ← CAct.lift (ofMethod (DynArray.create d shape))
  fun s => let (s, a) := CArrayT.new new s; some (s, .ok a)

/-- `rust_array_data`, `src/data.rs` lines 602-612: the memory of the slice. -/
def rustData (thread : ThreadId) (array : Ptr) : Callback D (Option (List Elt)) := catching thread do
  let address ← CAct.lift (checkPointer "array" array)
  let d ← deref address
  let data ← CAct.lift (ofMethod (DynArray.data d))
  return some data

/-- `rust_array_copy`, `src/data.rs` lines 616-627. -/
def rustCopy (thread : ThreadId) (array : Ptr) : Callback D CArrayT := catching thread do
  let address ← CAct.lift (checkPointer "array" array)
  let d ← deref address
  let new ← CAct.lift (ofMethod (DynArray.copy d))
  fun s => let (s, a) := CArrayT.new new s; some (s, .ok a)

/-- `rust_array_destroy`, `src/data.rs` lines 630-638: only a box which exists can be freed. -/
def rustDestroy (array : Ptr) (s : State D) : Option (State D) :=
  match array with
  | none => some s
  | some address => (s.boxes address).map fun _ => { s with boxes := fun i => if i = address then none else s.boxes i }

/-- `rust_array_move_samples_from`, `src/data.rs` lines 642-661. -/
def rustMoveSamplesFrom (thread : ThreadId) (output input : Ptr) (samples : List SampleMapping) (start stop : Nat) :
    Callback D Unit := catching thread do
  let output ← CAct.lift (checkPointer "output" output)
  let input ← CAct.lift (checkPointer "input" input)
  let target ← deref output
  let source ← deref input
  let (d, r) := DynArray.moveSamplesFrom target source samples start stop
  store output d
  CAct.lift (ofMethod r)

/-! ### Functions calling the callbacks -/

/-- Check the status of a callback, `src/data.rs` lines 280-284 and the same lines of the other functions; what the variable
for the result has when nothing was written to it is `initial`. -/
def checked {α : Type} (name : String) (initial : α) (callback : Callback D α) : CAct (State D) α := fun s =>
  match callback s with
  | none => none
  | some (s, status, out) =>
    if status = successStatus then some (s, .ok (out.getD initial))
    else some (s, .err (.external status ("calling eqs_array_t." ++ name ++ " failed")))

/-- `expect` for a missing callback, `src/data.rs` line 273 and the same lines of the other functions. -/
def callback (name : String) (f : Option Fn) : CAct (State D) Fn :=
  CAct.lift (Res.expect f ("eqs_array_t." ++ name ++ " function is NULL"))

variable (thread : ThreadId) (foreign : Foreign D)

/-- `eqs_array_t::origin`, `src/data.rs` lines 272-287. -/
def CArrayT.getOrigin (a : CArrayT) : CAct (State D) Nat := do
  let f ← callback "origin" a.origin
  checked "origin" 0 (match f with
    | .rust => rustOrigin thread a.ptr
    | .foreign id => foreign.origin id a.ptr)

/-- `eqs_array_t::shape`, `src/data.rs` lines 323-348, where a slice can not start at `NULL`. -/
def CArrayT.getShape (a : CArrayT) : CAct (State D) (List Nat) := do
  let f ← callback "shape" a.shape
  let (shape, count) ← checked "shape" (none, 0) (match f with
    | .rust => rustShape thread a.ptr
    | .foreign id => foreign.shape id a.ptr)
  CAct.require (match shape with
    | none => none
    | some memory => if count ≤ memory.length then some (memory.take count) else none)

/-- `eqs_array_t::data`, `src/data.rs` lines 290-319. Simplification: the number of elements does not overflow. -/
def CArrayT.getData (a : CArrayT) : CAct (State D) (List Elt) := do
  let shape ← a.getShape thread foreign
  let f ← callback "data" a.data
  let data ← checked "data" none (match f with
    | .rust => rustData thread a.ptr
    | .foreign id => foreign.data id a.ptr)
  CAct.require (match data with
    | none => none
    | some memory => if shapeSize shape ≤ memory.length then some (memory.take (shapeSize shape)) else none)

/-- `eqs_array_t::reshape`, `src/data.rs` lines 351-369. -/
def CArrayT.doReshape (a : CArrayT) (shape : List Nat) : CAct (State D) Unit := do
  let f ← callback "reshape" a.reshape
  checked "reshape" () (match f with
    | .rust => rustReshape thread a.ptr shape
    | .foreign id => foreign.reshape id a.ptr shape)

/-- `eqs_array_t::swap_axes`, `src/data.rs` lines 372-390. -/
def CArrayT.doSwapAxes (a : CArrayT) (axis₁ axis₂ : Nat) : CAct (State D) Unit := do
  let f ← callback "swap_axes" a.swapAxes
  checked "swap_axes" () (match f with
    | .rust => rustSwapAxes thread a.ptr axis₁ axis₂
    | .foreign id => foreign.swapAxes id a.ptr axis₁ axis₂)

/-- `eqs_array_t::create`, `src/data.rs` lines 393-413. -/
def CArrayT.doCreate (a : CArrayT) (shape : List Nat) : CAct (State D) CArrayT := do
  let f ← callback "create" a.create
  checked "create" CArrayT.null (match f with
    | .rust => rustCreate thread a.ptr shape
    | .foreign id => foreign.create id a.ptr shape)

/-- `eqs_array_t::move_samples_from`, `src/data.rs` lines 426-452. -/
def CArrayT.doMove (a input : CArrayT) (samples : List SampleMapping) (start stop : Nat) : CAct (State D) Unit := do
  let f ← callback "move_samples_from" a.moveSamplesFrom
  checked "move_samples_from" () (match f with
    | .rust => rustMoveSamplesFrom thread a.ptr input.ptr samples start stop
    | .foreign id => foreign.moveSamplesFrom id a.ptr input.ptr samples start stop)

/-- `Clone for eqs_array_t`, `src/data.rs` lines 201-212. -/
def CArrayT.clone (a : CArrayT) : CAct (State D) CArrayT := do
  let f ← CAct.lift (Res.expect a.copy "function eqs_array_t.copy is not set")
  fun s => match (match f with
      | .rust => rustCopy thread a.ptr
      | .foreign id => foreign.copy id a.ptr) s with
    | none => none
    | some (s, status, out) =>
      if status = successStatus then some (s, .ok (out.getD CArrayT.null))
      else some (s, .panic "calling eqs_array_t.copy failed")

/-- `Drop for eqs_array_t`, `src/data.rs` lines 193-199. -/
def CArrayT.drop (a : CArrayT) (s : State D) : Option (State D) :=
  match a.destroy with
  | none => some s
  | some .rust => rustDestroy a.ptr s
  | some (.foreign id) => foreign.destroy id a.ptr s

/-- `Result::unwrap_or`, used in `src/data.rs` lines 459 and 472. -/
def unwrapOr {α : Type} (value : α) (x : CAct (State D) α) : CAct (State D) α := fun s =>
  match x s with
  | some (s, .err _) => some (s, .ok value)
  | r => r

/-- `eqs_array_t::as_array`, `src/data.rs` lines 456-468, where `own` is `NDARRAY_DATA_ORIGIN`. -/
def CArrayT.asArray (own : Nat) (a : CArrayT) : CAct (State D) NdArray := do
  let origin ← unwrapOr 0 (a.getOrigin thread foreign)
  CAct.lift (Res.assert (origin = own) "this array was not created by rust ndarray")
  let d ← match a.ptr with
    | none => CAct.undefined
    | some address => deref address
  CAct.lift (Res.expect (DynArray.ndarray d) "invalid array type")

/-- `eqs_array_t::as_array_mut`, `src/data.rs` lines 470-481, where the program then changes the array with `change`. -/
def CArrayT.asArrayMut (own : Nat) (a : CArrayT) (change : NdArray → NdArray) : CAct (State D) Unit := do
  let array ← a.asArray thread foreign own
  match a.ptr with
  | none => CAct.undefined
  | some address => store address (DynArray.ofNdarray (change array))

/-! ### The arrays of the crate -/

/-- The types implementing `Array` in the crate. `src/data.rs` lines 671 and 754. -/
inductive CrateArray where
  | ndarray (a : NdArray)
  | empty (a : EmptyArray)
  deriving DecidableEq

/-- A function of `ndarray` which panics, with some message. `src/data.rs` lines 700-733. -/
def panics (message : String) (r : Res Unit) : Except String Unit :=
  match r with
  | .ok () => .ok ()
  | _ => .error message

/-- `Array for ndarray::ArrayD<f64>` and for `EmptyArray`, `src/data.rs` lines 671-733 and 754-794, where the origins got these
ids. Simplification: the messages of panics inside `ndarray` are not modelled. -/
instance : DynArray CrateArray where
  origin
    | .ndarray _ => .ok NdArray.originId
    | .empty _ => .ok EmptyArray.originId
  data
    | .ndarray a => .ok a.elements
    | .empty _ => .error "can not call Array::data() for EmptyArray"
  shape
    | .ndarray a => .ok a.shape
    | .empty a => .ok a.shape
  reshape
    | .ndarray a, shape => (.ndarray (a.reshape shape).1, panics "invalid shape" (a.reshape shape).2)
    | .empty _, shape => (.empty { shape }, .ok ())
  swapAxes
    | .ndarray a, i, j => (.ndarray (a.swapAxes i j).1, panics "index out of bounds" (a.swapAxes i j).2)
    | .empty a, i, j =>
      if i < a.shape.length ∧ j < a.shape.length then (.empty { shape := swapList a.shape i j }, .ok ())
      else (.empty a, .error "index out of bounds")
  create
    | .ndarray a, shape => .ok (.ndarray (a.create shape))
    | .empty _, shape => .ok (.empty { shape })
  copy
    | .ndarray a => .ok (.ndarray a)
    | .empty a => .ok (.empty a)
  moveSamplesFrom
    | .ndarray a, .ndarray input, samples, start, stop =>
      let r := a.moveSamplesFrom input samples start stop
      (.ndarray r.1, panics "index out of bounds" r.2)
    | .ndarray a, .empty _, _, _, _ => (.ndarray a, .error "input must be a ndarray")
    | .empty a, _, _, _, _ => (.empty a, .error "can not call Array::move_samples_from() for EmptyArray")
  ndarray
    | .ndarray a => some a
    | .empty _ => none
  ofNdarray := .ndarray

end RustArrays
end Equistore
