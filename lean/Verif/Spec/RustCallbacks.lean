import Verif.Model.RustCallbacks
import Verif.Spec.RustArrays

/-!
# Specification vocabulary for the callbacks of Rust arrays, as called from C
-/

namespace Equistore
namespace Spec
namespace RustCallbacks

open _root_.Equistore.Spec.RustArrays _root_.Equistore.RustArrays _root_.Equistore.RustCallbacks

/-- The pointers which can not be `NULL`, in the order of the parameters: their names, and are they given? -/
def pointers : Call → List (String × Bool)
  | .origin array out => [("array", array.isSome), ("origin", out.isSome)]
  | .shape array out count => [("array", array.isSome), ("shape", out.isSome), ("shape_count", count.isSome)]
  | .reshape array _ _ => [("array", array.isSome)]
  | .swapAxes array _ _ => [("array", array.isSome)]
  | .create array _ _ storage => [("array", array.isSome), ("array_storage", storage != .null)]
  | .data array out => [("array", array.isSome), ("data", out.isSome)]
  | .copy array storage => [("array", array.isSome), ("array_storage", storage != .null)]
  | .move output input _ _ _ _ => [("output", output.isSome), ("input", input.isSome)]

/-- The first of these pointers which is `NULL`. -/
def FirstNull (name : String) (call : Call) : Prop :=
  ∃ before after, pointers call = before ++ (name, false) :: after ∧ ∀ p ∈ before, p.2 = true

/-- The pointer and the number of elements of an array in C: `NULL` for no elements, or memory with enough elements. -/
def InMemory {α : Type} (memory : Option (List α)) (count : Nat) (content : List α) : Prop :=
  match memory with
  | none => count = 0 ∧ content = []
  | some m => count ≤ m.length ∧ content = m.take count

variable {D : Type}

/-- The pointer is the one of an array, which has this value. -/
def At (s : State D) (array : Ptr) (d : D) : Prop := ∃ address, array = some address ∧ s.boxes address = some d

/-- The structure has nothing to be freed, or an array of Rust which exists. -/
def Initialised (s : State D) (storage : Storage) : Prop :=
  ∃ a, storage = .holds a ∧ (a.destroy = none ∨ a.destroy = some .rust ∧ ∃ d, At s a.ptr d)

/-- The array which is replaced by a new one in this structure. -/
def replaced : Storage → Option Nat
  | .holds a => if a.destroy = none then none else a.ptr
  | _ => none

/-- A call with correct pointers: the ones for results are given, the arrays exist, arrays in C have the given number of elements, and
samples are not moved from an array to itself. The structure for a new array is given, and can have any content. -/
def Correct (s : State D) : Call → Prop
  | .origin array out => (∃ d, At s array d) ∧ out.isSome
  | .shape array out count => (∃ d, At s array d) ∧ out.isSome ∧ count.isSome
  | .reshape array dims count => (∃ d, At s array d) ∧ ∃ shape, InMemory dims count shape
  | .swapAxes array _ _ => ∃ d, At s array d
  | .create array dims count storage => (∃ d, At s array d) ∧ (∃ shape, InMemory dims count shape) ∧ storage ≠ .null
  | .data array out => (∃ d, At s array d) ∧ out.isSome
  | .copy array storage => (∃ d, At s array d) ∧ storage ≠ .null
  | .move output input samples count _ _ =>
    (∃ d, At s output d) ∧ (∃ d, At s input d) ∧ output ≠ input ∧ ∃ content, InMemory samples count content

/-- What else is needed: arrays in C are not `NULL`, and structures for new arrays are initialised. -/
def Careful (s : State D) : Call → Prop
  | .reshape _ dims _ => dims ≠ none
  | .create _ dims _ storage => dims ≠ none ∧ Initialised s storage
  | .copy _ storage => Initialised s storage
  | .move _ _ samples _ _ _ => samples ≠ none
  | _ => True

/-- What the caller sees of a method: success and its value, or the status of internal errors, nothing written and the message
of the panic. `boxes` are the arrays afterwards. -/
def Replies {α : Type} (thread : ThreadId) (s : State D) (boxes : Nat → Option D) (e : Except String α) (f : α → Written)
    (r : State D × Int32 × Option Written) : Prop :=
  r.1.boxes = boxes ∧ r.1.messages = said thread s.messages e ∧
    match e with
    | .ok a => r.2 = (0, some (f a))
    | .error _ => r.2 = (255, none)

/-- Change the array at this pointer. -/
def put (s : State D) (array : Ptr) (d : D) : Nat → Option D := fun i => if array = some i then some d else s.boxes i

/-- The structure for the array at this address, with all functions. -/
def allRust (address : Nat) : CArrayT :=
  { ptr := some address, origin := some .rust, data := some .rust, shape := some .rust, reshape := some .rust, swapAxes := some .rust,
    create := some .rust, copy := some .rust, destroy := some .rust, moveSamplesFrom := some .rust }

/-- What the caller sees when an array was made: it is a new one, and the one which was in the structure is freed. -/
def Makes [DynArray D] (thread : ThreadId) (s : State D) (e : Except String D) (storage : Storage)
    (r : State D × Int32 × Option Written) : Prop :=
  match e with
  | .ok new => ∃ address a, s.boxes address = none ∧ a = allRust address ∧
      Replies thread s (fun i => if i = address then some new else if replaced storage = some i then none else s.boxes i)
        (.ok a : Except String CArrayT) .array r
  | .error m => Replies thread s s.boxes (.error m : Except String CArrayT) .array r

/-- What the call should do: the same as the method of the array. -/
def Does [DynArray D] (thread : ThreadId) (s : State D) : Call → State D × Int32 × Option Written → Prop
  | .origin array _, r => ∃ d, At s array d ∧ Replies thread s s.boxes (DynArray.origin d) .origin r
  | .shape array _ _, r =>
    ∃ d, At s array d ∧ Replies thread s s.boxes (DynArray.shape d) (fun shape => .shape shape shape.length) r
  | .reshape array dims count, r => ∃ d shape, At s array d ∧ InMemory dims count shape ∧
      Replies thread s (put s array (DynArray.reshape d shape).1) (DynArray.reshape d shape).2 (fun _ => .nothing) r
  | .swapAxes array axis₁ axis₂, r => ∃ d, At s array d ∧
      Replies thread s (put s array (DynArray.swapAxes d axis₁ axis₂).1) (DynArray.swapAxes d axis₁ axis₂).2 (fun _ => .nothing) r
  | .create array dims count storage, r => ∃ d shape, At s array d ∧ InMemory dims count shape ∧
      Makes thread s (DynArray.create d shape) storage r
  | .data array _, r => ∃ d, At s array d ∧ Replies thread s s.boxes (DynArray.data d) .data r
  | .copy array storage, r => ∃ d, At s array d ∧ Makes thread s (DynArray.copy d) storage r
  | .move output input samples count start stop, r => ∃ d source content, At s output d ∧ At s input source ∧
      InMemory samples count content ∧
      Replies thread s (put s output (DynArray.moveSamplesFrom d source content start stop).1)
        (DynArray.moveSamplesFrom d source content start stop).2 (fun _ => .nothing) r

/-- Addresses which were not given to any array yet are free, and all arrays are honest. -/
def Memory (Good : D → Prop) (s : State D) : Prop :=
  (∀ address, s.next ≤ address → s.boxes address = none) ∧ ∀ address d, s.boxes address = some d → Good d

end RustCallbacks
end Spec
end Equistore
