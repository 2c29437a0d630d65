import Verif.Model.RustArrays

/-!
# Specification vocabulary for arrays of Rust behind the structure of C

A program using arrays through `eqs_array_t`, and what it should do: the same as a program using the arrays directly.
-/

namespace Equistore
namespace Spec
namespace RustArrays

open Equistore.RustArrays

/-- What a program does. Variables are numbered in the order in which they are made. -/
inductive Cmd (D : Type) where
  | new (d : D)
  | origin (i : Nat)
  | shape (i : Nat)
  | data (i : Nat)
  | reshape (i : Nat) (shape : List Nat)
  | swapAxes (i : Nat) (axis₁ axis₂ : Nat)
  | create (i : Nat) (shape : List Nat)
  | clone (i : Nat)
  | move (output input : Nat) (samples : List SampleMapping) (start stop : Nat)
  | asArray (i : Nat)
  | change (i : Nat) (change : NdArray → NdArray)
  | drop (i : Nat)

/-- What it gets. -/
inductive Answer where
  | nothing
  | number (n : Nat)
  | shape (shape : List Nat)
  | data (data : List Elt)
  | array (a : NdArray)
  deriving DecidableEq

/-- The variables of a program using the arrays directly (`none` after a drop), and the last errors of the threads. -/
structure Values (D : Type) where
  arrays : List (Option D)
  messages : Messages

/-- What the function of `eqs_array_t` with this name should return for a method of the trait: its value, or an error with
the status of internal errors if it panicked. -/
def outcome {α : Type} (name : String) : Except String α → Res α
  | .ok a => .ok a
  | .error _ => .err (.external 255 ("calling eqs_array_t." ++ name ++ " failed"))

/-- The last error of this thread after a method: the message of its panic. -/
def said {α : Type} (thread : ThreadId) (m : Messages) : Except String α → Messages
  | .ok _ => m
  | .error message => m.set thread ("internal error: " ++ message)

variable {D : Type} [DynArray D]

/-- The value of a variable. -/
def Values.get (v : Values D) (i : Nat) : Option D := (v.arrays[i]?).join

/-- Does the array say that it has this origin? A panic counts as the origin 0, which is not given to anybody. -/
def isOwn (own : Nat) (d : D) : Bool :=
  match DynArray.origin d with
  | .ok id => id = own
  | .error _ => 0 = own

/-- A program using the arrays directly. `none` if it uses variables which do not exist, or an array as input and output:
this does not compile. -/
def Cmd.direct (thread : ThreadId) (own : Nat) : Cmd D → Values D → Option (Values D × Res Answer)
  | .new d, v => some ({ v with arrays := v.arrays ++ [some d] }, .ok .nothing)
  | .origin i, v => (v.get i).map fun d =>
    ({ v with messages := said thread v.messages (DynArray.origin d) },
      Answer.number <$> outcome "origin" (DynArray.origin d))
  | .shape i, v => (v.get i).map fun d =>
    ({ v with messages := said thread v.messages (DynArray.shape d) },
      Answer.shape <$> outcome "shape" (DynArray.shape d))
  | .data i, v => (v.get i).map fun d =>
    match DynArray.shape d with
    | .error m => ({ v with messages := said thread v.messages (DynArray.shape d) },
        (outcome "shape" (.error m) : Res Answer))
    | .ok _ => ({ v with messages := said thread v.messages (DynArray.data d) },
        Answer.data <$> outcome "data" (DynArray.data d))
  | .reshape i dims, v => (v.get i).map fun d =>
    let r := DynArray.reshape d dims
    (⟨v.arrays.set i (some r.1), said thread v.messages r.2⟩, (fun _ => Answer.nothing) <$> outcome "reshape" r.2)
  | .swapAxes i axis₁ axis₂, v => (v.get i).map fun d =>
    let r := DynArray.swapAxes d axis₁ axis₂
    (⟨v.arrays.set i (some r.1), said thread v.messages r.2⟩, (fun _ => Answer.nothing) <$> outcome "swap_axes" r.2)
  | .create i dims, v => (v.get i).map fun d =>
    match DynArray.create d dims with
    | .ok made => ({ v with arrays := v.arrays ++ [some made] }, .ok .nothing)
    | .error m => ({ v with messages := said thread v.messages (DynArray.create d dims) },
        (outcome "create" (.error m) : Res Answer))
  | .clone i, v => (v.get i).map fun d =>
    match DynArray.copy d with
    | .ok made => ({ v with arrays := v.arrays ++ [some made] }, .ok .nothing)
    | .error _ => ({ v with messages := said thread v.messages (DynArray.copy d) },
        .panic "calling eqs_array_t.copy failed")
  | .move output input samples start stop, v =>
    if output = input then none else
    match v.get output, v.get input with
    | some d, some source =>
      let r := DynArray.moveSamplesFrom d source samples start stop
      some (⟨v.arrays.set output (some r.1), said thread v.messages r.2⟩,
        (fun _ => Answer.nothing) <$> outcome "move_samples_from" r.2)
    | _, _ => none
  | .asArray i, v => (v.get i).map fun d =>
    ({ v with messages := said thread v.messages (DynArray.origin d) },
      if isOwn own d then
        match DynArray.ndarray d with
        | some a => .ok (.array a)
        | none => .panic "invalid array type"
      else .panic "this array was not created by rust ndarray")
  | .change i f, v => (v.get i).map fun d =>
    let messages := said thread v.messages (DynArray.origin d)
    if isOwn own d then
      match DynArray.ndarray d with
      | some a => (⟨v.arrays.set i (some (DynArray.ofNdarray (f a))), messages⟩, .ok .nothing)
      | none => ({ v with messages }, .panic "invalid array type")
    else ({ v with messages }, .panic "this array was not created by rust ndarray")
  | .drop i, v => (v.get i).map fun _ => ({ v with arrays := v.arrays.set i none }, .ok .nothing)

/-- The memory and the variables of a program using `eqs_array_t`. -/
structure Machine (D : Type) where
  state : State D
  handles : List (Option CArrayT)

/-- The variable of a program. -/
def Machine.get (m : Machine D) (i : Nat) : Option CArrayT := (m.handles[i]?).join

/-- Run something on the memory, where the result is not a new variable. -/
def Machine.look (m : Machine D) {α : Type} (f : α → Answer) (x : CAct (State D) α) : Option (Machine D × Res Answer) :=
  (x m.state).map fun r => ({ m with state := r.1 }, f <$> r.2)

/-- Run something which makes a new array. -/
def Machine.make (m : Machine D) (x : CAct (State D) CArrayT) : Option (Machine D × Res Answer) :=
  match x m.state with
  | none => none
  | some (s, .ok a) => some (⟨s, m.handles ++ [some a]⟩, .ok .nothing)
  | some (s, .err e) => some (⟨s, m.handles⟩, .err e)
  | some (s, .panic p) => some (⟨s, m.handles⟩, .panic p)

/-- A program using `eqs_array_t`. `none` is undefined behaviour, or a program which does not compile. -/
def Cmd.run (thread : ThreadId) (foreign : Foreign D) (own : Nat) : Cmd D → Machine D → Option (Machine D × Res Answer)
  | .new d, m => some (⟨(CArrayT.new d m.state).1, m.handles ++ [some (CArrayT.new d m.state).2]⟩, .ok .nothing)
  | .origin i, m => (m.get i).bind fun a => m.look .number (a.getOrigin thread foreign)
  | .shape i, m => (m.get i).bind fun a => m.look .shape (a.getShape thread foreign)
  | .data i, m => (m.get i).bind fun a => m.look .data (a.getData thread foreign)
  | .reshape i dims, m => (m.get i).bind fun a => m.look (fun _ => .nothing) (a.doReshape thread foreign dims)
  | .swapAxes i axis₁ axis₂, m =>
    (m.get i).bind fun a => m.look (fun _ => .nothing) (a.doSwapAxes thread foreign axis₁ axis₂)
  | .create i dims, m => (m.get i).bind fun a => m.make (a.doCreate thread foreign dims)
  | .clone i, m => (m.get i).bind fun a => m.make (a.clone thread foreign)
  | .move output input samples start stop, m =>
    if output = input then none else
    (m.get output).bind fun a => (m.get input).bind fun b =>
      m.look (fun _ => .nothing) (a.doMove thread foreign b samples start stop)
  | .asArray i, m => (m.get i).bind fun a => m.look .array (a.asArray thread foreign own)
  | .change i f, m =>
    (m.get i).bind fun a => m.look (fun _ => .nothing) (a.asArrayMut thread foreign own f)
  | .drop i, m => (m.get i).bind fun a => (a.drop foreign m.state).map fun s => (⟨s, m.handles.set i none⟩, .ok .nothing)

/-- All answers of a program using `eqs_array_t`. -/
def runAll (thread : ThreadId) (foreign : Foreign D) (own : Nat) :
    List (Cmd D) → Machine D → Option (Machine D × List (Res Answer))
  | [], m => some (m, [])
  | c :: rest, m =>
    match c.run thread foreign own m with
    | none => none
    | some (m, r) => (runAll thread foreign own rest m).map fun x => (x.1, r :: x.2)

/-- All answers of a program using the arrays directly. -/
def directAll (thread : ThreadId) (own : Nat) : List (Cmd D) → Values D → Option (Values D × List (Res Answer))
  | [], v => some (v, [])
  | c :: rest, v =>
    match c.direct thread own v with
    | none => none
    | some (v, r) => (directAll thread own rest v).map fun x => (x.1, r :: x.2)

/-- When the program starts. -/
def Machine.start : Machine D := ⟨⟨fun _ => none, 0, Messages.init⟩, []⟩

/-- When the program starts. -/
def Values.start : Values D := ⟨[], Messages.init⟩

/-- The program with `eqs_array_t` does the same as the one without: it gets the same answers, the last errors are the same,
and the boxes in memory are the arrays which were not dropped yet, each of them once. -/
def Agrees (thread : ThreadId) (foreign : Foreign D) (own : Nat) (program : List (Cmd D)) : Prop :=
  ∀ v answers, directAll thread own program Values.start = some (v, answers) →
    ∃ m, runAll thread foreign own program Machine.start = some (m, answers) ∧ m.state.messages = v.messages ∧
      ∃ addresses : List (Option Nat),
        (∀ (i j address : Nat), addresses[i]? = some (some address) → addresses[j]? = some (some address) → i = j) ∧
        v.arrays = addresses.map (fun o => o.bind m.state.boxes) ∧
        ∀ address, (m.state.boxes address).isSome ↔ some address ∈ addresses

/-- A panic whose message can be stored in a C string. -/
def NoNul {α : Type} (r : Except String α) : Prop := ∀ m, r = .error m → '\x00' ∉ m.toList

/-- Arrays doing what the trait does not say, but what the callbacks need: there is data for the whole shape, and messages of
panics have no NUL. `Good` is true of the arrays which are used, and stays true. -/
structure Honest (Good : D → Prop) : Prop where
  data : ∀ d shape data, Good d → DynArray.shape d = .ok shape → DynArray.data d = .ok data →
    data.length = shapeSize shape
  origin_nul : ∀ d : D, Good d → NoNul (DynArray.origin d)
  shape_nul : ∀ d : D, Good d → NoNul (DynArray.shape d)
  data_nul : ∀ d : D, Good d → NoNul (DynArray.data d)
  copy_nul : ∀ d : D, Good d → NoNul (DynArray.copy d)
  create_nul : ∀ (d : D) shape, Good d → NoNul (DynArray.create d shape)
  reshape_nul : ∀ (d : D) shape, Good d → NoNul (DynArray.reshape d shape).2
  swap_nul : ∀ (d : D) i j, Good d → NoNul (DynArray.swapAxes d i j).2
  move_nul : ∀ (d d' : D) samples start stop, Good d → Good d' → NoNul (DynArray.moveSamplesFrom d d' samples start stop).2
  copy : ∀ (d d' : D), Good d → DynArray.copy d = .ok d' → Good d'
  create : ∀ (d d' : D) shape, Good d → DynArray.create d shape = .ok d' → Good d'
  reshape : ∀ (d : D) shape, Good d → Good (DynArray.reshape d shape).1
  swap : ∀ (d : D) i j, Good d → Good (DynArray.swapAxes d i j).1
  move : ∀ (d d' : D) samples start stop, Good d → Good d' → Good (DynArray.moveSamplesFrom d d' samples start stop).1

/-- The arrays given to `eqs_array_t` by a program. -/
def Cmd.Uses (Good : D → Prop) : Cmd D → Prop
  | .new d => Good d
  | .change _ f => ∀ a, Good (DynArray.ofNdarray (f a))
  | _ => True

/-! ### The arrays of the crate -/

/-- The arrays of `ndarray` have as many elements as their shape says. -/
def CrateOk : CrateArray → Prop
  | .ndarray a => a.elements.length = shapeSize a.shape
  | .empty _ => True

/-- Replace one box. -/
def put {D : Type} (boxes : Nat → Option D) (address : Nat) (d : D) : Nat → Option D :=
  fun i => if i = address then some d else boxes i

/-- This was run, returned `r`, and the boxes are now these. -/
def Ends {D α : Type} (x : CAct (State D) α) (s : State D) (r : Res α) (boxes : Nat → Option D) : Prop :=
  ∃ s', x s = some (s', r) ∧ s'.boxes = boxes

/-- The functions of `eqs_array_t` called for a box with an array of this type do what `ArrayLike` says, and change nothing
else. -/
structure Implements (A : Type) [ArrayLike A] (wrap : A → CrateArray) (foreign : Foreign CrateArray) : Prop where
  origin : ∀ thread s x a (h : CArrayT), h = (CArrayT.new (wrap a) { s with next := x }).2 → s.boxes x = some (wrap a) →
    Ends (h.getOrigin thread foreign) s (ArrayLike.origin a) s.boxes
  shape : ∀ thread s x a (h : CArrayT), h = (CArrayT.new (wrap a) { s with next := x }).2 → s.boxes x = some (wrap a) →
    Ends (h.getShape thread foreign) s (ArrayLike.shape a) s.boxes
  data : ∀ thread s x a (h : CArrayT), h = (CArrayT.new (wrap a) { s with next := x }).2 → s.boxes x = some (wrap a) →
    CrateOk (wrap a) → Ends (h.getData thread foreign) s (ArrayLike.data a) s.boxes
  reshape : ∀ thread s x a dims (h : CArrayT), h = (CArrayT.new (wrap a) { s with next := x }).2 →
    s.boxes x = some (wrap a) →
    Ends (h.doReshape thread foreign dims) s (ArrayLike.reshape a dims).2
      (put s.boxes x (wrap (ArrayLike.reshape a dims).1))
  swapAxes : ∀ thread s x a i j (h : CArrayT), h = (CArrayT.new (wrap a) { s with next := x }).2 →
    s.boxes x = some (wrap a) →
    Ends (h.doSwapAxes thread foreign i j) s (ArrayLike.swapAxes a i j).2
      (put s.boxes x (wrap (ArrayLike.swapAxes a i j).1))
  create : ∀ thread s x a dims (h : CArrayT), h = (CArrayT.new (wrap a) { s with next := x }).2 →
    s.boxes x = some (wrap a) →
    ∃ made, ArrayLike.create a dims = .ok made ∧
      Ends (h.doCreate thread foreign dims) s (.ok (CArrayT.new (wrap made) s).2) (put s.boxes s.next (wrap made))
  clone : ∀ thread s x a (h : CArrayT), h = (CArrayT.new (wrap a) { s with next := x }).2 →
    s.boxes x = some (wrap a) →
    Ends (h.clone thread foreign) s (.ok (CArrayT.new (wrap a) s).2) (put s.boxes s.next (wrap a))
  move : ∀ thread s x y a b samples start stop (h h' : CArrayT), h = (CArrayT.new (wrap a) { s with next := x }).2 →
    h' = (CArrayT.new (wrap b) { s with next := y }).2 → s.boxes x = some (wrap a) → s.boxes y = some (wrap b) →
    Ends (h.doMove thread foreign h' samples start stop) s (ArrayLike.moveSamplesFrom a b samples start stop).2
      (put s.boxes x (wrap (ArrayLike.moveSamplesFrom a b samples start stop).1))

end RustArrays
end Spec
end Equistore
