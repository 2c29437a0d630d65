import Verif.Model.PyObjects

/-!
# Correct use of the Python API

Rules for Python programs using `TensorBlock` and `TensorMap`, stated in terms of what the program did and
got back.
-/

namespace Equistore
namespace Spec

/-- Things a Python program should not do. -/
inductive PyRule where
  /-- a block which was given to `TensorMap()` before is not given to `TensorMap()` again, also if there was an
  exception -/
  | moved
  /-- a block taken from a tensor map is not used after a successful `keys_to_properties` or `keys_to_samples`
  on that tensor map -/
  | stale
  /-- no gradients are added to blocks taken from a tensor map -/
  | gradients
  /-- a list which was given to `TensorMap()` is not changed as long as the tensor map exists -/
  | lists
  /-- `TensorMap()` gets valid keys, and a list without repetition of blocks which do not come from a tensor
  map -/
  | accepted
  deriving DecidableEq

/-- What a program has seen. -/
structure PyLedger where
  /-- the blocks which were in a list given to `TensorMap()` -/
  moved : List Nat
  /-- the blocks which were in a list given to `TensorMap()`, when it succeeded -/
  given : List Nat
  /-- the blocks taken from a tensor map, with the tensor map -/
  views : List (Nat × Nat)
  /-- the blocks taken from a tensor map before it was changed by `keys_to_properties` or
  `keys_to_samples` -/
  stale : List Nat

/-- A program which has not done anything. -/
def PyLedger.empty : PyLedger := { moved := [], given := [], views := [], stale := [] }

section
variable {B : Type}

/-- This statement follows those of the rules which are in `rules`. -/
def PyCall.Careful (rules : PyRule → Prop) (s : PyState B) (l : PyLedger) : PyCall B → Prop
  | .newTensor keys i =>
    (rules .moved → ∀ b ∈ s.lists.getD i [], b ∉ l.moved) ∧
    (rules .accepted → (∃ labels, Labels.ofC keys = .ok labels) ∧ (s.lists.getD i []).Nodup ∧
      ∀ b ∈ s.lists.getD i [], ∀ t, (b, t) ∉ l.views)
  | .setList i _ => rules .lists → ∀ t o, s.tensors t = some o → o.blocks ≠ i
  | .addGradient b _ _ _ _ =>
    (rules .stale → b ∉ l.stale) ∧ (rules .gradients → ∀ t, (b, t) ∉ l.views)
  | .labels b _ _ | .data b _ | .gradientsList b | .copyBlock b => rules .stale → b ∉ l.stale
  | _ => True

/-- What the program has seen after a statement, where `s` is the state before. -/
def PyLedger.record (s : PyState B) (l : PyLedger) : PyCall B → PyReply → PyLedger
  | .newTensor _ i, .tensor _ =>
    { l with moved := s.lists.getD i [] ++ l.moved, given := s.lists.getD i [] ++ l.given }
  | .newTensor _ i, _ => { l with moved := s.lists.getD i [] ++ l.moved }
  | .block t _, .block b => { l with views := (b, t) :: l.views }
  | .keysToProperties t _ _ _, .done =>
    { l with stale := (l.views.filter fun v => v.2 = t).map (·.1) ++ l.stale }
  | .keysToSamples t _ _ _, .done =>
    { l with stale := (l.views.filter fun v => v.2 = t).map (·.1) ++ l.stale }
  | _, _ => l

/-- Python programs following some rules: the objects, and what the program has seen, after any sequence of
statements. -/
inductive PyRun [Inhabited B] [ArrayCallbacks B] (rules : PyRule → Prop) : PyState B → PyLedger → Prop
  | start : PyRun rules PyState.empty PyLedger.empty
  | step {s s' : PyState B} {l : PyLedger} {c : PyCall B} {reply : PyReply} (p : Platform) :
    PyRun rules s l → PyCall.Careful rules s l c → c.run p s = some (s', reply) →
    PyRun rules s' (l.record s c reply)

/-- No objects are left. -/
def PyState.Deleted (s : PyState B) : Prop := (∀ b, s.blocks b = none) ∧ ∀ t, s.tensors t = none

/-- A block or tensor map of the C API which some Python object will free when it is deleted uses this
array. -/
def PyState.Holds (s : PyState B) (a : Nat) : Prop :=
  (∃ b o n blk, s.blocks b = some o ∧ o.owning = true ∧ o.ptr = .owned n ∧ s.heap.blocks n = some blk ∧
    a ∈ blk.arrays.map (·.ptr)) ∨
  (∃ t o n tensor v, s.tensors t = some o ∧ o.ptr = some n ∧ s.heap.tensors n = some (tensor, v) ∧
    a ∈ tensor.arrays.map (·.ptr))

end
end Spec
end Equistore
