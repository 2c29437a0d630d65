import Verif.Model.PyArrays
import Verif.Spec.PyViews

/-!
# How long arrays taken from blocks can be used in Python
-/

namespace Equistore
namespace Spec

/-- What a program has seen. -/
structure ArrayLedger where
  py : PyLedger
  /-- where arrays of the library have been taken from: the `TensorBlock`, and `"values"` or the name of a gradient -/
  sources : List (Nat × Bytes)
  /-- the arrays which should not be used any more -/
  expired : List Nat

/-- A program which has not done anything. -/
def ArrayLedger.empty : ArrayLedger := { py := PyLedger.empty, sources := [], expired := [] }

section
variable {B : Type}

/-- After this statement, arrays which were taken from this block before should not be used any more:

- the block was given to `TensorMap()`, also if there was an exception;
- the block was taken from a tensor map, and `keys_to_properties` or `keys_to_samples` have changed this tensor map, or
  `components_to_properties` was called on it.

This is the same as for properties of the block. -/
def arrayExpires (s : PyState B) (l : PyLedger) (b : Nat) (c : PyCall B) (reply : PyReply) : Bool :=
  (PySource.block b [] 1).expires s l c reply

/-- This statement follows those of the rules which are in `rules`, and does not write to arrays which should not be used
any more. -/
def ArrayCall.Careful (rules : PyRule → Prop) (s : ArrayState B) (l : ArrayLedger) : ArrayCall B → Prop
  | .statement c => PyCall.Careful rules s.py l.py c
  | .data b _ => rules .stale → b ∉ l.py.stale
  | .write v _ => v ∉ l.expired
  | .drop _ => True

/-- What the program has seen after a statement, where `s` is the state before. -/
def ArrayLedger.record (s : ArrayState B) (l : ArrayLedger) : ArrayCall B → ArrayReply → ArrayLedger
  | .statement c, .statement reply =>
    { l with
      py := l.py.record s.py c reply
      expired := ((List.range l.sources.length).filter fun v =>
        l.sources[v]?.any fun source => arrayExpires s.py l.py source.1 c reply) ++ l.expired }
  | .data b name, .view _ => { l with sources := l.sources ++ [(b, name)] }
  | _, _ => l

/-- Python programs following some rules: the objects, and what the program has seen, after any sequence of
statements. -/
inductive ArrayRun [Inhabited B] [ArrayCallbacks B] (rules : PyRule → Prop) : ArrayState B → ArrayLedger → Prop
  | start : ArrayRun rules ArrayState.empty ArrayLedger.empty
  | step {s s' : ArrayState B} {l : ArrayLedger} {c : ArrayCall B} {reply : ArrayReply} (p : Platform) :
    ArrayRun rules s l → ArrayCall.Careful rules s l c → c.run p s = some (s', reply) →
    ArrayRun rules s' (l.record s c reply)

end
end Spec

variable {B : Type}

/-- The array of the library behind a numpy array. -/
def ArrayState.memory (s : ArrayState B) (v : Nat) : Option B :=
  match s.arrays[v]? with
  | some (some view) => s.py.heap.arrays view.array
  | _ => none

/-- Two numpy arrays point to the same memory. -/
def ArrayState.Shared (s : ArrayState B) (v w : Nat) : Prop :=
  ∃ a b, s.arrays[v]? = some (some a) ∧ s.arrays[w]? = some (some b) ∧ a.array = b.array

end Equistore
