import Verif.Model.PyViews
import Verif.Spec.Python
import Verif.Spec.Lifetimes

/-!
# How long labels can be used in Python

A program which takes labels from blocks and tensor maps, stated in terms of what the program did and got back.
-/

namespace Equistore
namespace Spec

/-- Where labels have been taken from: an axis of the values or of a gradient of a block, or the keys of a tensor
map. -/
inductive PySource where
  | block (b : Nat) (name : Bytes) (axis : Nat)
  | keys (t : Nat)
  deriving DecidableEq

/-- The statement which takes labels from there. -/
def PySource.call {B : Type} : PySource → ViewCall B
  | .block b name axis => .labels b name axis
  | .keys t => .keys t

/-- What a program has seen. -/
structure ViewLedger where
  py : PyLedger
  /-- where the views have been taken from -/
  sources : List PySource
  /-- the views which should not be used any more -/
  expired : List Nat

/-- A program which has not done anything. -/
def ViewLedger.empty : ViewLedger := { py := PyLedger.empty, sources := [], expired := [] }

section
variable {B : Type}

/-- After this statement, labels which were taken from there before should not be used any more:

- the block was given to `TensorMap()`, also if there was an exception;
- the block was taken from a tensor map, or these are the keys of a tensor map, and `keys_to_properties` or
  `keys_to_samples` have changed this tensor map;
- the block was taken from a tensor map, these are not samples, and `components_to_properties` was called on this
  tensor map. -/
def PySource.expires (s : PyState B) (l : PyLedger) : PySource → PyCall B → PyReply → Bool
  | .block b _ _, .newTensor _ i, _ => (s.lists.getD i []).contains b
  | .block b _ _, .keysToProperties t _ _ _, .done => l.views.contains (b, t)
  | .block b _ _, .keysToSamples t _ _ _, .done => l.views.contains (b, t)
  | .block b _ axis, .componentsToProperties t _ _, _ => l.views.contains (b, t) && axis != 0
  | .keys t, .keysToProperties t' _ _ _, .done => t = t'
  | .keys t, .keysToSamples t' _ _ _, .done => t = t'
  | _, _, _ => false

/-- This statement follows those of the rules which are in `rules`. -/
def ViewCall.Careful (rules : PyRule → Prop) (s : ViewState B) (l : ViewLedger) : ViewCall B → Prop
  | .statement c => PyCall.Careful rules s.py l.py c
  | .labels b _ _ => rules .stale → b ∉ l.py.stale
  | _ => True

/-- What the program has seen after a statement, where `s` is the state before. -/
def ViewLedger.record (s : ViewState B) (l : ViewLedger) : ViewCall B → ViewReply → ViewLedger
  | .statement c, .statement reply =>
    { l with
      py := l.py.record s.py c reply
      expired := ((List.range l.sources.length).filter fun v =>
        l.sources[v]?.any fun source => source.expires s.py l.py c reply) ++ l.expired }
  | .labels b name axis, .view _ => { l with sources := l.sources ++ [.block b name axis] }
  | .keys t, .view _ => { l with sources := l.sources ++ [.keys t] }
  | _, _ => l

/-- Python programs following some rules: the objects, and what the program has seen, after any sequence of
statements. -/
inductive ViewRun [Inhabited B] [ArrayCallbacks B] (rules : PyRule → Prop) : ViewState B → ViewLedger → Prop
  | start : ViewRun rules ViewState.empty ViewLedger.empty
  | step {s s' : ViewState B} {l : ViewLedger} {c : ViewCall B} {reply : ViewReply} (p : Platform) :
    ViewRun rules s l → ViewCall.Careful rules s l c → c.run p s = some (s', reply) →
    ViewRun rules s' (l.record s c reply)

end
end Spec
end Equistore
