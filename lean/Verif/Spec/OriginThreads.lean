import Verif.Model.OriginThreads

/-!
# Specification vocabulary for threads using the registry of data origins
-/

namespace Equistore
namespace Spec
namespace OriginThreads

open Equistore.OriginThreads

/-- What can be seen from outside: a thread makes a call, or a call returns. -/
inductive Event where
  | call (thread : Tid) (call : Call)
  | ret (thread : Tid) (reply : Reply)
  deriving DecidableEq

/-- An execution of `count` threads, in any schedule, with everything which was seen. -/
inductive Exec (count : Nat) : State → List Event → Prop
  | start : Exec count (State.start count) []
  | call {s : State} {seen : List Event} {t : Tid} (c : Call) : Exec count s seen → s.threads[t]? = some .idle →
      Exec count ⟨s.shared, s.threads.set t c.begin⟩ (seen ++ [.call t c])
  | step {s s' : State} {seen : List Event} {t : Tid} : Exec count s seen → s.step t = some s' → Exec count s' seen
  | ret {s : State} {seen : List Event} {t : Tid} {r : Reply} : Exec count s seen →
      s.threads[t]? = some (.returning r) → Exec count ⟨s.shared, s.threads.set t .idle⟩ (seen ++ [.ret t r])

/-- The state changes without a new call: a thread does a step, or a call returns. -/
inductive Moves : State → State → Prop
  | step {s s' : State} {t : Tid} : s.step t = some s' → Moves s s'
  | ret {s : State} {t : Tid} {r : Reply} : s.threads[t]? = some (.returning r) →
      Moves s ⟨s.shared, s.threads.set t .idle⟩

/-- One call after the other, without threads: the registry after a call, and what it returns. -/
def alone (names : List String) : Call → List String × Reply
  | .register name => ((Origins.register names name).1, .id (Origins.register names name).2)
  | .own which => ((Origins.register names which.name).1, .id (Origins.register names which.name).2)
  | .get id => (names, match Origins.get names id with
    | .ok name => .name name
    | .panic m => .panic m
    | .err _ => .panic "")

/-- Calls with the thread making them and their replies, in an order in which they could be made one after the other. -/
def Sequential : List String → List (Tid × Call × Reply) → Prop
  | _, [] => True
  | names, (_, c, r) :: rest => r = (alone names c).2 ∧ Sequential (alone names c).1 rest

/-- The calls made by a thread. -/
def callsOf (t : Tid) (seen : List Event) : List Call :=
  seen.filterMap fun e => match e with
    | .call t' c => if t' = t then some c else none
    | _ => none

/-- What the calls of a thread returned. -/
def repliesOf (t : Tid) (seen : List Event) : List Reply :=
  seen.filterMap fun e => match e with
    | .ret t' r => if t' = t then some r else none
    | _ => none

/-- The calls of a thread in a sequential order. -/
def ofThread (t : Tid) (order : List (Tid × Call × Reply)) : List (Call × Reply) :=
  order.filterMap fun (t', c, r) => if t' = t then some (c, r) else none

/-- What was seen can be explained by making the calls one after the other, in this order:
- the replies are the ones of this order;
- each thread made these calls, and got these replies; its last call may not be in the order yet, or may be there
  although it did not return yet;
- at any time there is a first part of the order with all calls which had returned, and only calls which had been made:
  a call which returned before another one was made comes before it. -/
structure Explains (order : List (Tid × Call × Reply)) (seen : List Event) : Prop where
  sequential : Sequential Origins.init order
  calls : ∀ t, (ofThread t order).map (·.1) <+: callsOf t seen
  replies : ∀ t, repliesOf t seen <+: (ofThread t order).map (·.2)
  realTime : ∀ n ≤ seen.length, ∃ k ≤ order.length, ∀ t,
    (repliesOf t (seen.take n)).length ≤ (ofThread t (order.take k)).length ∧
    (ofThread t (order.take k)).length ≤ (callsOf t (seen.take n)).length

/-- The state after some number of moves. -/
inductive MovesTo : Nat → State → State → Prop
  | done {s : State} : MovesTo 0 s s
  | more {n : Nat} {s s' s'' : State} : MovesTo n s s' → Moves s' s'' → MovesTo (n + 1) s s''

/-- No call is being made. -/
def Quiet (s : State) : Prop := ∀ p ∈ s.threads, p = .idle

/-- The `k`-th call of a thread, and what it returned. -/
def Answered (seen : List Event) (t : Tid) (k : Nat) (c : Call) (r : Reply) : Prop :=
  (callsOf t seen)[k]? = some c ∧ (repliesOf t seen)[k]? = some r

instance (seen : List Event) (t : Tid) (k : Nat) (c : Call) (r : Reply) : Decidable (Answered seen t k c r) :=
  inferInstanceAs (Decidable (_ ∧ _))

/-- The name for which a call gets an id. -/
def asks : Call → Option String
  | .register name => some name
  | .own which => some which.name
  | .get _ => none

/-- A call is not a panic. -/
def NoPanic (seen : List Event) : Prop := ∀ t m, Event.ret t (.panic m) ∉ seen

end OriginThreads
end Spec
end Equistore
