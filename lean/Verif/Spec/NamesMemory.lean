import Verif.Model.NamesMemory

/-!
# Specification vocabulary for the memory of names
-/

namespace Equistore
namespace Spec
namespace Names

open NamesMemory

/-- What can have names. -/
inductive Kind where
  | block
  | labels
  deriving DecidableEq

/-- The blocks and labels of a program, in the order in which they were made, with their names; `none` after they
are dropped. There is no memory here: this is what the program expects. -/
abbrev Content : Type := List (Option (Kind × List String))

/-- A string which can be a name: there is no NUL in it. -/
def CanBeName (s : String) : Prop := '\x00' ∉ s.toList

instance (s : String) : Decidable (CanBeName s) := inferInstanceAs (Decidable (_ ∉ _))

/-- What the program expects after a call. -/
def Content.after (c : Call) (content : Content) : Content :=
  match c with
  | .block => content ++ [some (.block, [])]
  | .labels names => if ∀ s ∈ names, CanBeName s then content ++ [some (.labels, names)] else content
  | .add i name _ => match content[i]? with
    | some (some (kind, names)) => if CanBeName name then content.set i (some (kind, names ++ [name])) else content
    | _ => content
  | .copy i => content ++ content[i]?.toList
  | .drop i => content.set i none

/-- The names of something which was not dropped. -/
def Content.names (content : Content) (i : Nat) : Option (List String) := (content[i]?.join).map (·.2)

/-- Calls a program can make: only use what was not dropped, and only blocks have gradients. -/
def Call.Allowed (content : Content) : Call → Prop
  | .block | .labels _ => True
  | .add i _ _ => ∃ names, content[i]? = some (some (.block, names))
  | .copy i | .drop i => (content.names i).isSome

/-- A program: any number of calls, all of them allowed. Its state, and what it expects. -/
inductive Run : State → Content → Prop
  | start : Run State.start []
  | step {s s' : State} {content : Content} {c : Call} {r : Res Unit} : Run s content → Call.Allowed content c →
      c.run s = some (s', r) → Run s' (content.after c)

/-- From here to there by any number of allowed calls with a property. -/
inductive Later (P : Call → Prop) : State → Content → State → Content → Prop
  | refl (s : State) (content : Content) : Later P s content s content
  | step {s s' s'' : State} {content content' : Content} {c : Call} {r : Res Unit} :
      Later P s content s' content' → Call.Allowed content' c → P c → c.run s' = some (s'', r) →
      Later P s content s'' (content'.after c)

/-- The call does not drop this block or these labels. -/
def Keeps (i : Nat) (c : Call) : Prop := c ≠ .drop i

/-- The call neither drops this block nor adds a gradient to it. -/
def LeavesAlone (i : Nat) (c : Call) : Prop := c ≠ .drop i ∧ ∀ name inPlace, c ≠ .add i name inPlace

/-- A C program reads a string: `none` if the memory is not there. -/
def readString (m : Memory) (a : Addr) : Option String :=
  match m.cells a with
  | some (.str bytes) => if 0 ∈ bytes then cstrStr bytes else none
  | _ => none

/-- A C program reads the first `count` pointers in a list of names: `none` if the memory is not there. -/
def readPointers (m : Memory) (pointer : Option Addr) (count : Nat) : Option (List Addr) :=
  if count = 0 then some []
  else match pointer.bind m.cells with
    | some (.list entries _) => if count ≤ entries.length then some (entries.take count) else none
    | _ => none

/-- A C program reads all names in the list it got: `none` if some of the memory is not there. -/
def readNames (m : Memory) (list : Option Addr × Nat) : Option (List String) :=
  (readPointers m list.1 list.2).bind fun pointers => pointers.mapM (readString m)

end Names
end Spec
end Equistore
