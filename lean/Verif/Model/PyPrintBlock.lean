import Verif.Model.PyBlock

/-!
# Printing blocks and gradients in Python

Models `TensorBlock.__repr__` and `Gradient.__repr__` in `equistore/block.py`. Texts are lists of characters.
-/

namespace Equistore
variable {A : Type} [ArrayLike A]

/-- `for name in names[:-1]: s += "'" + name + "', "` then `s += "'" + names[-1] + "']"`, `equistore/block.py` lines 140-142,
152-154, 158-160, 313-315 and 325-327. -/
def printNames (names : List String) : Except PyExc (List Char) :=
  match names.getLast? with
  | some last =>
    .ok ((names.dropLast.flatMap fun n => "'".toList ++ n.toList ++ "', ".toList) ++ "'".toList ++ last.toList ++ "']".toList)
  | none => .error .indexError

/-- The text `s` with the names of the components, `equistore/block.py` lines 145-150 and 318-323. -/
def printComponents (s : List Char) (components : List PyLabels) : List Char :=
  let s := components.foldl
    (fun s ic => ic.names.foldl (fun s name => s ++ "'".toList ++ name.toList ++ "', ".toList) s) s
  let s := if components.length > 0 then s.dropLast.dropLast else s
  s ++ "]\n".toList

/-- `repr(block)`, `equistore/block.py` lines 137-164. -/
def pyReprBlock (b : TensorBlock A) : Except PyExc (List Char) := do
  let s := "TensorBlock\n".toList
  let s := s ++ "    samples: [".toList
  let samples ← pySamples b "values"
  let s := s ++ (← printNames samples.names)
  let s := s ++ "\n".toList
  let s := s ++ "    component: [".toList
  let components ← pyComponents b "values"
  let s := printComponents s components
  let s := s ++ "    properties: [".toList
  let properties ← pyProperties b "values"
  let s := s ++ (← printNames properties.names) ++ "\n".toList
  let s := s ++ "    gradients: ".toList
  let gradients ← pyGradientsList b
  if gradients.length > 0 then
    return s ++ "[".toList ++ (← printNames gradients)
  else
    return s ++ "no".toList

/-- `repr(gradient)`, `equistore/block.py` lines 309-329. -/
def pyReprGradient (b : TensorBlock A) (name : String) : Except PyExc (List Char) := do
  let s := "Gradient TensorBlock \n".toList
  let s := s ++ "parameter: '".toList ++ name.toList ++ "'\n".toList
  let s := s ++ "samples: [".toList
  let samples ← pySamples b name
  let s := s ++ (← printNames samples.names)
  let s := s ++ "\n".toList
  let s := s ++ "component: [".toList
  let components ← pyComponents b name
  let s := printComponents s components
  let s := s ++ "properties: [".toList
  let properties ← pyProperties b name
  return s ++ (← printNames properties.names)

end Equistore
