import Verif.Model.PySelection

/-!
# Printing tensor maps in Python

Models `TensorMap.__repr__` and `TensorMap.__str__` in `equistore/tensor.py`, and `_print_labels` in
`equistore/labels.py`. Texts are lists of characters.
-/

namespace Equistore

/-- An integer in decimal, `"{}".format(x)`. Used in `equistore/labels.py` lines 317-326. -/
def decimal (x : Int) : List Char := (toString x).toList

/-- `text.rjust(width)`, and `"{:>width}".format(text)`. Used in `equistore/labels.py` lines 307 and 326. -/
def rjust (width : Nat) (text : List Char) : List Char := List.replicate (width - text.length) ' ' ++ text

/-- `_make_padding`, `equistore/labels.py` lines 316-326. -/
def makePadding (value : LabelValue) (width prev : Nat) : List Char := rjust (prev + width / 2) (decimal value.toInt)

/-- The values of one entry, inner loops in `equistore/labels.py` lines 294-296, 301-303 and 308-310. -/
def printEntry : (prev : Nat) → (widths : List Nat) → List LabelValue → List Char
  | prev, width :: widths, value :: entry => makePadding value width prev ++ printEntry (width / 2) widths entry
  | _, _, _ => []

/-- The loops over entries, `equistore/labels.py` lines 293-298, 300-305 and 307-312. -/
def printEntries (prev : Nat) (widths : List Nat) (entries : List (List LabelValue)) : List Char :=
  entries.flatMap fun entry => printEntry prev widths entry ++ ['\n']

/-- `for entry in labels`. `equistore/labels.py` lines 294, 301, 308. -/
def PyLabels.iterate (v : PyLabels) : Except PyExc (List (List LabelValue)) :=
  match v.entries with
  | some entries => .ok entries
  | none => .error .exception

/-- `_print_labels`, `equistore/labels.py` lines 258-313. Simplification: labels without names, where
`width[0]` raises an exception, are not different from others. -/
def printLabels (labels : PyLabels) (header : List Char) (limit : Nat) : Except PyExc (List Char) := do
  let limit := if limit < 6 then 6 else limit
  let names := header ++ ": [".toList ++ labels.names.flatMap fun n => "'".toList ++ n.toList ++ "' ".toList
  let widths := labels.names.map fun n => n.length + 3
  let names := if labels.count > 0 then names.dropLast else names
  let names := names ++ "]\n".toList
  let prev := header.length + 3
  if labels.count ≤ limit then
    let entries ← labels.iterate
    return (names ++ printEntries prev widths entries).dropLast
  else
    let first ← labels.getItem (.slice none (some 3) none)
    let first ← first.iterate
    let last ← labels.getItem (.slice (some (-3)) none none)
    let last ← last.iterate
    return (names ++ printEntries prev widths first ++ rjust (prev + widths.headD 0 / 2) "...\n".toList ++
      printEntries prev widths last).dropLast

variable {A : Type} [ArrayLike A]

/-- `repr(tensor)`, `equistore/tensor.py` lines 85-88. -/
def pyRepr (t : TensorMap A) : Except PyExc (List Char) := do
  let len ← pyLen t
  let keys ← pyKeys t
  let labels ← printLabels keys "keys".toList 10
  return "TensorMap with ".toList ++ decimal len ++ " blocks\n".toList ++ labels

/-- `str(tensor)` and `print(tensor)`, `equistore/tensor.py` lines 90-97. -/
def pyStr (t : TensorMap A) : Except PyExc (List Char) := do
  let len ← pyLen t
  let keys ← pyKeys t
  let labels ← printLabels keys "keys".toList (len + 1)
  return "TensorMap with ".toList ++ decimal len ++ " blocks\n".toList ++ labels

end Equistore
