import Verif.Model.Res

/-!
# Labels

Models `src/labels.rs` (and the content-based equality of `src/utils.rs`).
-/

namespace Equistore

/-- `LabelValue`, `src/labels.rs` lines 14-16: a 32-bit signed integer, with the
derived (signed) order. -/
abbrev LabelValue := Int32

namespace LabelValue

/-- `From<usize> for LabelValue`, `src/labels.rs` lines 55-60. Note the strict
bound: `i32::MAX` itself is rejected. -/
def ofUsize (value : Nat) : Res LabelValue := do
  Res.assert (value < 2147483647) "assertion failed: value < i32::MAX as usize"
  return Int32.ofNat value

/-- `From<isize> for LabelValue`, `src/labels.rs` lines 62-67. -/
def ofIsize (value : Int) : Res LabelValue := do
  Res.assert (value < 2147483647 && value > -2147483648)
    "assertion failed: value < i32::MAX as isize && value > i32::MIN as isize"
  return Int32.ofInt value

/-- `LabelValue::usize`, `src/labels.rs` lines 75-80. Simplification: for a
negative value a debug build panics here, while a release build produces
a number that is at least 2^63, which every caller in the crate immediately uses
as an index in a `Vec` (always shorter than 2^63), which panics. Both are
modelled as a panic here; see `usizeIn` and C97. -/
def usize (value : LabelValue) : Res Nat := do
  Res.assert (0 ≤ value.toInt) "assertion failed: self.0 >= 0"
  return value.toInt.toNat

end LabelValue

/-- Rust `slice::chunks_exact(n)`: the consecutive chunks of `n` elements,
dropping an incomplete one at the end. Used in `src/labels.rs` line 295. -/
def chunksExact {α : Type} (n : Nat) (l : List α) : List (List α) :=
  (List.range (l.length / n)).map fun i => (l.drop (i * n)).take n

/-- `is_valid_label_name`, `src/labels.rs` lines 188-204. -/
def isValidLabelName (name : String) : Bool :=
  if name.isEmpty then
    false
  else
    name.toList.zipIdx.all fun (c, i) =>
      !(i == 0 && c.isDigit) && (c.isAlphanum || c == '_')

/-- `LabelsBuilder`, `src/labels.rs` lines 94-99. The `HashMap` `positions` is
modelled by the list of its entries. -/
structure LabelsBuilder where
  names : List String
  values : List LabelValue
  positions : List (List LabelValue × Nat)
  deriving DecidableEq, Repr

/-- `Labels`, `src/labels.rs` lines 214-226, with the derived equality (names
compare by content, `src/utils.rs`). `values` is the flat row-major array. -/
structure Labels where
  names : List String
  values : List LabelValue
  positions : List (List LabelValue × Nat)
  deriving DecidableEq, Repr

/-- Number of distinct elements: the `len()` of a `BTreeSet` collected from a
list. Used in `src/labels.rs` line 108 and `src/blocks.rs` line 68. -/
def countDistinct {α : Type} [DecidableEq α] (l : List α) : Nat :=
  l.eraseDups.length

namespace LabelsBuilder

/-- `LabelsBuilder::new`, `src/labels.rs` lines 103-116. -/
def new (names : List String) : Res LabelsBuilder := do
  match names.find? (fun name => !isValidLabelName name) with
  | some name =>
    Res.panic s!"all labels names must be valid identifiers, '{name}' is not"
  | none =>
    Res.assert (countDistinct names == names.length)
      "invalid labels: the same name is used multiple times"
    return { names, values := [], positions := [] }

/-- `LabelsBuilder::size`, `src/labels.rs` lines 125-127. -/
def size (b : LabelsBuilder) : Nat := b.names.length

/-- `LabelsBuilder::add`, `src/labels.rs` lines 133-156, with the builder left
behind. `values` is extended before the duplicate check. -/
def addState (b : LabelsBuilder) (entry : List LabelValue) : LabelsBuilder × Res Unit :=
  if b.size ≠ entry.length then
    (b, .panic s!"wrong size for added label: got {entry.length}, but expected {b.size}")
  else
    let values := b.values ++ entry
    let newPosition := b.positions.length
    match b.positions.lookup entry with
    | some position =>
      ({ b with values },
       .panic s!"can not have the same label value multiple time: [{String.intercalate ", " (entry.map toString)}] is already present at position {position}")
    | none =>
      ({ b with values, positions := b.positions ++ [(entry, newPosition)] }, .ok ())

/-- `LabelsBuilder::add` when the builder is not used after a panic. `src/labels.rs` lines 133-156. -/
def add (b : LabelsBuilder) (entry : List LabelValue) : Res LabelsBuilder :=
  match b.addState entry with
  | (b', .ok ()) => .ok b'
  | (_, .err e) => .err e
  | (_, .panic m) => .panic m

/-- A loop `for entry in entries { builder.add(entry); }`. For example `src/io/labels.rs` lines 32-34. -/
def addAll (b : LabelsBuilder) : List (List LabelValue) → Res LabelsBuilder
  | [] => .ok b
  | entry :: entries => do
    let b ← b.add entry
    b.addAll entries

/-- `LabelsBuilder::contains`, `src/labels.rs` lines 159-161. -/
def contains (b : LabelsBuilder) (label : List LabelValue) : Bool :=
  (b.positions.lookup label).isSome

/-- `LabelsBuilder::finish`, `src/labels.rs` lines 164-183. The conversion of
names to C strings can not fail, since valid names contain no NUL. -/
def finish (b : LabelsBuilder) : Res Labels := do
  if b.names.isEmpty then
    Res.assert b.values.isEmpty "assertion failed: self.values.is_empty()"
    return { names := [], values := [], positions := [] }
  else
    return { names := b.names, values := b.values, positions := b.positions }

end LabelsBuilder

namespace Labels

/-- The whole life of a builder: `new`, a loop of `add`, `finish`. `src/labels.rs` lines 103-184. -/
def build (names : List String) (entries : List (List LabelValue)) : Res Labels := do
  let builder ← LabelsBuilder.new names
  let builder ← builder.addAll entries
  builder.finish

/-- `Labels::single`, `src/labels.rs` lines 250-255. -/
def single : Res Labels := do
  let builder ← LabelsBuilder.new ["_"]
  let builder ← builder.add [0]
  builder.finish

/-- `Labels::size`, `src/labels.rs` lines 258-260. -/
def size (l : Labels) : Nat := l.names.length

/-- `Labels::count`, `src/labels.rs` lines 274-276. Dividing by a zero size
panics. -/
def count (l : Labels) : Res Nat := do
  Res.assert (l.size != 0) "attempt to divide by zero"
  return l.values.length / l.size

/-- `Labels::contains`, `src/labels.rs` lines 279-281. -/
def contains (l : Labels) (label : List LabelValue) : Bool :=
  (l.positions.lookup label).isSome

/-- `Labels::position`, `src/labels.rs` lines 285-289. -/
def position (l : Labels) (value : List LabelValue) : Res (Option Nat) := do
  Res.assert (value.length == l.size) "invalid size of index in Labels::position"
  return l.positions.lookup value

/-- The entries of the flat array `values`, cut in rows of `size` values. `src/labels.rs` lines 292-297. -/
def rows (l : Labels) : List (List LabelValue) := chunksExact l.size l.values

/-- `Labels::iter` run to the end, `src/labels.rs` lines 292-297 and 325-341.
`chunks_exact(0)` panics. -/
def iter (l : Labels) : Res (List (List LabelValue)) := do
  Res.assert (l.size != 0) "chunk size must be non-zero"
  return l.rows

/-- `FixedSizeIter::next`, `src/labels.rs` lines 380-391. `split_at` panics when
there are not enough values. -/
def fixedSizeNext (n : Nat) (values : List LabelValue) :
    Res (Option (List LabelValue × List LabelValue)) :=
  if values.isEmpty then
    .ok none
  else if n ≤ values.length then
    .ok (some (values.take n, values.drop n))
  else
    .panic "mid > len"

/-- Running a `FixedSizeIter` to the end. `fuel` bounds the number of calls to
`next`, it is enough to give it the number of values. `src/labels.rs` lines 380-391. -/
def fixedSizeCollect (n : Nat) : Nat → List LabelValue → Res (List (List LabelValue))
  | fuel, values => do
    match ← fixedSizeNext n values with
    | none => return []
    | some (entry, rest) =>
      match fuel with
      | 0 => .panic "does not terminate"
      | fuel + 1 =>
        let entries ← fixedSizeCollect n fuel rest
        return entry :: entries

/-- `Labels::iter_fixed_size` run to the end, `src/labels.rs` lines 310-321. -/
def iterFixedSize (build : Build) (n : Nat) (l : Labels) : Res (List (List LabelValue)) := do
  build.debugAssert (l.size != 0)
    "attempt to calculate the remainder with a divisor of zero"
  Res.assert (n == l.size) "wrong label size in `iter_fixed_size`"
  fixedSizeCollect n l.values.length l.values

/-- `Index<usize> for Labels`, `src/labels.rs` lines 407-414: the slice
`values[i * size .. (i + 1) * size]`, panicking when it is out of range. -/
def index (l : Labels) (i : Nat) : Res (List LabelValue) :=
  let start := i * l.size
  let stop := (i + 1) * l.size
  if stop ≤ l.values.length then
    .ok ((l.values.drop start).take (stop - start))
  else
    .panic "range end index out of range for slice"

end Labels

end Equistore
