import Verif.Model.Iter
import Verif.Model.Act

/-!
# Iterators, one call at a time

Models the implementations of `Iterator` and `ExactSizeIterator` in
`src/labels.rs` and `src/tensor/iter.rs`, with the methods these traits provide
for types which do not define them. The iterators of the Rust standard library
they are made of (`slice::ChunksExact`, `slice::Iter` and `Zip`) are modelled by
their documented behaviour.
-/

namespace Equistore

/-- A type implementing `Iterator` and `ExactSizeIterator`, with its state `σ`
and items `α`. For example `src/labels.rs` lines 329-341. -/
structure RustIter (σ α : Type) where
  /-- `Iterator::next` -/
  next : Act σ (Option α)
  /-- `Iterator::size_hint`: bounds for the number of items left -/
  sizeHint : σ → Nat × Option Nat
  /-- `ExactSizeIterator::len` -/
  len : σ → Res Nat

namespace RustIter

/-- `Iterator::size_hint` for types which do not define it, such as all the
iterators of the crate (`src/labels.rs` lines 329-335 and 379-392,
`src/tensor/iter.rs` lines 50-56 and 72-83). -/
def defaultSizeHint {σ : Type} : σ → Nat × Option Nat := fun _ => (0, none)

/-- `ExactSizeIterator::len` for types which do not define it, such as `Zip`:
`let (lower, upper) = self.size_hint(); assert_eq!(upper, Some(lower)); lower`.
Used by `self.inner.len()`, `src/tensor/iter.rs` lines 58-62 and 85-89. -/
def defaultLen {σ : Type} (sizeHint : σ → Nat × Option Nat) (s : σ) : Res Nat := do
  let (lower, upper) := sizeHint s
  Res.assert (upper == some lower) "assertion failed: `(left == right)`"
  return lower

/-- `slice::Iter` and `slice::IterMut`. Used in `src/tensor/iter.rs` lines 47 and 69. -/
def slice (α : Type) : RustIter (List α) α where
  next := fun s =>
    match s with
    | [] => ([], .ok none)
    | x :: rest => (rest, .ok (some x))
  sizeHint s := (s.length, some s.length)
  len s := .ok s.length

/-- `Zip::next`: the first iterator advances even if the second one is finished.
Used in `src/tensor/iter.rs` lines 53-55 and 75-82. -/
def zipNext {σ τ α β : Type} (a : RustIter σ α) (b : RustIter τ β) : Act (σ × τ) (Option (α × β)) := do
  let x ← Act.focus Prod.fst (fun s p => (s, p.2)) a.next
  match x with
  | none => return none
  | some x =>
    let y ← Act.focus Prod.snd (fun t p => (p.1, t)) b.next
    match y with
    | none => return none
    | some y => return some (x, y)

/-- `Zip::size_hint`: the minimum of the lower bounds, and of the upper bounds
which are known. Used in `src/tensor/iter.rs` lines 58-62 and 85-89. -/
def zipSizeHint (a b : Nat × Option Nat) : Nat × Option Nat :=
  (min a.1 b.1,
    match a.2, b.2 with
    | some x, some y => some (min x y)
    | some x, none => some x
    | none, some y => some y
    | none, none => none)

/-- `Zip`, used in `src/tensor/iter.rs` lines 47 and 69. -/
def zip {σ τ α β : Type} (a : RustIter σ α) (b : RustIter τ β) : RustIter (σ × τ) (α × β) where
  next := zipNext a b
  sizeHint s := zipSizeHint (a.sizeHint s.1) (b.sizeHint s.2)
  len := defaultLen fun s => zipSizeHint (a.sizeHint s.1) (b.sizeHint s.2)

end RustIter

/-- `labels::Iter`, `src/labels.rs` lines 325-341. `size_hint` is not defined,
`len` is. -/
def labelsIter : RustIter LabelsIter (List LabelValue) where
  next it := (it.next.1, .ok it.next.2)
  sizeHint := RustIter.defaultSizeHint
  len it := .ok it.len

/-- `FixedSizeIter<N>`, `src/labels.rs` lines 375-398. The state is the part of
the values still to visit. -/
def fixedSizeIter (n : Nat) : RustIter (List LabelValue) (List LabelValue) where
  next values :=
    match Labels.fixedSizeNext n values with
    | .ok none => (values, .ok none)
    | .ok (some (entry, rest)) => (rest, .ok (some entry))
    | .err e => (values, .err e)
    | .panic m => (values, .panic m)
  sizeHint := RustIter.defaultSizeHint
  len values := do
    Res.assert (n != 0) "attempt to divide by zero"
    return values.length / n

/-- `Labels::iter_fixed_size`, `src/labels.rs` lines 310-321. -/
def Labels.intoFixedSizeIter (build : Build) (n : Nat) (l : Labels) : Res (List LabelValue) := do
  build.debugAssert (l.size != 0) "attempt to calculate the remainder with a divisor of zero"
  Res.assert (n == l.size) "wrong label size in `iter_fixed_size`"
  return l.values

variable {A : Type}

/-- `Iter` and `IterMut`, `src/tensor/iter.rs` lines 45-62 and 68-89: `next` and
`len` are those of the zipped iterators, `size_hint` is not defined.
Simplification: the `TensorBlockRefMut` of `IterMut` is the block it refers to. -/
def tensorIter (A : Type) :
    RustIter (LabelsIter × List (TensorBlock A)) (List LabelValue × TensorBlock A) where
  next := (RustIter.zip labelsIter (RustIter.slice (TensorBlock A))).next
  sizeHint := RustIter.defaultSizeHint
  len := (RustIter.zip labelsIter (RustIter.slice (TensorBlock A))).len

/-- `TensorMap::iter` and `TensorMap::iter_mut`, `src/tensor/iter.rs` lines 9-21. -/
def TensorMap.intoIter (t : TensorMap A) : Res (LabelsIter × List (TensorBlock A)) := do
  let keys ← t.keys.intoIter
  return (keys, t.blocks)

/-- `IndexedParallelIterator::len` for `ParIter` and `ParIterMut`,
`src/tensor/iter.rs` lines 112-114 and 147-149: the number of chunks or of
blocks, the smaller one. -/
def Producer.len (p : Producer A) : Nat := min (p.values.length / p.size) p.blocks.length

/-- `Labels::par_iter`, `src/labels.rs` lines 299-307: the parallel iterator has the same fields as `Iter`, a chunk size
and the values to visit. `par_chunks_exact(0)` panics; debug builds divide by zero before. -/
def Labels.parIter (build : Build) (l : Labels) : Res LabelsIter := do
  build.debugAssert (l.size != 0) "attempt to calculate the remainder with a divisor of zero"
  Res.assert (l.size != 0) "chunk_size must not be zero"
  return { size := l.size, rest := l.values }

/-- The entries visited by each leaf of a schedule, from left to right, `src/labels.rs` lines 343-373. All functions
there call the ones of `rayon::slice::ChunksExact`, which splits the slice at `index * size` values and panics outside
of it. -/
def LabelsIter.run (it : LabelsIter) : Schedule → Res (List (List (List LabelValue)))
  | .leaf => .ok [chunksExact it.size it.rest]
  | .split index left right => do
    Res.assert (index * it.size ≤ it.rest.length) "mid > len"
    let l ← LabelsIter.run { it with rest := it.rest.take (index * it.size) } left
    let r ← LabelsIter.run { it with rest := it.rest.drop (index * it.size) } right
    return l ++ r

end Equistore
